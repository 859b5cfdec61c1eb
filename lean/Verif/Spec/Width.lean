import Verif.Model.Width
import Verif.Spec.Universal
/-!
# Targets whose `usize` has `w` bits
-/
namespace Asn1.Spec
open Asn1

/-- Two answers are the same, or both are errors, and the second is `InvalidLength`. -/
def SameOrTooLong {α : Type} (f g : Except PErr α) : Prop :=
  g = f ∨ ((∃ e, f = .error e) ∧ ∃ j, g = .error (.error j .invalidLength))

/-- Two answers are the same, or the second is `InvalidLength`. -/
def SameOrRefused {α : Type} (f g : Except PErr α) : Prop :=
  g = f ∨ ∃ j, g = .error (.error j .invalidLength)

/-- The same for byte slices. -/
def SameOrTooLongS {α : Type} (f g : Except SErr α) : Prop :=
  g = f ∨ ((∃ e, f = .error e) ∧ g = .error (.error .invalidLength))

/-- The types of ASN.1 whose content has no headers inside (in BER). -/
inductive NoHeaders : {α : Type} → Codec α → Prop
  | uint (N) : NoHeaders (uintC N)
  | int (N) : NoHeaders (intC N)
  | integer : NoHeaders integerC
  | bool : NoHeaders boolC
  | null : NoHeaders nullC
  | enumerated : NoHeaders enumC
  | oid : NoHeaders oidC
  | real (lib) : NoHeaders (realC lib)
  | utc : NoHeaders utcC
  | gen : NoHeaders genC
  | refStr : NoHeaders refStrC

/-- And those for which this is so in DER, where strings are primitive. -/
inductive NoHeadersDer : {α : Type} → Codec α → Prop
  | plain {α : Type} {c : Codec α} (h : NoHeaders c) : NoHeadersDer c
  | octet : NoHeadersDer octetC
  | bit : NoHeadersDer bitC
  | str (k) : NoHeadersDer (strC k)
  | string : NoHeadersDer stringC
  | bmp : NoHeadersDer bmpC
  | univ : NoHeadersDer univC

/-- The strings that may be constructed in BER, for 64 bits and for `w`. -/
inductive StringsBer (w : Nat) : {α : Type} → Codec α → Parser α → Prop
  | octet : StringsBer w octetC (octetBerW w)
  | bit : StringsBer w bitC (bitBerW w)
  | str (k) : StringsBer w (strC k) (strBerW w k.tag k)
  | string : StringsBer w stringC (strBerW w 12 utf8StringK)
  | bmp : StringsBer w bmpC (bmpBerW w)
  | univ : StringsBer w univC (univBerW w)

/-- `Any::parse_ber` or `Any::parse_der`, which read the items of a list. -/
def itemsOf : Rules → Input → PRes Any
  | .ber => anyBer.parseBer
  | .der => anyDer.parseDer

mutual

/-- The second decoder is the first one compiled for a target whose `usize` has `w` bits: plain types, `Any`, `Vec`,
arrays, `SetOf` and sets, tagged values, structs, CHOICE and enumerations, nested in any way. Fields may be OPTIONAL or have a DEFAULT only
if `o` says so. -/
inductive Compiled (w : Nat) (m : Rules) (o : Bool) : {α : Type} → Parser α → Parser α → Prop
  | ber {α : Type} {c : Codec α} (h : NoHeaders c) (hm : m = .ber) : Compiled w m o c.ber c.ber
  | der {α : Type} {c : Codec α} (h : NoHeadersDer c) (hm : m = .der) : Compiled w m o c.der c.der
  | strings {α : Type} {c : Codec α} {p' : Parser α} (h : StringsBer w c p') (hm : m = .ber) : Compiled w m o c.ber p'
  | enumBer (ds) (hm : m = .ber) : Compiled w m o (enumP enumeratedBer ds) (enumP enumeratedBer ds)
  | enumDer (ds) (hm : m = .der) : Compiled w m o (enumP enumeratedDer ds) (enumP enumeratedDer ds)
  | anyBer (hm : m = .ber) : Compiled w m o anyBer anyBer
  | anyDer (hm : m = .der) : Compiled w m o anyDer anyDer
  | vec {α : Type} {p p' : Parser α} (h : Compiled w m o p p') :
      Compiled w m o (vecP (itemsOf m) p) (vecP (m.anyParseW w) p')
  | array {α : Type} {p p' : Parser α} {N} (h : Compiled w m o p p') :
      Compiled w m o (arrayP N (itemsOf m) p) (arrayP N (m.anyParseW w) p')
  | setOf {α : Type} {p p' : Parser α} (h : Compiled w m o p p') :
      Compiled w m o (setOfP (itemsOf m) p) (setOfP (m.anyParseW w) p')
  | set {α σ : Type} {p p' : Parser α} (S : SetImpl α σ) (h : Compiled w m o p p') :
      Compiled w m o (setP S (itemsOf m) p) (setP S (m.anyParseW w) p')
  | explicit {α : Type} {p p' : Parser α} {cls n} (h : Compiled w m o p p') :
      Compiled w m o (explicitP cls n (m.parse p)) (explicitP cls n (m.parseW w p'))
  | implicit {α : Type} {p p' : Parser α} {cls n} (h : Compiled w m o p p') :
      Compiled w m o (implicitP cls n p) (implicitP cls n p')
  | struct {Ts : List Type} {fs fs' : Fields Ts} {tag} (h : CompiledFields w m o fs fs') :
      Compiled w m o (structP m tag fs) (structW w m tag fs')
  | choice {Ts : List Type} {vs vs' : Variants Ts} {k} (h : CompiledVariants w m o vs vs') :
      Compiled w m o (choiceP m k vs) (choiceW w m k vs')

/-- The same for the variants of a CHOICE. -/
inductive CompiledVariants (w : Nat) (m : Rules) (o : Bool) : {Ts : List Type} → Variants Ts → Variants Ts → Prop
  | nil : CompiledVariants w m o .nil .nil
  | cons {T : Type} {Ts : List Type} {t} {p p' : Parser T} {vs vs' : Variants Ts} (h : Compiled w m o p p')
      (ht : CompiledVariants w m o vs vs') : CompiledVariants w m o (.cons t p vs) (.cons t p' vs')

/-- The same for the fields of a struct. -/
inductive CompiledFields (w : Nat) (m : Rules) (o : Bool) : {Ts : List Type} → Fields Ts → Fields Ts → Prop
  | nil : CompiledFields w m o .nil .nil
  | required {T : Type} {Ts : List Type} {p p' : Parser T} {fs fs' : Fields Ts} {tag} (h : Compiled w m o p p')
      (ht : CompiledFields w m o fs fs') :
      CompiledFields w m o (.cons (.required tag p) fs) (.cons (.required tag p') fs')
  | optional {T : Type} {Ts : List Type} {p p' : Parser T} {fs fs' : Fields Ts} {tag} (ho : o = true)
      (h : Compiled w m o p p') (ht : CompiledFields w m o fs fs') :
      CompiledFields w m o (.cons (.optional tag p) fs) (.cons (.optional tag p') fs')
  | default {T : Type} {Ts : List Type} {p p' : Parser T} {x : T} {fs fs' : Fields Ts} {tag} (ho : o = true)
      (h : Compiled w m o p p') (ht : CompiledFields w m o fs fs') :
      CompiledFields w m o (.cons (.default tag p x) fs) (.cons (.default tag p' x) fs')

end

end Asn1.Spec

import Verif.Spec.Built
/-!
# How much a decoded value holds

`Weighed pb pd w`: `pb` and `pd` are the `BerParser` and the `DerParser` of a type made from the universal
types by the type constructors of the crate, and `w` is how much a value of that type holds: one for each
item of a collection, and one for each byte of a string, of an INTEGER of any size, of an OBJECT IDENTIFIER or
of an untyped content. What has a fixed size (numbers, BOOLEAN, NULL, times, REAL) counts for nothing.
-/
namespace Asn1.Spec
open Asn1

/-- The universal types whose values have a fixed size. -/
inductive FixedSize : {α : Type} → Codec α → Prop
  | uint (N : Nat) (hN : 1 ≤ N ∧ N ≤ 16) : FixedSize (uintC N)
  | int (N : Nat) (hN : 1 ≤ N ∧ N ≤ 16) : FixedSize (intC N)
  | bool : FixedSize boolC
  | null : FixedSize nullC
  | enumerated : FixedSize enumC
  | utcTime : FixedSize utcC
  | generalizedTime : FixedSize genC

/-- Each item, and what it holds. -/
def itemsWeight {α : Type} (w : α → Nat) : List α → Nat
  | [] => 0
  | x :: l => 1 + w x + itemsWeight w l

/-- What may be missing. -/
def optionWeight {α : Type} (w : α → Nat) : Option α → Nat
  | none => 0
  | some x => w x

/-- One alternative or the others. -/
def eitherWeight {α β : Type} (w : α → Nat) (ws : β → Nat) : α ⊕ β → Nat
  | .inl x => w x
  | .inr y => ws y

/-- The identification of an EMBEDDED PDV. -/
def pdvIdWeight : PdvIdentification → Nat
  | .syntaxes a b => a.asn1.length + b.asn1.length
  | .syntax a => a.asn1.length
  | .presentationContextId i => i.data.length
  | .contextNegotiation i a => i.data.length + a.asn1.length
  | .transferSyntax a => a.asn1.length
  | .fixed => 0

mutual

/-- How much the values of a type hold. -/
inductive Weighed : {α : Type} → Parser α → Parser α → (α → Nat) → Prop
  | fixed {α : Type} {c : Codec α} (h : FixedSize c) : Weighed c.ber c.der (fun _ => 0)
  | integer : Weighed integerC.ber integerC.der (fun v => v.data.length)
  | octetString : Weighed octetC.ber octetC.der List.length
  | bitString : Weighed bitC.ber bitC.der (fun v => v.raw.length)
  | oid : Weighed oidC.ber oidC.der (fun v => v.asn1.length)
  | text {k : StrKind} {tag : Nat} {A : Char → Bool} (hk : StringType k tag A) :
      Weighed (strC k).ber (strC k).der Text.byteLen
  | refStr : Weighed refStrC.ber refStrC.der Text.byteLen
  | string : Weighed stringC.ber stringC.der Text.byteLen
  | bmpString : Weighed bmpC.ber bmpC.der Text.byteLen
  | universalString : Weighed univC.ber univC.der Text.byteLen
  | real (lib : FloatLib) : Weighed (realP lib) (realP lib) (fun _ => 0)
  | f64 (lib : FloatLib) : Weighed (f64P lib) (f64P lib) (fun _ => 0)
  | f32 (lib : FloatLib) : Weighed (f32P lib) (f32P lib) (fun _ => 0)
  | boolean : Weighed booleanBer booleanDer (fun _ => 0)
  | slice : Weighed sliceBer sliceDer List.length
  | any : Weighed anyBer anyDer (fun a => a.data.data.length)
  | embeddedPdv : Weighed pdvP pdvP (fun v =>
      pdvIdWeight v.identification + optionWeight Text.byteLen v.dataValueDescriptor + v.dataValue.length)
  | vec {α : Type} {pb pd : Parser α} {w : α → Nat} (h : Weighed pb pd w) :
      Weighed (vecBer pb) (vecDer pd) (itemsWeight w)
  | sequenceOf {α : Type} {pb pd : Parser α} {w : α → Nat} (h : Weighed pb pd w) :
      Weighed (sequenceOfP anyBer.parseBer pb) (sequenceOfP anyDer.parseDer pd) (fun s => itemsWeight w s.items)
  | setOf {α : Type} {pb pd : Parser α} {w : α → Nat} (h : Weighed pb pd w) :
      Weighed (setOfP anyBer.parseBer pb) (setOfP anyDer.parseDer pd) (fun s => itemsWeight w s.items)
  | set {α σ : Type} {pb pd : Parser α} {w : α → Nat} (S : SetImpl α σ) (h : Weighed pb pd w) :
      Weighed (setP S anyBer.parseBer pb) (setP S anyDer.parseDer pd) (fun s => itemsWeight w (S.toList s))
  | array {α : Type} {pb pd : Parser α} {w : α → Nat} (N : Nat) (h : Weighed pb pd w) :
      Weighed (arrayP N anyBer.parseBer pb) (arrayP N anyDer.parseDer pd) (fun s => itemsWeight w s.val)
  | tuple {Ts : List Type} {fb fd : TupFns Ts} {w : Tup Ts → Nat} (h : WeighedTuple fb fd w) :
      Weighed (tupleP fb) (tupleP fd) w
  | raw (tag : Nat) : Weighed (rawP tag) (rawP tag) (fun s => s.content.length)
  | explicit {α : Type} {pb pd : Parser α} {w : α → Nat} (cls : Class) (tag : Nat) (h : Weighed pb pd w) :
      Weighed (explicitP cls tag pb.parseBer) (explicitP cls tag pd.parseDer) (fun t => w t.inner)
  | implicit {α : Type} {pb pd : Parser α} {w : α → Nat} (cls : Class) (tag : Nat) (h : Weighed pb pd w) :
      Weighed (implicitP cls tag pb) (implicitP cls tag pd) (fun t => w t.inner)
  | struct {Ts : List Type} {fb fd : Fields Ts} {w : Tup Ts → Nat} (tag : Nat) (h : WeighedFields fb fd w) :
      Weighed (structP .ber tag fb) (structP .der tag fd) w
  | choice {Ts : List Type} {vb vd : Variants Ts} {w : HSum Ts → Nat} (k : ChoiceKind)
      (h : WeighedVariants vb vd w) : Weighed (choiceP .ber k vb) (choiceP .der k vd) w
  | enum (ds : List Nat) : Weighed (enumP enumeratedBer ds) (enumP enumeratedDer ds) (fun _ => 0)
  | alias {α : Type} {pb pd : Parser α} {w : α → Nat} (h : Weighed pb pd w) :
      Weighed (aliasP pb) (aliasP pd) (fun v => w v.inner)

/-- The components of a tuple. -/
inductive WeighedTuple : {Ts : List Type} → TupFns Ts → TupFns Ts → (Tup Ts → Nat) → Prop
  | nil : WeighedTuple .nil .nil (fun _ => 0)
  | cons {T : Type} {Ts : List Type} {pb pd : Parser T} {fb fd : TupFns Ts} {w : T → Nat} {ws : Tup Ts → Nat}
      (h : Weighed pb pd w) (ht : WeighedTuple fb fd ws) :
      WeighedTuple (.cons pb.parseBer fb) (.cons pd.parseDer fd) (fun t => w t.1 + ws t.2)

/-- The fields of a struct (without own parsing functions), tagged or not. What the default of a field holds
was not decoded, and must be nothing. -/
inductive WeighedFields : {Ts : List Type} → Fields Ts → Fields Ts → (Tup Ts → Nat) → Prop
  | nil : WeighedFields .nil .nil (fun _ => 0)
  | required {T : Type} {Ts : List Type} {pb pd : Parser T} {fb fd : Fields Ts} {w : T → Nat}
      {ws : Tup Ts → Nat} (tag : FieldTag) (h : Weighed pb pd w) (ht : WeighedFields fb fd ws) :
      WeighedFields (.cons (.required tag pb) fb) (.cons (.required tag pd) fd) (fun t => w t.1 + ws t.2)
  | optional {T : Type} {Ts : List Type} {pb pd : Parser T} {fb fd : Fields Ts} {w : T → Nat}
      {ws : Tup Ts → Nat} (tag : FieldTag) (h : Weighed pb pd w) (ht : WeighedFields fb fd ws) :
      WeighedFields (.cons (.optional tag pb) fb) (.cons (.optional tag pd) fd)
        (fun t => optionWeight w t.1 + ws t.2)
  | default {T : Type} {Ts : List Type} {pb pd : Parser T} {fb fd : Fields Ts} {w : T → Nat}
      {ws : Tup Ts → Nat} (tag : FieldTag) (x : T) (hx : w x = 0) (h : Weighed pb pd w)
      (ht : WeighedFields fb fd ws) :
      WeighedFields (.cons (.default tag pb x) fb) (.cons (.default tag pd x) fd) (fun t => w t.1 + ws t.2)

/-- The variants of a CHOICE. -/
inductive WeighedVariants : {Ts : List Type} → Variants Ts → Variants Ts → (HSum Ts → Nat) → Prop
  | nil : WeighedVariants .nil .nil (fun _ => 0)
  | cons {T : Type} {Ts : List Type} {pb pd : Parser T} {vb vd : Variants Ts} {w : T → Nat}
      {ws : HSum Ts → Nat} (tag : Nat) (h : Weighed pb pd w) (ht : WeighedVariants vb vd ws) :
      WeighedVariants (.cons tag pb vb) (.cons tag pd vd) (eitherWeight w ws)

end

end Asn1.Spec

import Verif.Model.Derive
import Verif.Model.Float32
import Verif.Model.AnyMethods
import Verif.Spec.Universal
import Verif.Spec.Containers
/-!
# The types a user can build from the crate

`Built real pb pd`: `pb` and `pd` are the `BerParser` and the `DerParser` of a type made from the universal
types by the type constructors of the crate, nested in any way: `Vec`, `SequenceOf`, `SetOf`, `BTreeSet` and
`HashSet`, arrays, tuples, the raw `Sequence` and `Set`, `TaggedExplicit`, `TaggedImplicit`, and
`#[derive(Sequence, Set, Choice, Enumerated, Alias)]`. `real`: whether REAL occurs among the universal
types. Of an `Any`, which holds positions in the input, the value is taken without them (`AnyParts`).
-/
namespace Asn1.Spec
open Asn1

/-- The universal types apart from REAL. -/
inductive UniversalType : {α : Type} → Codec α → Prop
  | uint (N : Nat) (hN : 1 ≤ N ∧ N ≤ 16) : UniversalType (uintC N)
  | int (N : Nat) (hN : 1 ≤ N ∧ N ≤ 16) : UniversalType (intC N)
  | integer : UniversalType integerC
  | bool : UniversalType boolC
  | null : UniversalType nullC
  | enumerated : UniversalType enumC
  | octetString : UniversalType octetC
  | bitString : UniversalType bitC
  | oid : UniversalType oidC
  | utcTime : UniversalType utcC
  | generalizedTime : UniversalType genC
  | text {k : StrKind} {tag : Nat} {A : Char → Bool} (hk : StringType k tag A) : UniversalType (strC k)
  | refStr : UniversalType refStrC
  | string : UniversalType stringC
  | bmpString : UniversalType bmpC
  | universalString : UniversalType univC

/-- What an `Any` holds apart from the place where it was read. -/
structure AnyParts where
  cls : Class
  constructed : Bool
  tag : Nat
  length : Length
  rawTag : Option Bytes
  content : Bytes
  deriving DecidableEq, Repr

/-- The parts of an `Any`. -/
def anyParts (a : Any) : AnyParts :=
  ⟨a.header.cls, a.header.constructed, a.header.tag, a.header.length, a.header.rawTag, a.data.data⟩

mutual

/-- The parsers of a built type. -/
inductive Built (real : Bool) : {α : Type} → Parser α → Parser α → Prop
  | universal {α : Type} {c : Codec α} (h : UniversalType c) : Built real c.ber c.der
  | real (lib : FloatLib) (h : real = true) : Built real (realP lib) (realP lib)
  | f64 (lib : FloatLib) (h : real = true) : Built real (f64P lib) (f64P lib)
  | f32 (lib : FloatLib) (h : real = true) : Built real (f32P lib) (f32P lib)
  | boolean : Built real booleanBer booleanDer
  | slice : Built real sliceBer sliceDer
  | any : Built real (anyBer.map anyParts) (anyDer.map anyParts)
  | embeddedPdv : Built real pdvP pdvP
  | vec {α : Type} {pb pd : Parser α} (h : Built real pb pd) : Built real (vecBer pb) (vecDer pd)
  | sequenceOf {α : Type} {pb pd : Parser α} (h : Built real pb pd) :
      Built real (sequenceOfP anyBer.parseBer pb) (sequenceOfP anyDer.parseDer pd)
  | setOf {α : Type} {pb pd : Parser α} (h : Built real pb pd) :
      Built real (setOfP anyBer.parseBer pb) (setOfP anyDer.parseDer pd)
  | set {α σ : Type} {pb pd : Parser α} (S : SetImpl α σ) (h : Built real pb pd) :
      Built real (setP S anyBer.parseBer pb) (setP S anyDer.parseDer pd)
  | array {α : Type} {pb pd : Parser α} (N : Nat) (h : Built real pb pd) :
      Built real (arrayP N anyBer.parseBer pb) (arrayP N anyDer.parseDer pd)
  | tuple {Ts : List Type} {fb fd : TupFns Ts} (h : BuiltTuple real fb fd) :
      Built real (tupleP fb) (tupleP fd)
  | raw (tag : Nat) : Built real (rawP tag) (rawP tag)
  | explicit {α : Type} {pb pd : Parser α} (cls : Class) (tag : Nat) (h : Built real pb pd) :
      Built real (explicitP cls tag pb.parseBer) (explicitP cls tag pd.parseDer)
  | implicit {α : Type} {pb pd : Parser α} (cls : Class) (tag : Nat) (h : Built real pb pd) :
      Built real (implicitP cls tag pb) (implicitP cls tag pd)
  | struct {Ts : List Type} {fb fd : Fields Ts} (tag : Nat) (h : BuiltFields real fb fd) :
      Built real (structP .ber tag fb) (structP .der tag fd)
  | choice {Ts : List Type} {vb vd : Variants Ts} (k : ChoiceKind) (h : BuiltVariants real vb vd) :
      Built real (choiceP .ber k vb) (choiceP .der k vd)
  | enum (ds : List Nat) : Built real (enumP enumeratedBer ds) (enumP enumeratedDer ds)
  | alias {α : Type} {pb pd : Parser α} (h : Built real pb pd) : Built real (aliasP pb) (aliasP pd)

/-- The components of a tuple. -/
inductive BuiltTuple (real : Bool) : {Ts : List Type} → TupFns Ts → TupFns Ts → Prop
  | nil : BuiltTuple real .nil .nil
  | cons {T : Type} {Ts : List Type} {pb pd : Parser T} {fb fd : TupFns Ts} (h : Built real pb pd)
      (ht : BuiltTuple real fb fd) : BuiltTuple real (.cons pb.parseBer fb) (.cons pd.parseDer fd)

/-- The fields of a struct (without own parsing functions), tagged or not. -/
inductive BuiltFields (real : Bool) : {Ts : List Type} → Fields Ts → Fields Ts → Prop
  | nil : BuiltFields real .nil .nil
  | required {T : Type} {Ts : List Type} {pb pd : Parser T} {fb fd : Fields Ts} (tag : FieldTag)
      (h : Built real pb pd) (ht : BuiltFields real fb fd) :
      BuiltFields real (.cons (.required tag pb) fb) (.cons (.required tag pd) fd)
  | optional {T : Type} {Ts : List Type} {pb pd : Parser T} {fb fd : Fields Ts} (tag : FieldTag)
      (h : Built real pb pd) (ht : BuiltFields real fb fd) :
      BuiltFields real (.cons (.optional tag pb) fb) (.cons (.optional tag pd) fd)
  | default {T : Type} {Ts : List Type} {pb pd : Parser T} {fb fd : Fields Ts} (tag : FieldTag) (x : T)
      (h : Built real pb pd) (ht : BuiltFields real fb fd) :
      BuiltFields real (.cons (.default tag pb x) fb) (.cons (.default tag pd x) fd)

/-- The variants of a CHOICE. -/
inductive BuiltVariants (real : Bool) : {Ts : List Type} → Variants Ts → Variants Ts → Prop
  | nil : BuiltVariants real .nil .nil
  | cons {T : Type} {Ts : List Type} {pb pd : Parser T} {vb vd : Variants Ts} (tag : Nat)
      (h : Built real pb pd) (ht : BuiltVariants real vb vd) :
      BuiltVariants real (.cons tag pb vb) (.cons tag pd vd)

end

end Asn1.Spec

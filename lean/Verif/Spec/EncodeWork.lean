import Verif.Model.EncodeWork
/-!
# Specification: the encoders of C135 and the encoders that count

`Counting t c depth tags parts`: `t` is the encoder of a type made of the universal types by the type constructors of the
crate, nested in any way; `c` is the encoder that counts; `depth` is how deep the type is nested; `tags` is the greatest
number of fields with a tag attribute, of derived structs, that are inside each other; `parts v` is the number of values
that the value `v` consists of, itself included.
-/
namespace Asn1.Spec
open Asn1

/-- The universal types, and the number of calls that `ber_content_len` makes, itself included: a derived enumeration
(derive/src/enumerated.rs:190-200) and the floating-point types (src/asn1_types/real/f64.rs:59-62, f32.rs) make another
value first. -/
inductive LengthCalls : {α : Type} → ToBer α → Nat → Prop
  | uint (N : Nat) : LengthCalls (uintToBer N) 1
  | int (N : Nat) : LengthCalls (intToBer N) 1
  | integer : LengthCalls integerToBer 1
  | bool : LengthCalls boolToBer 1
  | boolean : LengthCalls booleanToBer 1
  | null : LengthCalls nullToBer 1
  | enumerated : LengthCalls enumeratedToBer 1
  | octetString : LengthCalls octetToBer 1
  | bitString : LengthCalls bitToBer 1
  | oid : LengthCalls oidToBer 1
  | utcTime : LengthCalls utcToBer 1
  | generalizedTime : LengthCalls genToBer 1
  | text (tag : Nat) : LengthCalls (strToBer tag) 1
  | bmpString : LengthCalls bmpToBer 1
  | universalString : LengthCalls univToBer 1
  | real (lib : FloatLib) : LengthCalls (realToBer lib) 1
  | any : LengthCalls anyToBer 1
  | raw (tag : Nat) : LengthCalls (rawToBer tag) 1
  | enum (ds : List Nat) : LengthCalls (enumToBer ds) 2
  | f64 (lib : FloatLib) : LengthCalls (f64ToBer lib) 2
  | f32 (lib : FloatLib) : LengthCalls (f32ToBer lib) 2

/-- One for a field with a tag attribute. -/
def tagCount : FieldTag → Nat
  | .untagged => 0
  | _ => 1

mutual

/-- The types. -/
inductive Counting : {α : Type} → ToBer α → CountingToBer α → Nat → Nat → (α → Nat) → Prop
  | leaf {α : Type} {t : ToBer α} {n : Nat} (h : LengthCalls t n) : Counting t (.leaf t n) 1 0 fun _ => n
  /-- `Vec` (`tag` 16). -/
  | vec {α : Type} {t : ToBer α} {c d s p} (tag : Nat) (h : Counting t c d s p) :
      Counting (listToBer tag t) (.items tag 0 id c) (d + 1) s fun vs => 1 + (vs.map p).sum
  /-- `SequenceOf` (16) and `SetOf` (17), which are made of a `Vec`. -/
  | of {α : Type} {t : ToBer α} {c d s p} (tag : Nat) (h : Counting t c d s p) :
      Counting (listToBer tag t) (.items tag 1 id c) (d + 1) s fun vs => 2 + (vs.map p).sum
  | set {α σ : Type} {t : ToBer α} {c d s p} (S : SetImpl α σ) (h : Counting t c d s p) :
      Counting (setToBer S t) (.items 17 0 S.toList c) (d + 1) s fun v => 1 + ((S.toList v).map p).sum
  | array {α : Type} {t : ToBer α} {c d s p} (N : Nat) (h : Counting t c d s p) :
      Counting (arrayToBer N t) (.items 16 0 Subtype.val c) (d + 1) s fun v => 1 + (v.val.map p).sum
  | indef {α : Type} {t : ToBer α} {c d s p} (h : Counting t c d s p) :
      Counting (indefToBer t) (.indef c) (d + 1) s fun vs => 1 + (vs.map p).sum
  | anySet (H : HashImpl) : Counting (anySetToBer H) (.items 17 1 (AnySet.iter H) (.leaf anyToBer 1)) 2 0
      fun v => 2 + ((v.iter H).map fun _ => 1).sum
  | explicit {α : Type} {t : ToBer α} {c d s p} (cls : Class) (tag : Nat) (dynTag : α → Nat) (h : Counting t c d s p) :
      Counting (explicitToBer cls tag dynTag t) (.explicit cls tag dynTag c) (d + 1) s fun v => 1 + p v.inner
  | implicit {α : Type} {t : ToBer α} {c d s p} (cls : Class) (tag : Nat) (dynC : α → Bool) (h : Counting t c d s p) :
      Counting (implicitToBer cls tag dynC t) (.implicit cls tag dynC c) (d + 1) s fun v => 1 + p v.inner
  | alias {α : Type} {t : ToBer α} {c d s p} (h : Counting t c d s p) :
      Counting (aliasToBer t) (.alias c) (d + 1) s fun v => 1 + p v.inner
  | struct {Ts : List Type} {es : EncFields Ts} {cs : CountingFields Ts} {d s ps} (tag : Nat)
      (h : CountingAll es cs d s ps) :
      Counting (structToBer tag es) (.struct tag cs) (d + 1) s fun v => 1 + ps v
  | choice {Ts : List Type} {es : EncVariants Ts} {cs : CountingVariants Ts} {d s ps} (k : ChoiceKind)
      (h : CountingEach es cs d s ps) :
      Counting (choiceToBer k es) (.choice k cs) (d + 1) s fun v => 1 + ps v

/-- The fields of a struct. -/
inductive CountingAll : {Ts : List Type} → EncFields Ts → CountingFields Ts → Nat → Nat → (Tup Ts → Nat) → Prop
  | nil : CountingAll .nil .nil 0 0 fun _ => 0
  | cons {T : Type} {Ts : List Type} {t : ToBer T} {c d s p} {es : EncFields Ts} {cs d' s' ps} (tag : FieldTag)
      (h : Counting t c d s p) (ht : CountingAll es cs d' s' ps) :
      CountingAll (.cons tag t es) (.cons tag c cs) (max d d') (max (s + tagCount tag) s') fun v => p v.1 + ps v.2

/-- The variants of a CHOICE. -/
inductive CountingEach : {Ts : List Type} → EncVariants Ts → CountingVariants Ts → Nat → Nat → (HSum Ts → Nat) → Prop
  | nil {p : HSum [] → Nat} : CountingEach .nil .nil 0 0 p
  | cons {T : Type} {Ts : List Type} {t : ToBer T} {c d s p} {es : EncVariants Ts} {cs d' s' ps} (n : Nat)
      (dyn : T → Class × Bool × Nat) (h : Counting t c d s p) (ht : CountingEach es cs d' s' ps) :
      CountingEach (.cons n dyn t es) (.cons n dyn c cs) (max d d') (max s s')
        (Sum.elim p ps : T ⊕ HSum Ts → Nat)

end

/-! ### Structs in structs -/

/-- `n` structs of one field inside each other, with a BOOLEAN in the innermost. -/
def Nested : Nat → Type
  | 0 => Bool
  | n + 1 => Tup [Nested n]

/-- Their encoders; `tag` is the attribute of the field. -/
def nestedEnc (tag : FieldTag) : (n : Nat) → ToBer (Nested n)
  | 0 => boolToBer
  | n + 1 => structToBer 16 (.cons tag (nestedEnc tag n) .nil)

/-- The encoders that count. -/
def nestedCount (tag : FieldTag) : (n : Nat) → CountingToBer (Nested n)
  | 0 => .leaf boolToBer 1
  | n + 1 => .struct 16 (.cons tag (nestedCount tag n) .nil)

/-- The values. -/
def nestedVal (b : Bool) : (n : Nat) → Nested n
  | 0 => b
  | n + 1 => (nestedVal b n, ())

end Asn1.Spec

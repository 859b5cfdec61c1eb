import Verif.Spec.Built
import Verif.Spec.Float32
/-!
# The encoders a user can build from the crate

`Encodable safe t v`: `t` is the `ToBer` (`ToDer`) of a type made from the types of the crate by its type
constructors, nested in any way, and `v` is a value of it. There is no condition on the value when `safe` is
false. When `safe` is true, the lengths fit `usize` (they are sums over data in memory), a REAL does not have
base 2 unless it is a `RealValue` (the encoder of the others can panic, see C61), and an `f64` (`f32`) is a number of the format.
-/
namespace Asn1.Spec
open Asn1

/-- A length that fits `usize`. -/
def UsizeLen (l : Length) : Prop := ∀ n, l = .definite n → n < 2 ^ 64

/-- The REALs whose encoding does not compute with the mantissa, and those of `RealValue`. -/
inductive CalmReal : Real → Prop
  | value {r : Real} (h : RealValue r) : CalmReal r
  | other {m : F64} {base : Nat} {e : Int} {b : Nat} (h : base ≠ 2) : CalmReal (.binary m base e b)

mutual

/-- A value with an encoder of its type. -/
inductive Encodable (safe : Bool) : {α : Type} → ToBer α → α → Prop
  | universal {α : Type} {c : Codec α} (h : UniversalType c) (v : α)
      (hu : safe = true → UsizeLen (c.enc.contentLen v)) : Encodable safe c.enc v
  | boolean (v : UInt8) : Encodable safe booleanToBer v
  | booleanDer (v : UInt8) : Encodable safe booleanToDer v
  | real (lib : FloatLib) (r : Real) (h : safe = true → CalmReal r)
      (hu : safe = true → UsizeLen ((realToBer lib).contentLen r)) : Encodable safe (realToBer lib) r
  | f64 (lib : FloatLib) (f : F64) (h : safe = true → F64Valid f)
      (hu : safe = true → UsizeLen ((f64ToBer lib).contentLen f)) : Encodable safe (f64ToBer lib) f
  | f32 (lib : FloatLib) (f : F32) (h : safe = true → F32Valid f)
      (hu : safe = true → UsizeLen ((f32ToBer lib).contentLen f)) : Encodable safe (f32ToBer lib) f
  | any (a : Any) (hu : safe = true → UsizeLen (anyToBer.contentLen a)) : Encodable safe anyToBer a
  | header (h : Header) (hu : safe = true → UsizeLen h.length) : Encodable safe headerToBer h
  | list {α : Type} {t : ToBer α} (tag : Nat) {vs : List α} (h : ∀ v ∈ vs, Encodable safe t v)
      (hu : safe = true → UsizeLen ((listToBer tag t).contentLen vs)) : Encodable safe (listToBer tag t) vs
  | indefinite {α : Type} {t : ToBer α} {vs : List α} (h : ∀ v ∈ vs, Encodable safe t v) :
      Encodable safe (indefToBer t) vs
  | set {α σ : Type} {t : ToBer α} (S : SetImpl α σ) {s : σ} (h : ∀ v ∈ S.toList s, Encodable safe t v)
      (hu : safe = true → UsizeLen ((setToBer S t).contentLen s)) : Encodable safe (setToBer S t) s
  | array {α : Type} {t : ToBer α} (N : Nat) {vs : Arr α N} (h : ∀ v ∈ vs.val, Encodable safe t v)
      (hu : safe = true → UsizeLen ((arrayToBer N t).contentLen vs)) : Encodable safe (arrayToBer N t) vs
  | raw (tag : Nat) (s : RawSeq) (hu : safe = true → UsizeLen ((rawToBer tag).contentLen s)) :
      Encodable safe (rawToBer tag) s
  | explicit {α : Type} {t : ToBer α} {v : α} (cls : Class) (tag : Nat) (dynTag : α → Nat)
      (h : Encodable safe t v)
      (hu : safe = true → UsizeLen ((explicitToBer cls tag dynTag t).contentLen ⟨v⟩)) :
      Encodable safe (explicitToBer cls tag dynTag t) ⟨v⟩
  | implicit {α : Type} {t : ToBer α} {v : α} (cls : Class) (tag : Nat) (dynConstructed : α → Bool)
      (h : Encodable safe t v) : Encodable safe (implicitToBer cls tag dynConstructed t) ⟨v⟩
  | taggedExplicit {α : Type} {t : ToBer α} {v : α} (hd : Header) (h : Encodable safe t v)
      (hu : safe = true → UsizeLen (t.totalLen v)) : Encodable safe (taggedParserExplicitToBer t) ⟨hd, v⟩
  | taggedImplicit {α : Type} {t : ToBer α} {v : α} (hd : Header) (h : Encodable safe t v) :
      Encodable safe (taggedParserImplicitToBer t) ⟨hd, v⟩
  | struct {Ts : List Type} {es : EncFields Ts} {vs : Tup Ts} (tag : Nat) (h : EncodableFields safe es vs)
      (hu : safe = true → UsizeLen ((structToBer tag es).contentLen vs)) : Encodable safe (structToBer tag es) vs
  | choice {Ts : List Type} {es : EncVariants Ts} {x : HSum Ts} (k : ChoiceKind)
      (h : EncodableVariant safe k es x) : Encodable safe (choiceToBer k es) x
  | enum (ds : List Nat) (k : Fin ds.length) : Encodable safe (enumToBer ds) k
  | alias {α : Type} {t : ToBer α} {v : α} (h : Encodable safe t v) : Encodable safe (aliasToBer t) ⟨v⟩

/-- The values of the fields of a struct with the encoders of their types. -/
inductive EncodableFields (safe : Bool) : {Ts : List Type} → EncFields Ts → Tup Ts → Prop
  | nil : EncodableFields safe .nil ()
  | cons {T : Type} {Ts : List Type} {t : ToBer T} {v : T} {es : EncFields Ts} {vs : Tup Ts} (tag : FieldTag)
      (h : Encodable safe t v) (hu : safe = true → UsizeLen (t.totalLen v)) (ht : EncodableFields safe es vs) :
      EncodableFields safe (.cons tag t es) (v, vs)

/-- A variant of a CHOICE with its payload. -/
inductive EncodableVariant (safe : Bool) :
    ChoiceKind → {Ts : List Type} → EncVariants Ts → HSum Ts → Prop
  | here {k : ChoiceKind} {T : Type} {Ts : List Type} {t : ToBer T} {v : T} (n : Nat) (dyn : T → Class × Bool × Nat)
      (es : EncVariants Ts) (h : Encodable safe t v) (hu : safe = true → UsizeLen (t.totalLen v)) :
      EncodableVariant safe k (.cons n dyn t es) (.inl v : T ⊕ HSum Ts)
  | there {k : ChoiceKind} {T : Type} {Ts : List Type} {t : ToBer T} {es : EncVariants Ts} {x : HSum Ts} (n : Nat)
      (dyn : T → Class × Bool × Nat) (h : EncodableVariant safe k es x) :
      EncodableVariant safe k (.cons n dyn t es) (.inr x : T ⊕ HSum Ts)

end

end Asn1.Spec

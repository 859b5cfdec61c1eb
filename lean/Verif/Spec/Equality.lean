import Verif.Model.Equality
/-!
# Types with an encoder and an equality

`Comparable t eq`: a type built with the type constructors of the crate, nested in any way, with the encoder
`t` and the equality `eq` (`PartialEq`, derived for user-defined types).
-/
namespace Asn1.Spec
open Asn1

mutual

inductive Comparable : {α : Type} → ToBer α → (α → α → Bool) → Prop
  /-- The types that compare all they consist of. -/
  | plain {α : Type} (t : ToBer α) {eq : α → α → Bool} (h : ∀ a b, eq a b = true ↔ a = b) : Comparable t eq
  | any : Comparable anyToBer Any.eq
  /-- `Vec`, `SequenceOf` (tag 16), `SetOf` (17). -/
  | list {α : Type} {t : ToBer α} {eq} (tag : Nat) (h : Comparable t eq) : Comparable (listToBer tag t) (listEq eq)
  | indefinite {α : Type} {t : ToBer α} {eq} (h : Comparable t eq) : Comparable (indefToBer t) (listEq eq)
  | array {α : Type} {t : ToBer α} {eq} (N : Nat) (h : Comparable t eq) :
      Comparable (arrayToBer N t) fun a b => listEq eq a.val b.val
  /-- A set whose members determine the order in which it is iterated over (`BTreeSet`). -/
  | set {α σ : Type} (t : ToBer α) (S : SetImpl α σ) {eq : σ → σ → Bool} (h : ∀ a b, eq a b = true ↔ S.eqv a b)
      (hS : ∀ a b, S.eqv a b → S.toList a = S.toList b) : Comparable (setToBer S t) eq
  | explicit {α : Type} {t : ToBer α} {eq} (cls : Class) (tag : Nat) {dynTag : α → Nat}
      (hdyn : ∀ v, dynTag v = (t.tagInfo v).2.2) (h : Comparable t eq) :
      Comparable (explicitToBer cls tag dynTag t) fun a b => eq a.inner b.inner
  | implicit {α : Type} {t : ToBer α} {eq} (cls : Class) (tag : Nat) {dynC : α → Bool}
      (hdyn : ∀ v, dynC v = (t.tagInfo v).2.1) (h : Comparable t eq) :
      Comparable (implicitToBer cls tag dynC t) fun a b => eq a.inner b.inner
  | alias {α : Type} {t : ToBer α} {eq} (h : Comparable t eq) :
      Comparable (aliasToBer t) fun a b => eq a.inner b.inner
  | struct {Ts : List Type} {es : EncFields Ts} {eq} (tag : Nat) (h : ComparableFields es eq) :
      Comparable (structToBer tag es) eq
  | choice {Ts : List Type} {es : EncVariants Ts} {eq} (k : ChoiceKind) (h : ComparableVariants es eq) :
      Comparable (choiceToBer k es) eq

/-- The fields of a struct are compared one by one. -/
inductive ComparableFields : {Ts : List Type} → EncFields Ts → (Tup Ts → Tup Ts → Bool) → Prop
  | nil : ComparableFields .nil fun _ _ => true
  | cons {T : Type} {Ts : List Type} {t : ToBer T} {es : EncFields Ts} {eq eqs} (tag : FieldTag)
      (h : Comparable t eq) (ht : ComparableFields es eqs) :
      ComparableFields (.cons tag t es) fun a b => eq a.1 b.1 && eqs a.2 b.2

/-- Values of different variants of an `enum` are different. -/
inductive ComparableVariants : {Ts : List Type} → EncVariants Ts → (HSum Ts → HSum Ts → Bool) → Prop
  | nil {eq} : ComparableVariants .nil eq
  | cons {T : Type} {Ts : List Type} {t : ToBer T} {es : EncVariants Ts} {eq eqs} {n : Nat}
      {dyn : T → Class × Bool × Nat} (hdyn : ∀ v, dyn v = t.tagInfo v)
      (h : Comparable t eq) (ht : ComparableVariants es eqs) :
      ComparableVariants (.cons n dyn t es) (fun
        | .inl a, .inl b => eq a b
        | .inr a, .inr b => eqs a b
        | _, _ => false : T ⊕ HSum Ts → T ⊕ HSum Ts → Bool)

end

end Asn1.Spec

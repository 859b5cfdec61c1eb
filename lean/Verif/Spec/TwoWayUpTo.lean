import Verif.Spec.TwoWay
import Verif.Spec.Objects
/-!
# Types with a HashSet in them that can be decoded and encoded

`TwoWayUpTo m retag t pb pd rep Ok eq`: as `TwoWay`, but somewhere in the type there may be sets whose members come
in any order (`HashSet`), so that a value that comes back need not be identical. `eq` is the equality of the type
(`PartialEq`): sets are equal if they have the same members, other types are compared part by part.
-/
namespace Asn1.Spec
open Asn1

/-- Equality of the values of an `enum`: the same variant, with equal payloads. -/
def SumEq {α β : Type} (eq : α → α → Prop) (eqs : β → β → Prop) : α ⊕ β → α ⊕ β → Prop
  | .inl a, .inl b => eq a b
  | .inr a, .inr b => eqs a b
  | _, _ => False

mutual

/-- A type that can be decoded and encoded, with its equality. -/
inductive TwoWayUpTo (m : Rules) : Bool → {α β : Type} → ToBer α → Parser β → Parser β → (β → α) → (β → Prop) →
    (β → β → Prop) → Prop
  /-- A type without such sets. -/
  | same {r : Bool} {α β : Type} {t : ToBer α} {pb pd : Parser β} {rep Ok} (h : TwoWay m r t pb pd rep Ok) :
      TwoWayUpTo m r t pb pd rep Ok (· = ·)
  /-- A set of any kind (`HashSet`). -/
  | set {r : Bool} {α σ : Type} {t : ToBer α} {pb pd : Parser α} {Ok} (S : SetImpl α σ)
      (h : TwoWay m r t pb pd id Ok) :
      TwoWayUpTo m true (setToBer S t) (setP S anyBer.parseBer pb) (setP S anyDer.parseDer pd) id (fun s =>
        (∀ w ∈ S.toList s, Ok w) ∧ SmallContent (setToBer S t) s) S.eqv
  | vec {r : Bool} {α β : Type} {t : ToBer α} {pb pd : Parser β} {rep Ok eq}
      (h : TwoWayUpTo m r t pb pd rep Ok eq) :
      TwoWayUpTo m true (listToBer 16 t) (vecBer pb) (vecDer pd) (List.map rep) (fun ws =>
        (∀ w ∈ ws, Ok w) ∧ SmallContent (listToBer 16 t) (ws.map rep)) (Pointwise eq)
  | sequenceOf {r : Bool} {α β : Type} {t : ToBer α} {pb pd : Parser β} {rep Ok eq}
      (h : TwoWayUpTo m r t pb pd rep Ok eq) :
      TwoWayUpTo m true (listToBer 16 t) (sequenceOfP anyBer.parseBer pb) (sequenceOfP anyDer.parseDer pd)
        (fun s => s.items.map rep) (fun s =>
        (∀ w ∈ s.items, Ok w) ∧ SmallContent (listToBer 16 t) (s.items.map rep))
        fun s s' => Pointwise eq s.items s'.items
  | setOf {r : Bool} {α β : Type} {t : ToBer α} {pb pd : Parser β} {rep Ok eq}
      (h : TwoWayUpTo m r t pb pd rep Ok eq) :
      TwoWayUpTo m true (listToBer 17 t) (setOfP anyBer.parseBer pb) (setOfP anyDer.parseDer pd)
        (fun s => s.items.map rep) (fun s =>
        (∀ w ∈ s.items, Ok w) ∧ SmallContent (listToBer 17 t) (s.items.map rep))
        fun s s' => Pointwise eq s.items s'.items
  | array {r : Bool} {α β : Type} {t : ToBer α} {pb pd : Parser β} {rep Ok eq} (N : Nat)
      (h : TwoWayUpTo m r t pb pd rep Ok eq) :
      TwoWayUpTo m true (arrayToBer N t) (arrayP N anyBer.parseBer pb) (arrayP N anyDer.parseDer pd)
        (fun w => ⟨w.val.map rep, by rw [List.length_map, w.property]⟩) (fun w =>
        (∀ x ∈ w.val, Ok x) ∧ SmallContent (arrayToBer N t) ⟨w.val.map rep, by rw [List.length_map, w.property]⟩)
        fun w w' => Pointwise eq w.val w'.val
  | explicit {r : Bool} {α β : Type} {t : ToBer α} {pb pd : Parser β} {rep Ok eq} (cls : Class) (tag : Nat)
      (htag : tag < 2 ^ 32) {dynTag : α → Nat} (hdyn : ∀ v, dynTag v = (t.tagInfo v).2.2)
      (h : TwoWayUpTo m r t pb pd rep Ok eq) :
      TwoWayUpTo m false (explicitToBer cls tag dynTag t) (explicitP cls tag pb.parseBer)
        (explicitP cls tag pd.parseDer) (fun w => ⟨rep w.inner⟩) (fun w =>
        Ok w.inner ∧ SmallContent (explicitToBer cls tag dynTag t) ⟨rep w.inner⟩)
        fun w w' => eq w.inner w'.inner
  | implicit {α β : Type} {t : ToBer α} {pb pd : Parser β} {rep Ok eq} (cls : Class) (tag : Nat)
      (htag : tag < 2 ^ 32) {dynC : α → Bool} (hdyn : ∀ v, dynC v = (t.tagInfo v).2.1)
      (h : TwoWayUpTo m true t pb pd rep Ok eq) :
      TwoWayUpTo m false (implicitToBer cls tag dynC t) (implicitP cls tag pb) (implicitP cls tag pd)
        (fun w => ⟨rep w.inner⟩) (fun w => Ok w.inner) fun w w' => eq w.inner w'.inner
  | struct {Ts Us : List Type} {es : EncFields Ts} {fb fd : Fields Us} {rep Ok eq} (tag : Nat)
      (htag : tag < 2 ^ 32) (h : TwoWayUpToFields m es fb fd rep Ok eq) :
      TwoWayUpTo m true (structToBer tag es) (structP .ber tag fb) (structP .der tag fd) rep (fun ws =>
        Ok ws ∧ overcount es (rep ws) = 0 ∧ SmallContent (structToBer tag es) (rep ws)) eq
  | choice {Ts Us : List Type} {es : EncVariants Ts} {vb vd : Variants Us} {rep Ok eq} (k : ChoiceKind)
      (h : TwoWayUpToVariants m k es vb vd rep Ok eq) :
      TwoWayUpTo m false (choiceToBer k es) (choiceP .ber k vb) (choiceP .der k vd) rep (fun y =>
        Ok y ∧ SmallContent (choiceToBer k es) (rep y)) eq
  | alias {r : Bool} {α β : Type} {t : ToBer α} {pb pd : Parser β} {rep Ok eq}
      (h : TwoWayUpTo m r t pb pd rep Ok eq) :
      TwoWayUpTo m r (aliasToBer t) (aliasP pb) (aliasP pd) (fun w => ⟨rep w.inner⟩) (fun w => Ok w.inner)
        fun w w' => eq w.inner w'.inner

/-- The fields of a struct, compared one by one. A default is a value that can be encoded and comes back as an equal
one. -/
inductive TwoWayUpToFields (m : Rules) : {Ts Us : List Type} → EncFields Ts → Fields Us → Fields Us →
    (Tup Us → Tup Ts) → (Tup Us → Prop) → (Tup Us → Tup Us → Prop) → Prop
  | nil : TwoWayUpToFields m .nil .nil .nil (fun _ => ()) (fun _ => True) fun _ _ => True
  | required {r : Bool} {T U : Type} {Ts Us : List Type} {t : ToBer T} {pb pd : Parser U} {rep Ok eq}
      {es : EncFields Ts} {fb fd : Fields Us} {reps Oks eqs} (tag : FieldTag) (hv : FieldTag.Valid tag)
      (h : TwoWayUpTo m r t pb pd rep Ok eq) (hr : (∃ cls n, tag = .implicit cls n) → r = true)
      (ht : TwoWayUpToFields m es fb fd reps Oks eqs) :
      TwoWayUpToFields m (.cons tag t es) (.cons (.required tag pb) fb) (.cons (.required tag pd) fd)
        (fun w => (rep w.1, reps w.2)) (fun w => (Ok w.1 ∧ (tag ≠ .untagged →
          ∀ n, t.totalLen (rep w.1) = .definite n → n < 2 ^ 24)) ∧ Oks w.2)
        fun w w' => eq w.1 w'.1 ∧ eqs w.2 w'.2
  | default {r : Bool} {T U : Type} {Ts Us : List Type} {t : ToBer T} {pb pd : Parser U} {rep Ok eq}
      {es : EncFields Ts} {fb fd : Fields Us} {reps Oks eqs} (tag : FieldTag) (x : U) (hv : FieldTag.Valid tag)
      (h : TwoWayUpTo m r t pb pd rep Ok eq) (hr : (∃ cls n, tag = .implicit cls n) → r = true)
      (hx : ∃ x', eq x x' ∧ Value r t pb pd (rep x) x') (ht : TwoWayUpToFields m es fb fd reps Oks eqs) :
      TwoWayUpToFields m (.cons tag t es) (.cons (.default tag pb x) fb) (.cons (.default tag pd x) fd)
        (fun w => (rep w.1, reps w.2)) (fun w => (Ok w.1 ∧ (tag ≠ .untagged →
          ∀ n, t.totalLen (rep w.1) = .definite n → n < 2 ^ 24)) ∧ Oks w.2)
        fun w w' => eq w.1 w'.1 ∧ eqs w.2 w'.2

/-- The variants of a CHOICE, as in `TwoWayVariants`. -/
inductive TwoWayUpToVariants (m : Rules) : ChoiceKind → {Ts Us : List Type} → EncVariants Ts → Variants Us →
    Variants Us → (HSum Us → HSum Ts) → (HSum Us → Prop) → (HSum Us → HSum Us → Prop) → Prop
  | nil {k : ChoiceKind} {rep Ok eq} : TwoWayUpToVariants m k .nil .nil .nil rep Ok eq
  | cons {k : ChoiceKind} {r : Bool} {T U : Type} {Ts Us : List Type} {t : ToBer T} {pb pd : Parser U} {rep Ok eq}
      {es : EncVariants Ts} {vb vd : Variants Us} {reps Oks eqs} {n : Nat} (hn : n < 2 ^ 32)
      {dyn : T → Class × Bool × Nat} (hdyn : ∀ v, dyn v = t.tagInfo v) (h : TwoWayUpTo m r t pb pd rep Ok eq)
      (hr : k = .implicit → r = true)
      (ho : k = .untagged → pb.acceptTag 6 = true → pb.acceptTag 13 = true)
      (ht : TwoWayUpToVariants m k es vb vd reps Oks eqs) :
      TwoWayUpToVariants m k (.cons n dyn t es) (.cons n pb vb) (.cons n pd vd)
        (Sum.map rep reps : U ⊕ HSum Us → T ⊕ HSum Ts) (Sum.elim Ok Oks : U ⊕ HSum Us → Prop)
        (SumEq eq eqs : U ⊕ HSum Us → U ⊕ HSum Us → Prop)

end

end Asn1.Spec

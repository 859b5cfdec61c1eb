import Verif.Spec.Derive
/-!
# The order of the components of a SET
-/
namespace Asn1.Spec
open Asn1

/-- The input starts with objects that have these tag numbers, in this order. -/
inductive FirstTags (m : Rules) : Input → List Nat → Prop
  | nil {i} : FirstTags m i []
  | cons {i r a t ts} (h : m.any i = .ok (r, a)) (htag : a.header.tag = t) (ht : FirstTags m r ts) :
      FirstTags m i (t :: ts)

/-- The fields are neither optional nor tagged, and each has a type with one tag number; `ts` are these
numbers, in the order of declaration. -/
inductive TaggedBy : {Ts : List Type} → Fields Ts → List Nat → Prop
  | nil : TaggedBy .nil []
  | cons {T : Type} {Ts : List Type} {p : Parser T} {fs : Fields Ts} {t : Nat} {ts : List Nat}
      (hp : ∀ g, p.acceptTag g = true ↔ g = t) (h : TaggedBy fs ts) :
      TaggedBy (.cons (.required .untagged p) fs) (t :: ts)

end Asn1.Spec

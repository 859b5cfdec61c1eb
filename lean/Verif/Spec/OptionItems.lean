import Verif.Model.OptionItems
/-!
# Lists of optional values: vocabulary
-/
namespace Asn1.Spec
open Asn1

variable {α : Type}

/-- Reading the values `vs` one after the other from the front of `b` with `g` leads to `rest`. -/
inductive LeadsTo (g : Bytes → Except SErr (Bytes × α)) : Bytes → List α → Bytes → Prop
  | here (b : Bytes) : LeadsTo g b [] b
  | item {b r rest : Bytes} {v : α} {vs : List α} (hb : b ≠ []) (h : g b = .ok (r, v))
      (ht : LeadsTo g r vs rest) : LeadsTo g b (v :: vs) rest

/-- What the decoder `g` accepts begins with a header of an accepted tag. -/
def TagShown (acceptTag : Nat → Bool) (header : Input → PRes Header)
    (g : Bytes → Except SErr (Bytes × α)) : Prop :=
  ∀ b r v, g b = .ok (r, v) →
    ∃ r' h, header (Input.fromSlice b) = .ok (r', h) ∧ acceptTag h.tag = true

end Asn1.Spec

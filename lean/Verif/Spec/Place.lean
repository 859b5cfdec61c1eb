import Verif.Model.Iterator
/-!
# Places in an input
-/
namespace Asn1.Spec
open Asn1

/-- `loc` is a part of `i`: the `n` bytes from byte `a` on, with the span that says so. -/
def Inside (loc i : Input) : Prop :=
  ∃ a n, a + n ≤ i.data.length ∧ loc.data = (i.data.drop a).take n ∧
    loc.start = i.start + a ∧ loc.stop = i.start + a + n

/-- The items that `p` accepts at the front of `i` are `vs`, and what follows them is `j`; `parse` reads one
object. -/
inductive ItemsRead {α : Type} (parse : Input → PRes Any) (p : Parser α) : Input → List α → Input → Prop
  | nil {i : Input} : ItemsRead parse p i [] i
  | cons {i r j x : Input} {a : Any} {v : α} {vs : List α} (h0 : i.data ≠ []) (hp : parse i = .ok (r, a))
      (ht : p.acceptTag a.header.tag = true) (hv : p.content a.header a.data = .ok (x, v))
      (hs : ItemsRead parse p r vs j) : ItemsRead parse p i (v :: vs) j

end Asn1.Spec

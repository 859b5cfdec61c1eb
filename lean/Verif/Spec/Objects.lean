import Verif.Model.Iterator
import Verif.Spec.Header
/-!
# Contents made of objects
-/
namespace Asn1.Spec
open Asn1

/-- The input `i` is read as the objects `as`, one after the other, up to the position `e`: up to
the end of the input or, if there is one, just after the first object on which `stop` holds
(which is not part of `as`). `parse` parses one generic object. -/
inductive Objs (parse : Input → PRes Any) (stop : Any → Bool) : Input → List Any → Input → Prop
  | nil {i} (h : i.data = []) : Objs parse stop i [] i
  | stop {i r a} (h : i.data ≠ []) (hp : parse i = .ok (r, a)) (hs : stop a = true) :
      Objs parse stop i [] r
  | cons {i r a as e} (h : i.data ≠ []) (hp : parse i = .ok (r, a)) (hs : stop a = false)
      (ht : Objs parse stop r as e) : Objs parse stop i (a :: as) e

/-- The answers of `n` successive calls to `next`. -/
def calls (parse : Input → PRes Any) : Nat → AnyIter → Except PErr (List (Option IterItem))
  | 0, _ => .ok []
  | n + 1, it =>
    match it.next parse with
    | .error e => .error e
    | .ok (x, it') =>
      match calls parse n it' with
      | .error e => .error e
      | .ok l => .ok (x :: l)

/-- Objects with their spans, then possibly one error, as `next` answers them. -/
def answers (os : List (Input × Any)) (err : Option (Input × InnerError)) :
    List (Option IterItem) :=
  os.map (fun x => some (IterItem.obj x.1 x.2)) ++
    err.toList.map (fun x => some (IterItem.err x.1 x.2))

/-- Lists related pointwise. -/
inductive Pointwise {α β : Type} (R : α → β → Prop) : List α → List β → Prop
  | nil : Pointwise R [] []
  | cons {a b as bs} (h : R a b) (t : Pointwise R as bs) : Pointwise R (a :: as) (b :: bs)

end Asn1.Spec

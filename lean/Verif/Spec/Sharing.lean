import Verif.Model.Sharing
/-!
# What sharing with the input means (C104)
-/
namespace Asn1.Spec
variable {α β : Type}

/-- `d` is a range of `i`: its bytes are bytes of `i`, at the positions it says, with `before` bytes
before them and `tail` after them. -/
def RangeOf (i d : Input) (before tail : Bytes) : Prop :=
  i.data = before ++ d.data ++ tail ∧ d.start = i.start + before.length ∧
    d.stop = i.start + before.length + d.data.length

/-- Two decoders of the same objects, the first with more to say about the value: same results of the
four ways to decode, same errors. -/
def SameValues (p : Parser α) (f : α → β) (q : Parser β) : Prop :=
  (∀ i, q.parseBer i = (p.parseBer i).map fun x => (x.1, f x.2)) ∧
  (∀ i, q.parseDer i = (p.parseDer i).map fun x => (x.1, f x.2)) ∧
  (∀ bs, fromBer q bs = (fromBer p bs).map fun x => (x.1, f x.2)) ∧
  (∀ check bs, fromDer q check bs = (fromDer p check bs).map fun x => (x.1, f x.2)) ∧
  (∀ a, tryFromAny q a = (tryFromAny p a).map f)

/-- What `see` shows of a value decoded from the object `a`, whatever way it is decoded. -/
def Shows (p : Parser α) (see : α → Any → Prop) : Prop :=
  (∀ i r v, p.parseBer i = .ok (r, v) → ∃ a, parseBerAny i = .ok (r, a) ∧ see v a) ∧
  (∀ i r v, p.parseDer i = .ok (r, v) → ∃ a, parseDerAny i = .ok (r, a) ∧ see v a) ∧
  (∀ bs rem v, fromBer p bs = .ok (rem, v) → ∃ r a, parseBerAny (Input.fromSlice bs) = .ok (r, a) ∧
    r.data = rem ∧ see v a) ∧
  (∀ check bs rem v, fromDer p check bs = .ok (rem, v) → ∃ r a,
    parseDerAny (Input.fromSlice bs) = .ok (r, a) ∧ r.data = rem ∧ see v a) ∧
  (∀ a v, tryFromAny p a = .ok v → see v a)

/-- What is seen of a string: a reference to the content of a primitive object, no reference for a
constructed one. -/
def SharedString (ref : α → Option Input) (v : α) (a : Any) : Prop :=
  (a.header.constructed = false → ∃ d, ref v = some d ∧ RangeOf a.data d [] []) ∧
  (a.header.constructed = true → ref v = none)

/-- What is seen of a value that always refers to the content of its object. -/
def SharedContent (ref : α → Option Input) (v : α) (a : Any) : Prop :=
  ∃ d, ref v = some d ∧ RangeOf a.data d [] []

end Asn1.Spec

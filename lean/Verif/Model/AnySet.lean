import Verif.Model.Containers
/-!
# `AnySet`

src/asn1_types/set/any_set.rs: a `HashSet` of generic objects. The hash table belongs to Rust's standard
library. Elements are compared with the equality of `Any`, which is not the identity, so it is modelled here
as far as its documentation goes.
-/
namespace Asn1

/-- src/asn1_types/any.rs:17 `PartialEq for Any` (derived), with src/input.rs:12 (derived: bytes and span). -/
def Any.eq (a b : Any) : Bool := Header.eq a.header b.header && a.data = b.data

/-- src/asn1_types/any.rs:17 `Hash for Any` (derived), with src/input.rs:12 (derived: bytes and span): the values
fed to the hasher. -/
def Any.hashKey (a : Any) : (Class × Bool × Nat × Length × Option Bytes) × Input := (a.header.hashKey, a.data)

/-- A hash table with some hasher. Searching for an element compares it with some of the elements of the table,
at least those with the same hash value (`meets`); elements with other hash values may be met or not.
Iteration is in some order. -/
structure HashImpl where
  meets : (Class × Bool × Nat × Length × Option Bytes) × Input →
    (Class × Bool × Nat × Length × Option Bytes) × Input → Bool
  self : ∀ k, meets k k = true
  order : List Any → List Any
  perm : ∀ l, (order l).Perm l

/-- src/asn1_types/set/any_set.rs:22-25 `AnySet`. -/
structure AnySet where
  items : List Any

/-- Searching for `x` finds the element `y`. -/
def HashImpl.finds (H : HashImpl) (x y : Any) : Bool := H.meets x.hashKey y.hashKey && Any.eq y x

/-- src/asn1_types/set/any_set.rs:36-38 `len`. -/
def AnySet.len (s : AnySet) : Nat := s.items.length

/-- src/asn1_types/set/any_set.rs:41-43 `is_empty`. -/
def AnySet.isEmpty (s : AnySet) : Bool := s.items.isEmpty

/-- src/asn1_types/set/any_set.rs:46-48 `iter`. -/
def AnySet.iter (H : HashImpl) (s : AnySet) : List Any := H.order s.items

/-- src/asn1_types/set/any_set.rs:51-53 `insert`: an element that is found is kept, and the new one is not
inserted. -/
def AnySet.insert (H : HashImpl) (s : AnySet) (x : Any) : Bool × AnySet :=
  if s.items.any (H.finds x) then (false, s) else (true, ⟨s.items ++ [x]⟩)

/-- src/asn1_types/set/any_set.rs:56-58 `remove`. -/
def AnySet.remove (H : HashImpl) (s : AnySet) (x : Any) : Bool × AnySet :=
  if s.items.any (H.finds x) then (true, ⟨s.items.eraseP (H.finds x)⟩) else (false, s)

/-- src/asn1_types/set/any_set.rs:143-148 `FromIterator`; also the collection in lines 76 and 94: the elements are
inserted one after the other. -/
def AnySet.ofList (H : HashImpl) (as : List Any) : AnySet := as.foldl (fun s a => (s.insert H a).2) ⟨[]⟩

/-- src/asn1_types/set/any_set.rs:64-97 `BerParser` and `DerParser`. -/
def anySetP (H : HashImpl) (parse : Input → PRes Any) : Parser AnySet :=
  (anySeqP 17 parse).map (AnySet.ofList H)

/-- src/asn1_types/set/any_set.rs:105-142 `ToBer` and `ToDer`. -/
def anySetToBer (H : HashImpl) : ToBer AnySet where
  encoder := .constructed
  contentLen s := anyToBer.lengthItems (s.iter H)
  tagInfo _ := (.universal, true, 17)
  writeContent s := anyToBer.writeItems (s.iter H) 0

end Asn1

import Verif.Model.AnySet
import Verif.Model.Strings
/-!
# Operations that change a value or cut an input

The methods of `Input` that parsers written by the user call, and the methods that change a `BitString`, an
`AnySequence` or an `AnySet`. (A `Vec` is a list, as everywhere in the model.)
-/
namespace Asn1

/-! ### Inputs -/

/-- One cut of an input: src/input.rs:142-158 `take` or `take_from`. -/
inductive Cut where
  | take (n : Nat)
  | takeFrom (n : Nat)
  deriving DecidableEq, Repr

/-- src/input.rs:142-158: the cut applied. -/
def Input.cut (i : Input) : Cut → Except PErr Input
  | .take n => i.take n
  | .takeFrom n => i.takeFrom n

/-- Cuts one after the other. -/
def Input.cuts : List Cut → Input → Except PErr Input
  | [], i => .ok i
  | c :: cs, i =>
    match i.cut c with
    | .ok j => j.cuts cs
    | .error e => .error e

/-- src/input.rs:164-169 `position` (`&[u8]::position` of nom: the index of the first byte). -/
def Input.position (p : UInt8 → Bool) (i : Input) : Option Nat := i.data.findIdx? p

/-- src/input.rs:171-173 `iter_elements`. -/
def Input.iterElements (i : Input) : List UInt8 := i.data

/-- src/input.rs:175-177 `iter_indices`. -/
def Input.iterIndices (i : Input) : List (Nat × UInt8) := i.data.zipIdx.map fun x => (x.2, x.1)

/-! ### BIT STRING -/

/-- A byte with bit `k` (`Msb0`: 0 is the most significant one) set to `b`. -/
def setBit (x : UInt8) (k : Nat) (b : Bool) : UInt8 :=
  if b then x ||| UInt8.ofNat (128 >>> k) else x &&& ~~~ UInt8.ofNat (128 >>> k)

/-- src/asn1_types/bitstring.rs:62-64 `as_mut_bitslice`, then `BitSlice::set` (external crate `bitvec`), which
panics outside of the live bits and leaves all other bits of the memory alone. -/
def BitString.set (v : BitString) (i : Nat) (b : Bool) : Except SerErr BitString :=
  if i < v.nbits then .ok ⟨v.raw.modify (i / 8) fun x => setBit x (i % 8) b, v.nbits⟩ else .error .panic

/-- Bits set one after the other. -/
def BitString.sets : List (Nat × Bool) → BitString → Except SerErr BitString
  | [], v => .ok v
  | (i, b) :: es, v =>
    match v.set i b with
    | .ok w => w.sets es
    | .error e => .error e

/-! ### Sequences and sets of generic objects -/

/-- An operation on an `AnySequence`. -/
inductive SeqEdit where
  /-- src/asn1_types/sequence/any_sequence.rs:46-48 `push` -/
  | push (a : Any)
  /-- src/asn1_types/sequence/any_sequence.rs:51-53 `pop` -/
  | pop
  /-- src/asn1_types/sequence/any_sequence.rs:41-43 `iter_mut`: the object at position `k`, if there is one, is
  replaced -/
  | replace (k : Nat) (a : Any)

/-- src/asn1_types/sequence/any_sequence.rs:41-53: the sequence afterwards, and what `pop` returns. -/
def SeqEdit.apply : SeqEdit → List Any → Option Any × List Any
  | .push a, as => (none, as ++ [a])
  | .pop, as => (as.getLast?, as.dropLast)
  | .replace k a, as => (none, as.set k a)

/-- Operations one after the other: the sequence afterwards, and what each returns. -/
def seqEdits : List SeqEdit → List Any → List (Option Any) × List Any
  | [], as => ([], as)
  | e :: es, as =>
    let x := e.apply as
    let y := seqEdits es x.2
    (x.1 :: y.1, y.2)

/-- An operation on an `AnySet`: src/asn1_types/set/any_set.rs:51-58 `insert` and `remove`. -/
inductive SetEdit where
  | insert (a : Any)
  | remove (a : Any)

/-- src/asn1_types/set/any_set.rs:51-58: what is returned, and the set afterwards. -/
def SetEdit.apply (H : HashImpl) : SetEdit → AnySet → Bool × AnySet
  | .insert a, s => s.insert H a
  | .remove a, s => s.remove H a

/-- Operations one after the other: what each returns, and the set afterwards. -/
def setEdits (H : HashImpl) : List SetEdit → AnySet → List Bool × AnySet
  | [], s => ([], s)
  | e :: es, s =>
    let x := e.apply H s
    let y := setEdits H es x.2
    (x.1 :: y.1, y.2)

end Asn1

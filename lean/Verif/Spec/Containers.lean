import Verif.Spec.Codec
import Verif.Spec.Objects
import Verif.Spec.Ber
import Verif.Model.Containers
/-!
# Contents made of typed items
-/
namespace Asn1.Spec
open Asn1

variable {α : Type}

/-- From `i` to its end `e`, the bytes are read by `f`, one item after the other, as `vs`. -/
inductive Repeats (f : Input → PRes α) : Input → List α → Input → Prop
  | nil {i} (h : i.data = []) : Repeats f i [] i
  | cons {i r e v vs} (h : i.data ≠ []) (hp : f i = .ok (r, v)) (ht : Repeats f r vs e) :
      Repeats f i (v :: vs) e

/-- The same for a decoder on bytes. -/
inductive RepeatsB (g : Bytes → Except SErr (Bytes × α)) : Bytes → List α → Prop
  | nil : RepeatsB g [] []
  | cons {b r v vs} (h : b ≠ []) (hp : g b = .ok (r, v)) (ht : RepeatsB g r vs) :
      RepeatsB g b (v :: vs)

/-- A decoder returns, as what remains, the end of what it was given. -/
def EndsIn (g : Bytes → Except SErr (Bytes × α)) : Prop :=
  ∀ b r v, g b = .ok (r, v) → r <:+ b

/-- An item that a container can hold: its encoder announces and returns the lengths it writes, its
content has fewer than `2^24` bytes, its tag number fits 32 bits. -/
structure Fits (t : ToBer α) (v : α) : Prop where
  lengths : LengthsRight t v
  small : SmallContent t v
  tag : (t.tagInfo v).2.2 < 2 ^ 32

/-- The announced content length of the list fits a 64-bit length. -/
def ListFits (t : ToBer α) (vs : List α) : Prop :=
  (∀ v ∈ vs, Fits t v) ∧ ∀ n, (listToBer 16 t).contentLen vs = .definite n → n < 2 ^ 64

/-- The components of a tuple are read one after the other from `i`, up to `e`. -/
inductive InOrder : {Ts : List Type} → TupFns Ts → Input → Tup Ts → Input → Prop
  | nil {i} : InOrder .nil i () i
  | cons {T : Type} {Ts : List Type} {f : Input → PRes T} {fs : TupFns Ts} {i r e v vs}
      (h : f i = .ok (r, v)) (ht : InOrder fs r vs e) : InOrder (.cons f fs) i (v, vs) e

/-- The bytes are the encodings of the components of a tuple, one after the other: each component is
the value `v` that its parser returns for the encoding of some value `u`. -/
inductive Components : {Ts : List Type} → TupFns Ts → Tup Ts → Bytes → Prop
  | nil : Components .nil () []
  | cons {T U : Type} {Ts : List Type} {f : Input → PRes T} {fs : TupFns Ts} {v : T} {vs : Tup Ts}
      {bs cs : Bytes} (t : ToBer U) (u : U) (henc : t.toVec u = .ok bs) (h : InputBack t f u v)
      (ht : Components fs vs cs) : Components (.cons f fs) (v, vs) (bs ++ cs)

/-- The answers of `n` successive calls to `next` of a typed iterator on bytes. -/
def seqCalls (g : Bytes → Except SErr (Bytes × α)) :
    Nat → SeqIter → Except SErr (List (Option (Except Error α)))
  | 0, _ => .ok []
  | n + 1, it =>
    match it.next g with
    | .error e => .error e
    | .ok (x, it') =>
      match seqCalls g n it' with
      | .error e => .error e
      | .ok l => .ok (x :: l)

end Asn1.Spec

namespace Asn1.Spec
open Asn1

/-- Encoding `v` writes `bs` and returns their number; `bs` is one complete BER element, with at most
`d` indefinite lengths nested in it, and not something that the decoder takes for end-of-contents
octets. -/
structure BerItem {α : Type} (t : ToBer α) (v : α) (d : Nat) (bs : Bytes) : Prop where
  writes : (t.encode v).exec = (bs, .ok bs.length)
  elem : Elem StrictEoc d bs
  notEoc : ¬ LaxEoc bs

end Asn1.Spec

namespace Asn1.Spec
open Asn1

variable {α : Type}

/-- The parser on inputs and the decoder on bytes accept the same bytes, wherever they are, with the
same value and the same remainder. -/
def SameDecoder (f : Input → PRes α) (g : Bytes → Except SErr (Bytes × α)) : Prop :=
  ∀ i rem v, g i.data = .ok (rem, v) ↔ ∃ r, f i = .ok (r, v) ∧ r.data = rem

/-- What the first parser accepts, the second accepts with the same result. -/
def Accepts (f f' : Input → PRes α) : Prop := ∀ i r v, f i = .ok (r, v) → f' i = .ok (r, v)

/-- The same, component by component. -/
inductive AcceptsAll : {Ts : List Type} → TupFns Ts → TupFns Ts → Prop
  | nil : AcceptsAll .nil .nil
  | cons {T : Type} {Ts : List Type} {f f' : Input → PRes T} {fs fs' : TupFns Ts}
      (h : Accepts f f') (ht : AcceptsAll fs fs') : AcceptsAll (.cons f fs) (.cons f' fs')

/-- What the parser returns depends only on the bytes it consumes (at least one), not on what follows
them nor on where they are. -/
def OnlyBytes (f : Input → PRes α) : Prop :=
  ∀ i r v, f i = .ok (r, v) → ∃ e, e ≠ [] ∧ i.data = e ++ r.data ∧ r = after i e.length ∧
    ∀ (j : Input) (rest : Bytes), j.data = e ++ rest → f j = .ok (after j e.length, v)

/-- Every component of a tuple is so. -/
inductive OnlyBytesAll : {Ts : List Type} → TupFns Ts → Prop
  | nil : OnlyBytesAll .nil
  | cons {T : Type} {Ts : List Type} {f : Input → PRes T} {fs : TupFns Ts} (h : OnlyBytes f)
      (ht : OnlyBytesAll fs) : OnlyBytesAll (.cons f fs)

end Asn1.Spec

namespace Asn1.Spec
open Asn1

/-- Reading `b` item by item with `g` gives `vs` and then the end (`none`) or an error (`some e`). -/
inductive ItemsOf {α : Type} (g : Bytes → Except SErr (Bytes × α)) :
    Bytes → List α → Option Error → Prop
  | done : ItemsOf g [] [] none
  | fail {b e} (hb : b ≠ []) (h : g b = .error (.error e)) : ItemsOf g b [] (some e)
  | cut {b n} (hb : b ≠ []) (h : g b = .error (.incomplete n)) :
      ItemsOf g b [] (some (.incomplete (.size n)))
  | cons {b r v vs out} (hb : b ≠ []) (h : g b = .ok (r, v)) (ht : ItemsOf g r vs out) :
      ItemsOf g b (v :: vs) out

end Asn1.Spec

namespace Asn1.Spec
open Asn1

variable {α : Type}

/-- The answers of `n` successive calls to `next` of a typed iterator on `Input`. -/
def typedCalls (parse : Input → PRes Any) (p : Parser α) :
    Nat → AnyIter → Except PErr (List (Option (Except (Input × InnerError) α)))
  | 0, _ => .ok []
  | n + 1, it =>
    match seqIterInputNext parse p it with
    | .error e => .error e
    | .ok (x, it') =>
      match typedCalls parse p n it' with
      | .error e => .error e
      | .ok l => .ok (x :: l)

/-- What a typed iterator answers when the generic iterator answers an object, an error, or the end:
the value or the error that the content decoder makes of the object, the same error, or the end. -/
inductive TypedAnswer (p : Parser α) :
    Option IterItem → Option (Except (Input × InnerError) α) → Prop
  | done : TypedAnswer p none none
  | err {i e} : TypedAnswer p (some (.err i e)) (some (.error (i, e)))
  | value {s a x v} (h : p.content a.header a.data = .ok (x, v)) :
      TypedAnswer p (some (.obj s a)) (some (.ok v))
  | bad {s a i e} (h : p.content a.header a.data = .error (.error i e)) :
      TypedAnswer p (some (.obj s a)) (some (.error (i, e)))
  | cut {s a n} (h : p.content a.header a.data = .error (.incomplete n)) :
      TypedAnswer p (some (.obj s a)) (some (.error (Input.fromSlice [], .incomplete (.size n))))

end Asn1.Spec

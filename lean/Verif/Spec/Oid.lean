import Verif.Spec.Header
import Verif.Spec.Objects
/-!
# Sub-identifiers of OBJECT IDENTIFIER values (X.690 8.19.2)
-/
namespace Asn1.Spec
open Asn1

/-- The octets `bs` are the sub-identifier `n`: base 128, every octet but the last one has the top
bit set, and the first octet is not 0x80. -/
def SubId (n : Nat) (bs : Bytes) : Prop :=
  IsGroup bs ∧ base128 bs = n ∧ ∀ x xs, bs = x :: xs → x.toNat ≠ 128

/-- The octets `bs` are the sub-identifiers `ns`, one after the other. -/
def SubIds (ns : List Nat) (bs : Bytes) : Prop :=
  ∃ parts, Pointwise SubId ns parts ∧ bs = parts.flatten

/-- The first two arcs packed in the first sub-identifier (X.690 8.19.4): the first arc is 0, 1 or
2, and the second one is below 40 unless the first one is 2. -/
def X690First (n a b : Nat) : Prop := n = a * 40 + b ∧ a ≤ 2 ∧ (a < 2 → b < 40)

/-- The content octets `bs` of an OBJECT IDENTIFIER denote the arcs (X.690 8.19). -/
def X690Oid (bs : Bytes) (arcs : List Nat) : Prop :=
  ∃ n ns a b, SubIds (n :: ns) bs ∧ X690First n a b ∧ arcs = a :: b :: ns

/-- Dotted decimal text: the decimal digits of every number, without leading zeros, separated by
dots. -/
inductive Digits : Nat → Bytes → Prop where
  | one (n : Nat) : n < 10 → Digits n [UInt8.ofNat (48 + n)]
  | more (n d : Nat) (t : Bytes) : 0 < n → d < 10 → Digits n t →
      Digits (10 * n + d) (t ++ [UInt8.ofNat (48 + d)])

/-- See `Digits`. -/
inductive Dotted : List Nat → Bytes → Prop where
  | one (n : Nat) (t : Bytes) : Digits n t → Dotted [n] t
  | more (n : Nat) (ns : List Nat) (t ts : Bytes) : Digits n t → Dotted ns ts →
      Dotted (n :: ns) (t ++ 46 :: ts)

/-- The digits of hexadecimal numbers, in lower case. -/
def hexAlphabet : Bytes :=
  [48, 49, 50, 51, 52, 53, 54, 55, 56, 57, 97, 98, 99, 100, 101, 102]

/-- Octets in hexadecimal: two digits each (lower case), a space between two octets. -/
inductive HexText : Bytes → Bytes → Prop where
  | nil : HexText [] []
  | one (b d e : UInt8) : hexAlphabet[b.toNat / 16]? = some d → hexAlphabet[b.toNat % 16]? = some e →
      HexText [b] [d, e]
  | more (b d e : UInt8) (bs t : Bytes) : bs ≠ [] → hexAlphabet[b.toNat / 16]? = some d →
      hexAlphabet[b.toNat % 16]? = some e → HexText bs t → HexText (b :: bs) (d :: e :: 32 :: t)

/-- Any octets, cut after every octet below 128: the pieces are base-128 groups, except perhaps the
last one, all octets of which are 128 or more. -/
inductive Groups : Bytes → List Bytes → Prop where
  | nil : Groups [] []
  | cut (g : Bytes) : g ≠ [] → (∀ b ∈ g, 128 ≤ b.toNat) → Groups g [g]
  | next (g rest : Bytes) (gs : List Bytes) : IsGroup g → Groups rest gs → Groups (g ++ rest) (g :: gs)

end Asn1.Spec

import Verif.Spec.Header
/-!
# Specification of complete BER elements (X.690 8.1), independent of the parser
-/
namespace Asn1.Spec
open Asn1

/-- The end-of-contents octets of X.690 8.1.5. -/
def StrictEoc (bs : Bytes) : Prop := bs = [0, 0]

/-- What asn1-rs takes for end-of-contents octets: any header with tag number 0 and length 0,
whatever its class, its constructed bit and the form of its identifier and length octets. -/
def LaxEoc (bs : Bytes) : Prop :=
  ∃ c p id len, Ident c p 0 id ∧ Len p (.definite 0) len ∧ bs = id ++ len

/-- A complete element with a definite length. -/
def DefElem (bs : Bytes) : Prop :=
  ∃ c p tag id len content, Ident c p tag id ∧ Len p (.definite content.length) len ∧
    bs = id ++ len ++ content

/-- The elements of an indefinite-length encoding followed by end-of-contents octets
(`E` says which byte strings count as end-of-contents). No element is itself taken for
end-of-contents octets. -/
def Items (E : Bytes → Prop) (Elem : Bytes → Prop) (items : List Bytes) (eoc : Bytes) : Prop :=
  (∀ it ∈ items, Elem it ∧ ¬ LaxEoc it) ∧ E eoc

/-- A complete element in which at most `d` indefinite-length encodings are nested. -/
def Elem (E : Bytes → Prop) : Nat → Bytes → Prop
  | 0, bs => DefElem bs
  | d + 1, bs => DefElem bs ∨
    ∃ c tag id len items eoc, Ident c true tag id ∧ Len true .indefinite len ∧
      Items E (Elem E d) items eoc ∧ bs = id ++ len ++ items.flatten ++ eoc

/-- The bytes after a header of length `l`: `content`, then `marker` (the end-of-contents
octets for the indefinite form, nothing for the definite form). -/
def Body (E : Bytes → Prop) (d : Nat) (l : Length) (content marker : Bytes) : Prop :=
  match l with
  | .definite n => content.length = n ∧ marker = []
  | .indefinite => ∃ items, 0 < d ∧ Items E (Elem E (d - 1)) items marker ∧
      content = items.flatten

/-- `k` nested indefinite-length SEQUENCEs, the innermost one empty. -/
def nest : Nat → Bytes
  | 0 => []
  | k + 1 => [0x30, 0x80] ++ nest k ++ [0x00, 0x00]

end Asn1.Spec

namespace Asn1.Spec

/-- The shortest length octets of the definite form (X.690 10.1): short form below 128, otherwise
the long form without leading zero. -/
inductive DerLen (n : Nat) : Bytes → Prop where
  | short (b : UInt8) (h : n < 128) (hb : b.toNat = n) : DerLen n [b]
  | long (b x : UInt8) (xs : Bytes) (h : 128 ≤ n) (hb : b.toNat = 128 + (x :: xs).length)
      (hx : x.toNat ≠ 0) (hn : beNat (x :: xs) = n) : DerLen n (b :: x :: xs)

end Asn1.Spec

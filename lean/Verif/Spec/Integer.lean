import Verif.Base.Bytes
/-!
# Specification of INTEGER contents (X.690 8.3)
-/
namespace Asn1.Spec
open Asn1

/-- Two's-complement value of a big-endian byte string (X.690 8.3.3): the bits of the first octet
weigh negatively if its top bit is set. The empty string denotes 0 (X.690 has no such
content). -/
def twos : Bytes → Int
  | [] => 0
  | b :: bs =>
    if 128 ≤ b.toNat then (beNat (b :: bs) : Int) - (256 ^ (b :: bs).length : Nat)
    else beNat (b :: bs)

/-- X.690 8.3.2: at least one octet, and the first nine bits are neither all ones nor all
zeros. -/
def MinimalInt : Bytes → Prop
  | [] => False
  | [_] => True
  | a :: b :: _ => ¬ (a.toNat = 0 ∧ b.toNat < 128) ∧ ¬ (a.toNat = 255 ∧ 128 ≤ b.toNat)

/-- Range of an unsigned type of `N` bytes. -/
def InUint (N : Nat) (v : Int) : Prop := 0 ≤ v ∧ v < (256 ^ N : Nat)

/-- Range of a signed type of `N` bytes. -/
def InInt (N : Nat) (v : Int) : Prop := -(2 ^ (8 * N - 1) : Nat) ≤ v ∧ v < (2 ^ (8 * N - 1) : Nat)

end Asn1.Spec

import Verif.Model.Strings
/-!
# Bits of byte strings
-/
namespace Asn1.Spec
open Asn1

/-- The bits of a byte string, the most significant bit of each byte first (X.690 8.6.2.1). -/
def bitsOf (bs : Bytes) : List Bool :=
  bs.flatMap fun b => (List.range 8).map fun k => b.toNat.testBit (7 - k)

/-- The content octets `cs` are those of a BIT STRING with the bits `l`: one byte giving the number
of unused bits (0 to 7), then bytes whose last `u` bits are not used (X.690 8.6.2). -/
def BitContent (cs : Bytes) (l : List Bool) : Prop :=
  ∃ u bytes, cs = u :: bytes ∧ u.toNat ≤ 7 ∧ u.toNat ≤ 8 * bytes.length ∧
    l = (bitsOf bytes).take (8 * bytes.length - u.toNat)

/-- Unused bits are zero (X.690 11.2.1). -/
def ZeroPadded (cs : Bytes) (l : List Bool) : Prop :=
  ∃ u bytes, cs = u :: bytes ∧ bitsOf bytes = l ++ List.replicate u.toNat false

end Asn1.Spec

/-- A well-formed bit string: the number of bytes is the one needed for its bits. -/
def Asn1.BitString.WF (v : Asn1.BitString) : Prop := v.raw.length = (v.nbits + 7) / 8

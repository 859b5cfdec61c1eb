import Verif.Spec.Containers
/-!
# Specification: the order of the components of a SET OF (C118)
-/
namespace Asn1.Spec
open Asn1

/-- X.690 11.6: the encodings are compared as octet strings, the shorter one being padded at its end with
0-octets. -/
def OctetLe : Bytes → Bytes → Prop
  | [], _ => True
  | a :: as, [] => a = 0 ∧ OctetLe as []
  | a :: as, b :: bs => a.toNat < b.toNat ∨ a = b ∧ OctetLe as bs

instance decOctetLe : (a b : Bytes) → Decidable (OctetLe a b)
  | [], _ => isTrue trivial
  | a :: as, [] => @instDecidableAnd _ _ _ (decOctetLe as [])
  | a :: as, b :: bs => @instDecidableOr _ _ _ (@instDecidableAnd _ _ _ (decOctetLe as bs))

/-- The encodings are in ascending order. -/
def Ascending (encs : List Bytes) : Prop := encs.Pairwise OctetLe

/-- The DER encoding of a SET OF whose components have these encodings, in this order. -/
def IsSetOf (encs : List Bytes) (bs : Bytes) : Prop :=
  ∃ id len, X690Ident .universal true 17 id ∧ DerLen encs.flatten.length len ∧ bs = id ++ len ++ encs.flatten

end Asn1.Spec

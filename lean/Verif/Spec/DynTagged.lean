import Verif.Spec.Header
/-!
# Encodings with the same rest and other identifier octets
-/
namespace Asn1.Spec
open Asn1

/-- `bs` starts with the identifier octets (X.690 8.1.2) of an object with this class, this form (constructed or
primitive) and this tag number; `rest` follows: the length and content octets. -/
def StartsWith (id : Class × Bool × Nat) (bs rest : Bytes) : Prop :=
  ∃ ident, X690Ident id.1 id.2.1 id.2.2 ident ∧ bs = ident ++ rest

end Asn1.Spec

import Verif.Model.AnySet
import Verif.Model.Derive
import Verif.Model.Real
/-!
# `PartialEq` of values

The types derive `PartialEq`, that is, they compare their fields one by one. For `Integer`
(src/asn1_types/integer.rs:361-364), `Boolean` (boolean.rs:12-15), `OctetString`, the strings, `Oid`
(oid.rs:38-42), `Enumerated`, the times, `Sequence` and `Set` all fields are bytes, texts and numbers, so that
this is equality in the model. The others are here; `Header::eq` and `Any::eq` are `Header.eq` and `Any.eq`,
the equality of `BitString` is `BitString.eqv`.
-/
namespace Asn1

variable {α : Type}

/-- `==` of `f64` (Rust's core library, IEEE 754): the two zeros are equal, a NaN is equal to nothing. -/
def F64.eq : F64 → F64 → Bool
  | .inf s, .inf t => s == t
  | .fin s n e, .fin t m f => (n = 0 && m = 0) || (s == t && n = m && e = f)
  | _, _ => false

/-- src/asn1_types/real.rs:13-30: derived `PartialEq` of `Real`. -/
def Real.eq : Real → Real → Bool
  | .binary m b e c, .binary m' b' e' c' => m.eq m' && b = b' && e = e' && c = c'
  | .infinity, .infinity => true
  | .nan, .nan => true
  | .negInfinity, .negInfinity => true
  | .zero, .zero => true
  | _, _ => false

/-- The equality of slices, used by `Vec`, arrays, `SequenceOf` (src/asn1_types/sequence/sequence_of.rs:36-39),
`SetOf` (src/asn1_types/set/set_of.rs:36-39), `IndefiniteVec` (src/to_ber/constructed_indefinite.rs:41-42). -/
def listEq (eq : α → α → Bool) : List α → List α → Bool
  | [], [] => true
  | a :: as, b :: bs => eq a b && listEq eq as bs
  | _, _ => false

end Asn1

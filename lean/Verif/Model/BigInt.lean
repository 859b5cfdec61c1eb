import Verif.Model.Integer
/-!
# Integers of any size: src/asn1_types/integer.rs:393-410 (feature `bigint`)

The arithmetic is that of the crate num-bigint, which is not part of /repo: `BigInt` is `Int`,
`BigUint` is `Nat`, `BigUint::from_bytes_be` is `beNat`, and `BigInt::from_signed_bytes_be` is
written out after the published source of that crate (`bigint/convert.rs`), as it is the one place
where the sign is decided.
-/
namespace Asn1

/-- num-bigint `bigint/convert.rs` `twos_complement_be`: from the last byte on, complement every
byte and add one, as long as the addition carries. The flag is the carry out of the bytes. -/
def twosComplement : Bytes → Bytes × Bool
  | [] => ([], true)
  | b :: rest =>
    let (digits, carry) := twosComplement rest
    if carry then ((~~~b + 1) :: digits, ~~~b + 1 == 0) else (~~~b :: digits, false)

/-- num-bigint `bigint/convert.rs` `from_signed_bytes_be`. -/
def fromSignedBytesBe (digits : Bytes) : Int :=
  match digits with
  | [] => 0
  | v :: _ => if v > 0x7f then -(beNat (twosComplement digits).1 : Int) else beNat digits

/-- src/asn1_types/integer.rs:393-398 `Integer::as_bigint`. -/
def Integer.asBigint (i : Integer) : Int := fromSignedBytesBe i.data

/-- src/asn1_types/integer.rs:400-410 `Integer::as_biguint`. -/
def Integer.asBiguint (i : Integer) : Except InnerError Nat :=
  if isHighestBitSet i.data then .error .integerNegative else .ok (beNat i.data)

end Asn1

import Verif.Base.Bytes
/-!
# Binary floating-point numbers: Rust's `f64`

`f64` and its operations belong to Rust's core library and to the hardware (IEEE 754 binary64), not to
this crate. A finite number is modelled by an exact number of the form `±num * 2^exp`; each number has one
representation, with an odd `num`, or zero with `exp = 0` (`F64.Valid` in `Spec/Real`). Results that are
not representable are rounded to nearest, ties to even, with gradual underflow and overflow to infinity.
The payload of a NaN is not modelled.
-/
namespace Asn1

/-- `f64`. -/
inductive F64 where
  | nan
  | inf (neg : Bool)
  | fin (neg : Bool) (num : Nat) (exp : Int)
  deriving DecidableEq, Repr

namespace F64

/-- Factors of two are moved from `num` to `exp`. -/
def strip : Nat → Nat → Int → Nat × Int
  | 0, n, e => (n, e)
  | fuel + 1, n, e => if n % 2 = 0 then strip fuel (n / 2) (e + 1) else (n, e)

/-- The number `±num * 2^exp`, which is representable or too large. -/
def make (neg : Bool) (num : Nat) (exp : Int) : F64 :=
  if num = 0 then .fin neg 0 0
  else if exp + num.log2 ≥ 1024 then .inf neg
  else .fin neg (strip num.log2 num exp).1 (strip num.log2 num exp).2

/-- `num / 2^k` rounded to nearest, ties to even. -/
def roundShift (num k : Nat) : Nat :=
  if 2 * (num % 2 ^ k) > 2 ^ k ∨ (2 * (num % 2 ^ k) = 2 ^ k ∧ num / 2 ^ k % 2 = 1) then num / 2 ^ k + 1
  else num / 2 ^ k

/-- The exponent of the last place: 53 bits of precision, and nothing below `2^-1074`. -/
def lastPlace (num : Nat) (exp : Int) : Int := max (exp + num.log2 - 52) (-1074)

/-- IEEE 754 rounding of `±num * 2^exp`. -/
def round (neg : Bool) (num : Nat) (exp : Int) : F64 :=
  if lastPlace num exp ≤ exp then make neg num exp
  else make neg (roundShift num (lastPlace num exp - exp).toNat) (lastPlace num exp)

/-- `*`. -/
def mul : F64 → F64 → F64
  | .nan, _ => .nan
  | _, .nan => .nan
  | .inf s, .inf t => .inf (s != t)
  | .inf s, .fin t n _ => if n = 0 then .nan else .inf (s != t)
  | .fin s n _, .inf t => if n = 0 then .nan else .inf (s != t)
  | .fin s n e, .fin t m f => round (s != t) (n * m) (e + f)

/-- `p as f64` for an integer. -/
def ofInt (p : Int) : F64 := round (decide (p < 0)) p.natAbs 0

/-- `2_f64.powi(k)`, computed as a product of twos, and its inverse for a negative `k`: infinite above
`2^1023`, zero below `2^-1023`. (Rust does not specify the precision of `powi`; for powers of two the
products are exact.) -/
def pow2 (k : Int) : F64 :=
  if k ≥ 1024 then .inf false else if k ≤ -1024 then .fin false 0 0 else .fin false 1 k

/-- `f64::abs`. -/
def abs : F64 → F64
  | .nan => .nan
  | .inf _ => .inf false
  | .fin _ n e => .fin false n e

/-- `f64::is_sign_positive` (a NaN is taken to be positive). -/
def isSignPositive : F64 → Bool
  | .nan => true
  | .inf s => !s
  | .fin s _ _ => !s

/-- `x.abs() > f64::EPSILON`, where `EPSILON` is `2^-52`. -/
def gtEpsilon : F64 → Bool
  | .nan => false
  | .inf _ => true
  | .fin _ n e => if e + 52 ≥ 0 then decide (n * 2 ^ (e + 52).toNat > 1)
      else decide (n > 2 ^ (-(e + 52)).toNat)

/-- `x.fract() != 0.0` (`fract` of an infinity is NaN, and NaN is different from zero). -/
def hasFract : F64 → Bool
  | .nan => true
  | .inf _ => true
  | .fin _ n e => if e ≥ 0 then false else decide (n % 2 ^ (-e).toNat ≠ 0)

/-- `x as u64`: truncation, saturating at both ends; 0 for NaN. -/
def toU64 : F64 → Nat
  | .nan => 0
  | .inf s => if s then 0 else 2 ^ 64 - 1
  | .fin s n e =>
    if s then 0
    else if e ≥ 64 then (if n = 0 then 0 else 2 ^ 64 - 1)
    else if e ≥ 0 then min (n * 2 ^ e.toNat) (2 ^ 64 - 1)
    else min (n / 2 ^ (-e).toNat) (2 ^ 64 - 1)

/-- `m.rem_euclid(10.0).abs() < f64::EPSILON`, for numbers without fractional part. -/
def tensMultiple : F64 → Bool
  | .fin _ n e => decide (n * 2 ^ e.toNat % 10 = 0)
  | _ => false

/-- `m / 10.0`, for multiples of ten (an exact division). -/
def div10 : F64 → F64
  | .fin s n e => make s (n / 5) (e - 1)
  | x => x

end F64
end Asn1

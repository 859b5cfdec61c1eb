import Verif.Model.Float32
import Verif.Spec.Real
/-!
# The numbers of `f32` and rounding to them
-/
namespace Asn1.Spec

/-- The numbers of IEEE 754 binary32, each with one representation: infinities and NaN; zero; the
numbers `±n * 2^e` with an odd `n` of at most 24 bits, not below `2^-149` in precision and less than
`2^128`. -/
def F32Valid : F64 → Prop
  | .fin _ n e => (n = 0 ∧ e = 0) ∨ (n % 2 = 1 ∧ n < 2 ^ 24 ∧ -149 ≤ e ∧ e + n.log2 < 128)
  | _ => True

/-- `±n * 2^e`, in units of `2^c` (where `c ≤ e`). -/
def units (c : Int) (neg : Bool) (n : Nat) (e : Int) : Int :=
  if neg then -(n * 2 ^ (e - c).toNat : Nat) else (n * 2 ^ (e - c).toNat : Nat)

/-- `y` is a finite number that differs from the finite number `f` by at most `2^-26` of it. -/
def Close (y f : F64) : Prop :=
  ∃ s n e n' e', y = .fin s n e ∧ f = .fin s n' e' ∧ ∀ c, c ≤ e → c ≤ e' →
    (units c s n e - units c s n' e').natAbs * 2 ^ 26 ≤ (units c s n' e').natAbs

/-- `x` is the `f64` nearest to `±N * 2^E`: it is infinite exactly from halfway between the largest finite
number and `2^1024` on; otherwise it is a finite number of the format of the same sign, no other one is nearer,
and if another one is as near, that one has the smaller exponent (the last place of `x` is even). Numbers are
compared in units of `2^c`, for every `c` that is small enough. -/
def Nearest64 (neg : Bool) (N : Nat) (E : Int) (x : F64) : Prop :=
  (∀ c, c ≤ E → c ≤ 970 →
    (x = .inf neg ↔ (2 ^ 54 - 1) * 2 ^ (970 - c).toNat ≤ N * 2 ^ (E - c).toNat)) ∧
  (x = .inf neg ∨ ∃ m f, x = .fin neg m f ∧ F64Valid x ∧
    ∀ n' e' c, F64Valid (.fin neg n' e') → c ≤ E → c ≤ f → c ≤ e' →
      ((N * 2 ^ (E - c).toNat : Nat) - (m * 2 ^ (f - c).toNat : Nat) : Int).natAbs ≤
        ((N * 2 ^ (E - c).toNat : Nat) - (n' * 2 ^ (e' - c).toNat : Nat) : Int).natAbs ∧
      (((N * 2 ^ (E - c).toNat : Nat) - (m * 2 ^ (f - c).toNat : Nat) : Int).natAbs =
        ((N * 2 ^ (E - c).toNat : Nat) - (n' * 2 ^ (e' - c).toNat : Nat) : Int).natAbs →
        (n' = m ∧ e' = f) ∨ e' < f))

end Asn1.Spec

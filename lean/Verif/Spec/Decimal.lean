import Verif.Spec.Float32
import Verif.Spec.Oid
/-!
# Decimal numbers and `f64`

What the documentation of Rust's standard library says about reading and formatting `f64`, as far as the crate uses
it for REAL: texts are read as the nearest number, and numbers are formatted so that they can be read again. Rust
leaves the precision of `powi` open; what is assumed here holds if it multiplies repeatedly and then divides.
-/
namespace Asn1.Spec
open Asn1

/-- The number `n * 2^e` of the format, in units of `2^-1074`. -/
def grid (n : Nat) (e : Int) : Nat := n * 2 ^ (e + 1074).toNat

/-- `f` is a number of `f64` that is nearest to `±n * 10^k` (one of them, if there are two): the distances of `f` and
of any other finite number of the format from it are compared in units of `2^-1074`, after multiplication with the
denominator. -/
def NearestDecimal (neg : Bool) (n : Nat) (k : Int) (f : F64) : Prop :=
  ∃ m x, f = .fin neg m x ∧ F64Valid f ∧ ∀ m' x', F64Valid (.fin neg m' x') →
    ((n * 10 ^ k.toNat * 2 ^ 1074 : Nat) - (grid m x * 10 ^ (-k).toNat : Nat) : Int).natAbs ≤
      ((n * 10 ^ k.toNat * 2 ^ 1074 : Nat) - (grid m' x' * 10 ^ (-k).toNat : Nat) : Int).natAbs

/-- The text of `±n * 10^k`: an optional minus sign, digits, `E`, an optional sign, digits. -/
inductive DecimalText : Bytes → Bool → Nat → Int → Prop
  | plain {ds es : Bytes} {n k : Nat} (neg : Bool) (hd : Digits n ds) (he : Digits k es) :
      DecimalText ((if neg then [0x2d] else []) ++ ds ++ 0x45 :: es) neg n k
  | plus {ds es : Bytes} {n k : Nat} (neg : Bool) (hd : Digits n ds) (he : Digits k es) :
      DecimalText ((if neg then [0x2d] else []) ++ ds ++ 0x45 :: 0x2b :: es) neg n k
  | minus {ds es : Bytes} {n k : Nat} (neg : Bool) (hd : Digits n ds) (he : Digits k es) :
      DecimalText ((if neg then [0x2d] else []) ++ ds ++ 0x45 :: 0x2d :: es) neg n (-k)

/-- `y` is a finite number that differs from the finite number `f` by at most `2^-p` of it. -/
def Within (p : Nat) (y f : F64) : Prop :=
  ∃ s n e n' e', y = .fin s n e ∧ f = .fin s n' e' ∧ ∀ c, c ≤ e → c ≤ e' →
    (units c s n e - units c s n' e').natAbs * 2 ^ p ≤ (units c s n' e').natAbs

/-- What is assumed of Rust's library where `f64` goes through decimal texts. -/
structure Honest (lib : FloatLib) : Prop where
  /-- A decimal text (of a number that is not too large) is read as the nearest number. -/
  parse : ∀ {text : Bytes} {neg : Bool} {n : Nat} {k : Int}, DecimalText text neg n k →
    n * 10 ^ k.toNat < 2 ^ 1023 * 10 ^ (-k).toNat → ∃ f, lib.parse text = some f ∧ NearestDecimal neg n k f
  /-- An integer is formatted as the digits of a number to which it is nearest (so it is formatted exactly if it has
  up to 53 bits). -/
  display : ∀ {neg : Bool} {n : Nat} {e : Int}, F64Valid (.fin neg n e) → 0 ≤ e →
    ∃ N ds, Digits N ds ∧ lib.display (.fin neg n e) = (if neg then [0x2d] else []) ++ ds ∧
      NearestDecimal neg N 0 (.fin neg n e)
  /-- The powers of ten up to `10^22`, which are numbers of the format, and their inverses are the nearest numbers. -/
  powi : ∀ k : Int, k.natAbs ≤ 22 → NearestDecimal false 1 k (lib.powi 10 k)
  /-- Larger powers are right to 40 bits. -/
  powi_close : ∀ k : Int, k.natAbs ≤ 300 → ∃ m x, lib.powi 10 k = .fin false m x ∧ F64Valid (.fin false m x) ∧
    ((10 ^ k.toNat * 2 ^ 1074 : Nat) - (grid m x * 10 ^ (-k).toNat : Nat) : Int).natAbs * 2 ^ 40 ≤
      10 ^ k.toNat * 2 ^ 1074
  /-- Powers that are less than half of the smallest positive number, `2^-1074`, are zero. -/
  powi_zero : ∀ k : Int, k ≤ -324 → lib.powi 10 k = .fin false 0 0

end Asn1.Spec

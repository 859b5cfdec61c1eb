import Verif.Model.AnyMethods
import Verif.Model.Builders
import Verif.Model.Calendar
import Verif.Model.BigInt
import Verif.Model.Float32
import Verif.Spec.Time
/-!
# What the transcribed tests of the crate use

The modules under `Verif/Tests` transcribe the tests of the repository (the unit tests in `src` and those in
`tests`), which state what the real code does on concrete inputs: they check the model against the code. They are
not properties; nothing in `Spec`, `Proofs` or `Props` depends on them.

Each test is evaluated by the kernel. `expect("...")` with assertions on the result is written as an equation with
the result; `expect_err` as `fails`.
-/
namespace Asn1.Tests
open Asn1

deriving instance DecidableEq for OffsetDateTime

/-- `expect_err`: the result is an error, not a panic and not an endless loop. -/
def fails {α : Type} : Except SErr α → Bool
  | .error (.error _) => true
  | .error (.incomplete _) => true
  | _ => false

/-- `expect`. -/
def works {ε α : Type} : Except ε α → Bool
  | .ok _ => true
  | _ => false

/-- The value returned, without the rest. -/
def value {ε α β : Type} : Except ε (β × α) → Option α
  | .ok (_, v) => some v
  | _ => none

/-- `Any::from_ber` and `Any::from_der` on bytes. -/
def anyFromBer (bytes : Bytes) : Except SErr (Bytes × Any) := wrapBerParser parseBerAny bytes
def anyFromDer (bytes : Bytes) : Except SErr (Bytes × Any) := wrapBerParser parseDerAny bytes

/-- What a closure applied to the value of a successful result gives. -/
def andThen {ε α β : Type} (r : Except ε α) (f : α → β) : Option β :=
  match r with
  | .ok v => some (f v)
  | .error _ => none

/-- The digits of a decimal number. -/
def digits : Bytes → Nat → Option Nat
  | [], acc => some acc
  | b :: bs, acc => if 48 ≤ b.toNat ∧ b.toNat ≤ 57 then digits bs (acc * 10 + (b.toNat - 48)) else none

/-- The `f64` nearest to `n * 10^e`. -/
def decimalF64 (n : Nat) (e : Int) : F64 :=
  if e ≥ 0 then F64.round false (n * 10 ^ e.toNat) 0
  else
    let d := 10 ^ (-e).toNat
    F64.round false (2 * (n * 2 ^ 200 / d) + if n * 2 ^ 200 % d = 0 then 0 else 1) (-201)

/-- Enough of Rust's parsing and formatting of `f64` for the tests: texts `digits`, `digitsE-digits`; numbers that
are integers. -/
def testLib : FloatLib where
  parse bs :=
    match bs.span (· ≠ 69) with
    | (m, []) => (digits m 0).map fun n => decimalF64 n 0
    | (m, _ :: 45 :: e) => (digits m 0).bind fun n => (digits e 0).map fun k => decimalF64 n (-k)
    | (m, _ :: e) => (digits m 0).bind fun n => (digits e 0).map fun k => decimalF64 n k
  display
    | .fin _ n e => decimal (n * 2 ^ e.toNat)
    | _ => []
  powi b k := decimalF64 1 (if b = 10 then k else 0)

end Asn1.Tests

import Verif.Props.RealRound
import Verif.Props.RealSafe
/-!
# REAL: constructors and predicates (C73, C74)
-/
namespace Asn1
open Spec
variable (lib : FloatLib)

/-- **C73** `Real::binary(m, 2, e)` is the number `m * 2^e`, whatever the encoding base chosen with
`with_enc_base`. It is written as X.690 11.3.1 says and decodes to the same number if its exponent fits
the octets that the encoder takes; with the encoding bases 8 and 16 it decodes to the number that
`C73_other_bases` says. -/
theorem C73_constructors {neg : Bool} {n : Nat} {x e : Int} :
    RealIs (Real.ofBinary (.fin neg n x) 2 e) neg n (x + e) ∧
    (∀ b, RealIs ((Real.ofBinary (.fin neg n x) 2 e).withEncBase b) neg n (x + e)) ∧
    (F64Valid (.fin neg n x) → F64.gtEpsilon (.fin neg n x) = true → n * 2 ^ x.toNat < 2 ^ 64 →
      InInt 4 e → ExpFits (e + x) →
      (∃ cs v', (realToBer lib).toVec (Real.ofBinary (.fin neg n x) 2 e) =
          .ok (9 :: UInt8.ofNat cs.length :: cs) ∧ DerBinary cs neg n (e + x) ∧
        RealBack lib (Real.ofBinary (.fin neg n x) 2 e) v' ∧
        SameReal (Real.ofBinary (.fin neg n x) 2 e) v')) ∧
    (∀ b s, EncBase b s → b ≠ 2 → F64Valid (.fin neg n (x + e.tdiv s)) →
      F64.gtEpsilon (.fin neg n (x + e.tdiv s)) = true → n * 2 ^ (x + e.tdiv s).toNat < 2 ^ 64 →
      (e.tdiv s).natAbs < 1024 → ExpFits (e.tdiv s + (x + e.tdiv s) / s) →
      ∃ v', RealBack lib ((Real.ofBinary (.fin neg n x) 2 e).withEncBase b) v' ∧
        RealIs v' neg n (x + (s + 1) * e.tdiv s)) := by
  refine ⟨⟨_, _, _, _, rfl, sameNumber_refl _ _⟩, fun b => ⟨_, _, _, _, rfl, sameNumber_refl _ _⟩, ?_, ?_⟩
  · intro hv hg h64 he hf
    obtain ⟨cs, v', h1, h2, h3, h4⟩ := C73_real_roundtrip_partial lib hv hg h64 he
      (by unfold ExpFits at hf; omega)
    exact ⟨cs, v', h1, h4 hf, h2, h3.mp hf⟩
  · intro b s hb h2 hv hg h64 hs hE
    obtain ⟨v', h3, h4, _⟩ := C73_other_bases lib hb h2 hv hg h64 hs hE
    exact ⟨v', h3, h4⟩

/-- **C73** `with_enc_base` changes neither the number nor what kind of number it is. -/
theorem C73_enc_base (r : Real) (b : Nat) :
    (r.withEncBase b).f64 lib = r.f64 lib ∧ (r.withEncBase b).isFinite = r.isFinite ∧
    (r.withEncBase b).isInfinite = r.isInfinite ∧ SameReal r (r.withEncBase b) := by
  cases r with
  | binary m base e c =>
    refine ⟨rfl, rfl, rfl, fun neg n x => ⟨?_, ?_⟩⟩
    · rintro ⟨num, ex, y, d, h, h'⟩
      injection h with h1 h2 h3 h4
      subst h1 h2 h3
      exact ⟨num, ex, _, b, rfl, h'⟩
    · rintro ⟨num, ex, y, d, h, h'⟩
      injection h with h1 h2 h3 h4
      subst h1 h2 h3
      exact ⟨num, ex, _, c, rfl, h'⟩
  | infinity => exact ⟨rfl, rfl, rfl, fun _ _ _ => Iff.rfl⟩
  | nan => exact ⟨rfl, rfl, rfl, fun _ _ _ => Iff.rfl⟩
  | negInfinity => exact ⟨rfl, rfl, rfl, fun _ _ _ => Iff.rfl⟩
  | zero => exact ⟨rfl, rfl, rfl, fun _ _ _ => Iff.rfl⟩

/-- **C74** `Real::new` gives an infinite REAL exactly for the infinities (with their sign), a finite one
exactly for the finite numbers (zero for the two zeros), and neither for NaN; the infinities, NaN and zero
come back from `Real::f64`. -/
theorem C74_classes {f : F64} (hv : F64Valid f) :
    ∃ r, Real.new f = some r ∧
      (r.isInfinite = true ↔ ∃ s, f = .inf s) ∧ (r.isFinite = true ↔ ∃ s n e, f = .fin s n e) ∧
      (r = .infinity ↔ f = .inf false) ∧ (r = .negInfinity ↔ f = .inf true) ∧ (r = .nan ↔ f = .nan) ∧
      (r = .zero ↔ ∃ s, f = .fin s 0 0) ∧
      (f = .fin false 0 0 ∨ f = .nan ∨ (∃ s, f = .inf s) → r.f64 lib = f) := by
  cases f with
  | inf s =>
    refine ⟨_, rfl, ?_⟩
    cases s <;> simp [Real.isInfinite, Real.isFinite, Real.f64]
  | nan => exact ⟨_, rfl, by simp [Real.isInfinite, Real.isFinite, Real.f64]⟩
  | fin s n e =>
    by_cases h0 : n = 0
    · subst h0
      have he : e = 0 := by
        rcases hv with ⟨_, h⟩ | ⟨h, _⟩
        · exact h
        · simp at h
      subst he
      refine ⟨.zero, by simp [Real.new], ?_⟩
      simp [Real.isInfinite, Real.isFinite, Real.f64]
    · obtain ⟨m, g, x, h1, _⟩ := C74_real_new hv h0
      refine ⟨_, h1, ?_⟩
      simp [Real.isInfinite, Real.isFinite, h0]

/-- Cases. -/
example : (Real.new (.inf true)).map Real.isInfinite = some true ∧
    (Real.new (.fin false 625 3)).map Real.isFinite = some true ∧
    (Real.new .nan).map Real.isFinite = some false := by decide +kernel

example : F64Valid (.fin true 5 (-3)) ∧ F64.gtEpsilon (.fin true 5 (-3)) = true ∧ ExpFits (0 + -3) :=
  ⟨Or.inr ⟨by decide, by decide, by decide, by decide +kernel⟩, by decide +kernel, by unfold ExpFits; omega⟩

/-- **C73** `f64` of a REAL made from an infinite mantissa, or from NaN: an infinity of the same sign, or
NaN where the power of two is zero as an `f64`. -/
theorem C73_infinite_mantissa (s : Bool) (e : Int) :
    (-1024 < e → (Real.ofBinary (.inf s) 2 e).f64 lib = .inf s) ∧
    (e ≤ -1024 → (Real.ofBinary (.inf s) 2 e).f64 lib = .nan) ∧
    (Real.ofBinary .nan 2 e).f64 lib = .nan := by
  refine ⟨fun h => ?_, fun h => ?_, ?_⟩
  · show F64.mul (.inf s) (F64.pow2 e) = _
    unfold F64.pow2
    split
    · cases s <;> rfl
    · rw [if_neg (by omega)]
      cases s <;> rfl
  · show F64.mul (.inf s) (F64.pow2 e) = _
    unfold F64.pow2
    rw [if_neg (by omega), if_pos h]
    rfl
  · rfl

end Asn1

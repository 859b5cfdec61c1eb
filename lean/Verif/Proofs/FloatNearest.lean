import Verif.Proofs.Float32
/-!
# Rounding to `f64`

The same arguments as for the cast to `f32` in `Proofs/Float32`, with the bounds of `f64`.
-/
namespace Asn1
open Spec
namespace F64

/-- The quotient before rounding has at most 53 bits. -/
theorem round_quotient {n : Nat} {e : Int} (h : ¬ lastPlace n e ≤ e) :
    n / 2 ^ (lastPlace n e - e).toNat < 2 ^ 53 := by
  rw [Nat.div_lt_iff_lt_mul (Nat.two_pow_pos _), ← Nat.pow_add]
  have h2 : n < 2 ^ (n.log2 + 1) := Nat.lt_log2_self
  refine Nat.lt_of_lt_of_le h2 (Nat.pow_le_pow_right (by omega) ?_)
  unfold lastPlace at h ⊢
  omega

/-- Magnitudes: no number of the format is nearer than the rounded one; if another is as near, it has the
smaller exponent. -/
theorem round_nearest {s t : Bool} {n m n' : Nat} {e f e' c : Int}
    (h : round s n e = .fin t m f)
    (hy : (n' = 0 ∧ e' = 0) ∨ (n' % 2 = 1 ∧ n' < 2 ^ 53 ∧ -1074 ≤ e'))
    (h1 : c ≤ e) (h2 : c ≤ f) (h3 : c ≤ e') :
    t = s ∧ ((n * 2 ^ (e - c).toNat : Nat) - (m * 2 ^ (f - c).toNat : Nat) : Int).natAbs ≤
      ((n * 2 ^ (e - c).toNat : Nat) - (n' * 2 ^ (e' - c).toNat : Nat) : Int).natAbs ∧
    (((n * 2 ^ (e - c).toNat : Nat) - (m * 2 ^ (f - c).toNat : Nat) : Int).natAbs =
      ((n * 2 ^ (e - c).toNat : Nat) - (n' * 2 ^ (e' - c).toNat : Nat) : Int).natAbs →
      (n' = m ∧ e' = f) ∨ e' < f) := by
  have hv := round_valid s n e
  rw [h] at hv
  have hodd : ∀ a b : Nat, ∀ x y : Int, a % 2 = 1 → b % 2 = 1 → c ≤ x → c ≤ y →
      a * 2 ^ (x - c).toNat = b * 2 ^ (y - c).toNat → a = b ∧ x = y := by
    intro a b x y ha hb hx hy' hab
    rcases Int.lt_trichotomy x y with hl | hl | hl
    · exfalso
      rw [pow_split hx (Int.le_of_lt hl), ← Nat.mul_assoc] at hab
      have := Nat.eq_of_mul_eq_mul_right (Nat.two_pow_pos _) hab
      obtain ⟨k, hk⟩ : ∃ k, (y - x).toNat = k + 1 := ⟨(y - x).toNat - 1, by omega⟩
      rw [hk, Nat.pow_succ, ← Nat.mul_assoc] at this
      omega
    · subst hl
      exact ⟨Nat.eq_of_mul_eq_mul_right (Nat.two_pow_pos _) hab, rfl⟩
    · exfalso
      rw [pow_split hy' (Int.le_of_lt hl), ← Nat.mul_assoc] at hab
      have := Nat.eq_of_mul_eq_mul_right (Nat.two_pow_pos _) hab
      obtain ⟨k, hk⟩ : ∃ k, (x - y).toNat = k + 1 := ⟨(x - y).toNat - 1, by omega⟩
      rw [hk, Nat.pow_succ, ← Nat.mul_assoc] at this
      omega
  -- equal numbers have equal representations
  have hsame : m * 2 ^ (f - c).toNat = n' * 2 ^ (e' - c).toNat → n' = m ∧ e' = f := by
    intro hab
    have hp : ∀ x : Int, 0 < 2 ^ (x - c).toNat := fun x => Nat.two_pow_pos _
    rcases hy with ⟨rfl, rfl⟩ | hy
    · rw [Nat.zero_mul] at hab
      rcases Nat.mul_eq_zero.mp hab with hm | hm
      · rcases hv with ⟨hm1, hm2⟩ | hv
        · exact ⟨hm1.symm, hm2.symm⟩
        · omega
      · have := hp f; omega
    · rcases hv with ⟨rfl, rfl⟩ | hv
      · rw [Nat.zero_mul] at hab
        rcases Nat.mul_eq_zero.mp hab.symm with hm | hm
        · omega
        · have := hp e'; omega
      · have := hodd _ _ _ _ hv.1 hy.1 h2 h3 hab
        exact ⟨this.1.symm, this.2.symm⟩
  rw [round] at h
  by_cases hn0 : n = 0
  · subst hn0
    have : round s 0 e = .fin s 0 0 := by
      rw [round]; split
      · rfl
      · rw [show roundShift 0 _ = 0 from by simp [roundShift]]; rfl
    rw [round] at this
    rw [this] at h
    injection h with hs hm hf
    subst hs hm hf
    refine ⟨rfl, by simp, fun hd => .inl (hsame ?_)⟩
    simp only [Nat.zero_mul] at hd ⊢
    omega
  by_cases hl : lastPlace n e ≤ e
  · rw [if_pos hl] at h
    by_cases ho : e + n.log2 ≥ 1024
    · rw [make, if_neg hn0, if_pos ho] at h; cases h
    obtain ⟨k, a, h4, h5, h6⟩ := make_spec s e hn0 (by omega)
    rw [h4] at h
    injection h with hs hm hf
    subst hs hm hf
    have hX : n * 2 ^ (e - c).toNat = a * 2 ^ (e + (k : Nat) - c).toNat := by
      rw [h5, Nat.mul_assoc, ← Nat.pow_add]; congr 2; omega
    rw [hX]
    refine ⟨rfl, by omega, fun hd => .inl (hsame (by omega))⟩
  · rw [if_neg hl] at h
    generalize hlp : lastPlace n e = lp at *
    generalize hR : roundShift n (lp - e).toNat = R at *
    have hcl : c ≤ lp := by omega
    -- everything in units of 2^c; multiples of the last place
    have hX : n * 2 ^ (e - c).toNat = n * 2 ^ (e - c).toNat := rfl
    have hlpP : 2 ^ (lp - c).toNat = 2 ^ (lp - e).toNat * 2 ^ (e - c).toNat :=
      pow_split h1 (by omega)
    have htie : ∀ q : Nat,
        ((n * 2 ^ (e - c).toNat : Nat) - (R * 2 ^ (lp - c).toNat : Nat) : Int).natAbs ≤
          ((n * 2 ^ (e - c).toNat : Nat) - (q * 2 ^ (lp - c).toNat : Nat) : Int).natAbs ∧
        (((n * 2 ^ (e - c).toNat : Nat) - (R * 2 ^ (lp - c).toNat : Nat) : Int).natAbs =
          ((n * 2 ^ (e - c).toNat : Nat) - (q * 2 ^ (lp - c).toNat : Nat) : Int).natAbs →
          q = R ∨ (R % 2 = 0 ∧ q % 2 = 1)) := by
      intro q
      rw [hlpP, ← Nat.mul_assoc, ← Nat.mul_assoc, dist_mul, dist_mul]
      have hq := roundShift_tie n (lp - e).toNat q
      rw [hR] at hq
      rw [Int.natCast_mul, Int.natCast_mul]
      exact ⟨Nat.mul_le_mul_right _ hq.1, fun hd =>
        hq.2 (Nat.eq_of_mul_eq_mul_right (Nat.two_pow_pos _) hd)⟩
    -- the rounded number
    have hY : t = s ∧ m * 2 ^ (f - c).toNat = R * 2 ^ (lp - c).toNat ∧
        (R % 2 = 0 → R ≠ 0 → lp < f) ∧ (R = 0 → m = 0 ∧ f = 0) := by
      by_cases hR0 : R = 0
      · rw [make, if_pos hR0] at h
        injection h with hs hm hf
        subst hs hm hf
        exact ⟨rfl, by rw [hR0]; simp, fun _ h => absurd hR0 h, fun _ => ⟨rfl, rfl⟩⟩
      · by_cases ho : lp + R.log2 ≥ 1024
        · rw [make, if_neg hR0, if_pos ho] at h; cases h
        · obtain ⟨k, a, h4, h5, h6⟩ := make_spec s lp hR0 (by omega)
          rw [h4] at h
          injection h with hs hm hf
          subst hs hm hf
          refine ⟨rfl, ?_, fun hev _ => ?_, fun h0 => absurd h0 hR0⟩
          · rw [h5, Nat.mul_assoc, ← Nat.pow_add]; congr 2; omega
          · cases k with
            | zero => simp at h5; omega
            | succ k => omega
    obtain ⟨hs, hY, heven, hzero⟩ := hY
    refine ⟨hs, ?_⟩
    rw [hY]
    have hR23 : R = 0 → lp = -1074 := by
      intro h0
      by_cases hx : lp = -1074
      · exact hx
      exfalso
      have hlpe : lp = e + n.log2 - 52 := by unfold lastPlace at hlp; omega
      have hb := (roundShift_bounds n (lp - e).toNat).1
      rw [hR, h0] at hb
      have hd : n / 2 ^ (lp - e).toNat = 0 := Nat.le_zero.mp hb
      rw [Nat.div_eq_zero_iff] at hd
      have hself : 2 ^ n.log2 ≤ n := Nat.log2_self_le hn0
      have : 2 ^ (lp - e).toNat ≤ 2 ^ n.log2 := Nat.pow_le_pow_right (by decide) (by omega)
      have hpos : 0 < 2 ^ (lp - e).toNat := Nat.two_pow_pos _
      omega
    by_cases hlow : n' ≠ 0 ∧ e' < lp
    · -- a number of a lower binade
      obtain ⟨hn', hlow⟩ := hlow
      rcases hy with hy | ⟨hy1, hy2, hy3⟩
      · exact absurd hy.1 hn'
      have hlpe : lp = e + n.log2 - 52 := by unfold lastPlace at hlp; omega
      have hself : 2 ^ n.log2 ≤ n := Nat.log2_self_le hn0
      have hX1 : 2 ^ 52 * 2 ^ (lp - c).toNat ≤ n * 2 ^ (e - c).toNat := by
        have : 2 ^ 52 * 2 ^ (lp - c).toNat = 2 ^ n.log2 * 2 ^ (e - c).toNat := by
          rw [← Nat.pow_add, ← Nat.pow_add]; congr 1; omega
        rw [this]
        exact Nat.mul_le_mul_right _ hself
      have hZ1 : n' * 2 ^ (e' - c).toNat < 2 ^ 52 * 2 ^ (lp - c).toNat := by
        have h7 : n' * 2 ^ (e' - c).toNat < 2 ^ 53 * 2 ^ (e' - c).toNat :=
          Nat.mul_lt_mul_of_pos_right hy2 (Nat.two_pow_pos _)
        have h8 : 2 ^ 53 * 2 ^ (e' - c).toNat ≤ 2 ^ 52 * 2 ^ (lp - c).toNat := by
          rw [← Nat.pow_add, ← Nat.pow_add]
          exact Nat.pow_le_pow_right (by decide) (by omega)
        omega
      have h9 := (htie (2 ^ 52)).1
      generalize n * 2 ^ (e - c).toNat = X at *
      generalize n' * 2 ^ (e' - c).toNat = Z at *
      generalize 2 ^ 52 * 2 ^ (lp - c).toNat = W at *
      generalize R * 2 ^ (lp - c).toNat = V at *
      omega
    · -- a multiple of the last place
      obtain ⟨q, hq, hq1, hq0⟩ : ∃ q, n' * 2 ^ (e' - c).toNat = q * 2 ^ (lp - c).toNat ∧
          (q % 2 = 1 → e' = lp) ∧ (q % 2 = 1 → n' ≠ 0) := by
        by_cases hn' : n' = 0
        · exact ⟨0, by rw [hn']; simp, by omega, by omega⟩
        · refine ⟨n' * 2 ^ (e' - lp).toNat, ?_, ?_, fun _ => hn'⟩
          · rw [pow_split hcl (by omega : lp ≤ e'), Nat.mul_assoc]
          · intro ho
            cases hk : (e' - lp).toNat with
            | zero => omega
            | succ k =>
              rw [hk, Nat.pow_succ, ← Nat.mul_assoc] at ho
              omega
      rw [hq]
      obtain ⟨h10, h11⟩ := htie q
      refine ⟨h10, fun hd => ?_⟩
      rcases h11 hd with h12 | ⟨h12, h13⟩
      · exact .inl (hsame (by rw [hY, hq, h12]))
      · right
        rw [hq1 h13]
        by_cases hR0 : R = 0
        · have := hzero hR0
          have := hR23 hR0
          omega
        · exact heven h12 hR0

/-- Numbers from halfway between the largest number of the format and `2^1024` on become infinite. -/
theorem round_inf {s t : Bool} {n : Nat} {e c : Int} (h1 : c ≤ e) (h2 : c ≤ 970) :
    round s n e = .inf t ↔
      t = s ∧ (2 ^ 54 - 1) * 2 ^ (970 - c).toNat ≤ n * 2 ^ (e - c).toNat := by
  have hp : ∀ x : Int, 0 < 2 ^ (x - c).toNat := fun x => Nat.two_pow_pos _
  by_cases hn0 : n = 0
  · subst hn0
    have : round s 0 e = .fin s 0 0 := by
      rw [round]; split
      · rfl
      · rw [show roundShift 0 _ = 0 from by simp [roundShift]]; rfl
    rw [this]
    refine ⟨fun h => (by cases h), fun ⟨_, h⟩ => ?_⟩
    have := Nat.mul_pos (show 0 < 2 ^ 54 - 1 by decide) (hp 970)
    omega
  -- position of the leading bit
  have hself : 2 ^ n.log2 ≤ n := Nat.log2_self_le hn0
  have hlt : n < 2 ^ (n.log2 + 1) := Nat.lt_log2_self
  have hlo : 2 ^ (e + n.log2 - c).toNat ≤ n * 2 ^ (e - c).toNat := by
    have : 2 ^ (e + n.log2 - c).toNat = 2 ^ n.log2 * 2 ^ (e - c).toNat := by
      rw [← Nat.pow_add]; congr 1; omega
    rw [this]; exact Nat.mul_le_mul_right _ hself
  have hhi : n * 2 ^ (e - c).toNat < 2 ^ (e + n.log2 + 1 - c).toNat := by
    have : 2 ^ (e + n.log2 + 1 - c).toNat = 2 ^ (n.log2 + 1) * 2 ^ (e - c).toNat := by
      rw [← Nat.pow_add]; congr 1; omega
    rw [this]; exact Nat.mul_lt_mul_of_pos_right hlt (hp e)
  have e1024 : 2 ^ (1024 - c).toNat = 2 ^ 54 * 2 ^ (970 - c).toNat := by
    rw [← Nat.pow_add]; congr 1; omega
  have e1023 : 2 ^ (1023 - c).toNat = 2 ^ 53 * 2 ^ (970 - c).toNat := by
    rw [← Nat.pow_add]; congr 1; omega
  have hbig : 1024 ≤ e + n.log2 → (2 ^ 54 - 1) * 2 ^ (970 - c).toNat ≤ n * 2 ^ (e - c).toNat := by
    intro h
    have h3 : 2 ^ (1024 - c).toNat ≤ 2 ^ (e + n.log2 - c).toNat :=
      Nat.pow_le_pow_right (by decide) (by omega)
    have h4 : (2 ^ 54 - 1) * 2 ^ (970 - c).toNat ≤ 2 ^ 54 * 2 ^ (970 - c).toNat :=
      Nat.mul_le_mul_right _ (by decide)
    omega
  have hsmall : e + n.log2 < 1023 → n * 2 ^ (e - c).toNat < (2 ^ 54 - 1) * 2 ^ (970 - c).toNat := by
    intro h
    have h3 : 2 ^ (e + n.log2 + 1 - c).toNat ≤ 2 ^ (1023 - c).toNat :=
      Nat.pow_le_pow_right (by decide) (by omega)
    have h4 : 2 ^ 53 * 2 ^ (970 - c).toNat ≤ (2 ^ 54 - 1) * 2 ^ (970 - c).toNat :=
      Nat.mul_le_mul_right _ (by decide)
    omega
  have hmake : ∀ (q : Nat) (x : Int), q ≠ 0 → (make s q x = .inf t ↔ t = s ∧ 1024 ≤ x + q.log2) := by
    intro q x hq
    rw [make, if_neg hq]
    split
    · rename_i h
      exact ⟨fun he => by injection he with he; exact ⟨he.symm, h⟩, fun ⟨he, _⟩ => by rw [he]⟩
    · rename_i h
      exact ⟨fun he => (by cases he), fun ⟨_, he⟩ => absurd he h⟩
  rw [round]
  by_cases hl : lastPlace n e ≤ e
  · rw [if_pos hl, hmake n e hn0]
    refine and_congr_right fun _ => ⟨hbig, fun h => ?_⟩
    refine Int.not_lt.mp fun hno => ?_
    by_cases h1023 : e + n.log2 < 1023
    · have := hsmall h1023; omega
    · -- a multiple of 2^971 below 2^1024
      have h971 : 971 ≤ e := by unfold lastPlace at hl; omega
      have e971 : 2 ^ (971 - c).toNat = 2 * 2 ^ (970 - c).toNat := by
        rw [show (971 - c).toNat = (970 - c).toNat + 1 by omega, Nat.pow_succ, Nat.mul_comm]
      have hpow := pow_split (c := c) (l := 971) (x := e) (by omega) h971
      have heq : e + n.log2 + 1 = 1024 := by omega
      rw [heq, e1024] at hhi
      rw [hpow, ← Nat.mul_assoc, e971] at hhi h
      generalize n * 2 ^ (e - 971).toNat = a at hhi h
      have hpc := hp 970
      generalize 2 ^ (970 - c).toNat = P at *
      have h5 : a * (2 * P) = a * 2 * P := by rw [Nat.mul_assoc]
      rw [h5] at h hhi
      have h6 : 2 ^ 54 - 1 ≤ a * 2 := Nat.le_of_mul_le_mul_right h hpc
      have h7 : a * 2 < 2 ^ 54 := Nat.lt_of_mul_lt_mul_right hhi
      have e25 : 2 ^ 54 = 18014398509481984 := by decide
      omega
  · rw [if_neg hl]
    have hq := round_quotient hl
    generalize hlp : lastPlace n e = lp at *
    have hb := roundShift_bounds n (lp - e).toNat
    generalize hR : roundShift n (lp - e).toNat = R at *
    have hR24 : R ≤ 2 ^ 53 := by omega
    by_cases hsm : e + n.log2 < 1023
    · -- too small
      refine ⟨fun h => ?_, fun ⟨_, h⟩ => by have := hsmall hsm; omega⟩
      exfalso
      by_cases hR0 : R = 0
      · rw [make, if_pos hR0] at h; cases h
      · have h3 := ((hmake R lp hR0).mp h).2
        have h4 : R.log2 < 54 := (Nat.log2_lt hR0).mpr (Nat.lt_of_le_of_lt hR24 (by decide))
        unfold lastPlace at hlp
        omega
    · have hlpe : lp = e + n.log2 - 52 := by unfold lastPlace at hlp; omega
      have hR23 : 2 ^ 52 ≤ R := by
        refine Nat.le_trans ?_ hb.1
        rw [Nat.le_div_iff_mul_le (Nat.two_pow_pos _), ← Nat.pow_add]
        refine Nat.le_trans (Nat.pow_le_pow_right (by decide) ?_) hself
        omega
      have hR0 : R ≠ 0 := by have : 0 < 2 ^ 52 := by decide
                             omega
      rw [hmake R lp hR0]
      refine and_congr_right fun _ => ?_
      by_cases h1024 : 1024 ≤ e + n.log2
      · have : 52 ≤ R.log2 := (log2_ge_iff hR0).mpr hR23
        exact ⟨fun _ => hbig h1024, fun _ => by omega⟩
      · -- the last binade
        have hlp971 : lp = 971 := by omega
        have h24 : 1024 ≤ lp + R.log2 ↔ 2 ^ 53 ≤ R := by
          rw [← log2_ge_iff hR0]; omega
        have h25 := even_le_roundShift n (lp - e).toNat (2 ^ 53) (by decide) (by decide)
        rw [hR] at h25
        rw [h24, h25]
        have e1 : 2 * 2 ^ 53 - 1 = 2 ^ 54 - 1 := by decide
        rw [e1]
        -- both sides in units of 2^c, doubled
        have e2 : 2 ^ (lp - e).toNat * 2 ^ (e - c).toNat = 2 * 2 ^ (970 - c).toNat := by
          rw [← Nat.pow_add, Nat.mul_comm, ← Nat.pow_succ]; congr 1; omega
        have hpe := hp e
        generalize 2 ^ (lp - e).toNat = P at *
        generalize 2 ^ (e - c).toNat = U at *
        generalize 2 ^ (970 - c).toNat = V at *
        constructor
        · intro h
          have h3 := Nat.mul_le_mul_right U h
          rw [Nat.mul_assoc, e2, Nat.mul_assoc] at h3
          rw [Nat.mul_left_comm] at h3
          omega
        · intro h
          have h3 := Nat.mul_le_mul_left 2 h
          rw [Nat.mul_left_comm, ← e2, ← Nat.mul_assoc, ← Nat.mul_assoc] at h3
          exact Nat.le_of_mul_le_mul_right h3 hpe

/-! ### Rounding of multiples of powers of two -/

theorem make_shift (s : Bool) {m : Nat} (j : Nat) (e : Int) (h0 : m ≠ 0) :
    make s (m * 2 ^ j) e = make s m (e + j) := by
  have hne : m * 2 ^ j ≠ 0 := Nat.mul_ne_zero h0 (Nat.pos_iff_ne_zero.mp (Nat.two_pow_pos j))
  have hl := log2_mul_pow m j h0
  by_cases h : e + j + m.log2 ≥ 1024
  · rw [make, make, if_neg hne, if_neg h0, if_pos h, if_pos (by omega)]
  · obtain ⟨k, a, h1, h2, h3⟩ := make_spec s e hne (by omega)
    obtain ⟨k', a', h1', h2', h3'⟩ := make_spec s (e + j) h0 (by omega)
    have := odd_unique (c := e) (x := e + (k : Nat)) (y := e + j + (k' : Nat)) h3 h3' (by omega) (by omega) (by
      rw [show (e + (k : Nat) - e).toNat = k by omega,
        show (e + j + (k' : Nat) - e).toNat = k' + j by omega, Nat.pow_add, ← Nat.mul_assoc, ← h2', ← h2])
    rw [h1, h1', this.1, this.2]

theorem roundShift_shift (n j k : Nat) : roundShift (n * 2 ^ j) (k + j) = roundShift n k := by
  have hj : 0 < 2 ^ j := Nat.two_pow_pos j
  unfold roundShift
  rw [Nat.pow_add, Nat.mul_mod_mul_right, Nat.mul_div_mul_right _ _ hj, ← Nat.mul_assoc]
  have h1 : 2 * (n % 2 ^ k) * 2 ^ j > 2 ^ k * 2 ^ j ↔ 2 * (n % 2 ^ k) > 2 ^ k :=
    ⟨fun h => Nat.lt_of_mul_lt_mul_right h, fun h => Nat.mul_lt_mul_of_pos_right h hj⟩
  have h2 : 2 * (n % 2 ^ k) * 2 ^ j = 2 ^ k * 2 ^ j ↔ 2 * (n % 2 ^ k) = 2 ^ k :=
    ⟨fun h => Nat.eq_of_mul_eq_mul_right hj h, fun h => by rw [h]⟩
  simp only [h1, h2]

theorem roundShift_exact (n k : Nat) : roundShift (n * 2 ^ k) k = n := by
  have := roundShift_shift n k 0
  rw [Nat.zero_add] at this
  rw [this]
  simp [roundShift]; omega

/-- The same number in another form is rounded to the same result. -/
theorem round_shift (s : Bool) {m : Nat} (j : Nat) (e : Int) (h0 : m ≠ 0) :
    round s (m * 2 ^ j) e = round s m (e + j) := by
  have hl := log2_mul_pow m j h0
  have hlp : lastPlace (m * 2 ^ j) e = lastPlace m (e + j) := by unfold lastPlace; rw [hl]; omega
  rw [round, round, hlp]
  generalize lastPlace m (e + j) = lp
  by_cases h1 : lp ≤ e
  · rw [if_pos h1, if_pos (by omega), make_shift s j e h0]
  · rw [if_neg h1]
    by_cases h2 : lp ≤ e + j
    · rw [if_pos h2]
      obtain ⟨i, hi⟩ : ∃ i : Nat, j = i + (lp - e).toNat := ⟨j - (lp - e).toNat, by omega⟩
      rw [hi, Nat.pow_add, ← Nat.mul_assoc, roundShift_exact, make_shift s i lp h0]
      congr 1
      omega
    · rw [if_neg h2]
      have : (lp - e).toNat = (lp - (e + j)).toNat + j := by omega
      rw [this, roundShift_shift]

theorem round_zero (s : Bool) (e : Int) : round s 0 e = .fin s 0 0 := by
  rw [round]; split
  · rfl
  · rw [show roundShift 0 _ = 0 from by simp [roundShift]]; rfl

/-- A rounded number, multiplied by a power of two and rounded again: the same as rounding once, if the first
rounding is exact or no result is subnormal. -/
theorem round_scale {s t : Bool} {n m : Nat} {e x k : Int} (h : round s n e = .fin t m x) (h0 : n ≠ 0)
    (hn : lastPlace n e ≤ e ∨ (-1022 ≤ e + n.log2 ∧ -1022 ≤ e + k + n.log2)) :
    round s m (x + k) = round s n (e + k) := by
  by_cases hl : lastPlace n e ≤ e
  · rw [round, if_pos hl] at h
    by_cases ho : e + n.log2 ≥ 1024
    · rw [make, if_neg h0, if_pos ho] at h; cases h
    obtain ⟨j, a, h1, h2, h3⟩ := make_spec s e h0 (by omega)
    rw [h1] at h
    injection h with h4 h5 h6
    subst h4 h5 h6
    rw [h2, round_shift s j (e + k) (by omega)]
    congr 1; omega
  · have hn := hn.resolve_left hl
    rw [round, if_neg hl] at h
    have hlp : lastPlace n e = e + n.log2 - 52 := by unfold lastPlace; omega
    have hlp' : lastPlace n (e + k) = lastPlace n e + k := by unfold lastPlace; omega
    have hr : round s n (e + k) = make s (roundShift n (lastPlace n e - e).toNat) (lastPlace n e + k) := by
      rw [round, hlp', if_neg (by omega)]
      congr 2; omega
    rw [hr]
    have hb := (roundShift_bounds n (lastPlace n e - e).toNat).1
    have hR0 : roundShift n (lastPlace n e - e).toNat ≠ 0 := by
      intro hz
      rw [hz, Nat.le_zero, Nat.div_eq_zero_iff] at hb
      have hself : 2 ^ n.log2 ≤ n := Nat.log2_self_le h0
      have : 2 ^ (lastPlace n e - e).toNat ≤ 2 ^ n.log2 := Nat.pow_le_pow_right (by decide) (by omega)
      have hpos : 0 < 2 ^ (lastPlace n e - e).toNat := Nat.two_pow_pos _
      omega
    have hv := round_valid s n e
    rw [round, if_neg hl, h] at hv
    generalize roundShift n (lastPlace n e - e).toNat = R at *
    by_cases ho : lastPlace n e + R.log2 ≥ 1024
    · rw [make, if_neg hR0, if_pos ho] at h; cases h
    obtain ⟨j, a, h1, h2, h3⟩ := make_spec s (lastPlace n e) hR0 (by omega)
    rw [h1] at h
    injection h with h4 h5 h6
    subst h4 h5 h6
    have ha : a < 2 ^ 53 := by
      rcases hv with hv | hv
      · omega
      · exact hv.2.1
    rw [round_small s (by omega) ha (by omega), h2, make_shift s j _ (by omega)]
    congr 1; omega

theorem round_ne_nan (s : Bool) (n : Nat) (e : Int) : round s n e ≠ .nan := by
  have : ∀ s n e, make s n e ≠ .nan := by
    intro s n e h
    unfold make at h
    split at h
    · cases h
    · split at h <;> cases h
  rw [round]
  split
  · exact this _ _ _
  · exact this _ _ _

/-- Rounding gives the nearest number of the format. -/
theorem round_is_nearest (s : Bool) (n : Nat) (e : Int) : Nearest64 s n e (round s n e) := by
  refine ⟨fun c h1 h2 => ?_, ?_⟩
  · rw [round_inf h1 h2]; exact ⟨fun h => h.2, fun h => ⟨rfl, h⟩⟩
  · cases h : round s n e with
    | nan => exact absurd h (round_ne_nan s n e)
    | inf t =>
      have := (round_inf (c := min e 970) (by omega) (by omega)).mp h
      exact .inl (by rw [this.1])
    | fin t m f =>
      refine .inr ?_
      have hv := round_valid s n e
      rw [h] at hv
      have ht : t = s := (round_nearest (n' := 0) (e' := 0) (c := min (min e f) 0) h (.inl ⟨rfl, rfl⟩)
        (by omega) (by omega) (by omega)).1
      subst ht
      refine ⟨m, f, rfl, hv, fun n' e' c hy h1 h2 h3 => ?_⟩
      refine (round_nearest h ?_ h1 h2 h3).2
      rcases hy with hy | ⟨h4, h5, h6, _⟩
      · exact .inl hy
      · exact .inr ⟨h4, h5, h6⟩

end F64
end Asn1

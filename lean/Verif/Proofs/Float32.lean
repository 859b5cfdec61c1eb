import Verif.Spec.Float32
import Verif.Proofs.Float
/-!
# Rounding to `f32`
-/
namespace Asn1
open Spec
namespace F64

theorem make32_spec (s : Bool) {n : Nat} (e : Int) (h0 : n ≠ 0) (h : e + n.log2 < 128) :
    ∃ k m, make32 s n e = .fin s m (e + (k : Nat)) ∧ n = m * 2 ^ k ∧ m % 2 = 1 := by
  obtain ⟨k, m, h1, h2, h3⟩ := strip_spec n.log2 n e h0 Nat.lt_log2_self
  refine ⟨k, m, ?_, h2, h3⟩
  rw [make32, if_neg h0, if_neg (by omega), h1]

theorem make32_valid (s : Bool) {n : Nat} {e : Int} (h : n ≤ 2 ^ 24) (he : -149 ≤ e) :
    F32Valid (make32 s n e) := by
  by_cases h0 : n = 0
  · rw [make32, if_pos h0]; exact Or.inl ⟨rfl, rfl⟩
  · by_cases ho : e + n.log2 ≥ 128
    · rw [make32, if_neg h0, if_pos ho]; trivial
    · obtain ⟨k, m, h1, h2, h3⟩ := make32_spec s e h0 (by omega)
      rw [h1]
      have hlog := log2_mul_pow m k (by omega)
      rw [← h2] at hlog
      refine Or.inr ⟨h3, ?_, by omega, by omega⟩
      cases k with
      | zero =>
        simp at h2
        subst h2
        have : n ≠ 2 ^ 24 := by
          intro hc; rw [hc] at h3; exact absurd h3 (by decide)
        omega
      | succ k =>
        rw [Nat.pow_succ] at h2
        have : m * 2 ≤ n := by
          rw [h2, Nat.mul_comm (2 ^ k) 2, ← Nat.mul_assoc]
          exact Nat.le_mul_of_pos_right _ (Nat.two_pow_pos k)
        have : 2 ^ 24 < 2 * 2 ^ 24 := by decide
        omega

/-- The quotient before rounding has at most 24 bits. -/
theorem quotient_lt {n : Nat} {e : Int} (h : ¬ lastPlace32 n e ≤ e) :
    n / 2 ^ (lastPlace32 n e - e).toNat < 2 ^ 24 := by
  rw [Nat.div_lt_iff_lt_mul (Nat.two_pow_pos _), ← Nat.pow_add]
  have h2 : n < 2 ^ (n.log2 + 1) := Nat.lt_log2_self
  refine Nat.lt_of_lt_of_le h2 (Nat.pow_le_pow_right (by omega) ?_)
  unfold lastPlace32 at h ⊢
  omega

theorem toF32_valid (x : F64) : F32Valid x.toF32 := by
  cases x with
  | nan => trivial
  | inf => trivial
  | fin s n e =>
    rw [toF32]
    split
    · rename_i h
      unfold lastPlace32 at h
      refine make32_valid s ?_ (by omega)
      by_cases h0 : n = 0
      · subst h0; exact Nat.zero_le _
      · exact Nat.le_of_lt ((Nat.log2_lt h0).mp (by omega))
    · rename_i h
      refine make32_valid s ?_ (by unfold lastPlace32; omega)
      have hb := (roundShift_bounds n (lastPlace32 n e - e).toNat).2
      have := quotient_lt h
      omega

theorem f32_lastPlace {n : Nat} {e : Int} (h : n % 2 = 1) (h1 : n < 2 ^ 24) (h2 : -149 ≤ e) :
    lastPlace32 n e ≤ e := by
  have : n.log2 < 24 := (Nat.log2_lt (by omega)).mpr h1
  unfold lastPlace32; omega

theorem toF32_exact {f : F64} (h : F32Valid f) : f.toF32 = f := by
  cases f with
  | nan => rfl
  | inf => rfl
  | fin s n e =>
    rcases h with ⟨rfl, rfl⟩ | ⟨h1, h2, h3, h4⟩
    · cases s <;> rfl
    · rw [toF32, if_pos (f32_lastPlace h1 h2 h3), make32, if_neg (by omega), if_neg (by omega),
        strip_odd _ _ _ h1]

theorem f32_f64 {f : F64} (h : F32Valid f) : F64Valid f := by
  cases f with
  | nan => trivial
  | inf => trivial
  | fin s n e =>
    rcases h with h | ⟨h1, h2, h3, h4⟩
    · exact Or.inl h
    · refine Or.inr ⟨h1, Nat.lt_trans h2 (by decide), by omega, by omega⟩

/-! ### Nearest -/

/-- A rounded quotient is never further away than any other multiple, and when it is as near as another,
it is even and the other is odd. -/
theorem roundShift_tie (n k q : Nat) :
    ((n : Int) - roundShift n k * (2 ^ k : Nat)).natAbs ≤ ((n : Int) - q * (2 ^ k : Nat)).natAbs ∧
    (((n : Int) - roundShift n k * (2 ^ k : Nat)).natAbs = ((n : Int) - q * (2 ^ k : Nat)).natAbs →
      q = roundShift n k ∨ (roundShift n k % 2 = 0 ∧ q % 2 = 1)) := by
  obtain ⟨h1, h2⟩ := roundShift_nearest n k q
  refine ⟨h1, fun h => ?_⟩
  rcases h2 h with h3 | h3
  · exact .inl h3
  · by_cases hq : q = roundShift n k
    · exact .inl hq
    refine .inr ⟨h3, ?_⟩
    have hp : 0 < 2 ^ k := Nat.two_pow_pos k
    obtain ⟨hb1, hb2⟩ := roundShift_bounds n k
    have hd := Nat.div_add_mod n (2 ^ k)
    have hm := Nat.mod_lt n hp
    have hN := (roundShift_nearest n k (n / 2 ^ k)).1
    generalize hR : roundShift n k = R at *
    generalize 2 ^ k = P at *
    generalize n / P = Q at *
    generalize n % P = r at *
    rw [Nat.mul_comm P Q] at hd
    have hc : ∀ a : Nat, (a : Int) * (P : Int) = ((a * P : Nat) : Int) := fun a => by rw [Int.natCast_mul]
    rw [hc, hc] at h hN
    -- the other multiple lies on the other side, at most one step away
    have hstep : ∀ a b : Nat, a + 2 ≤ b → a * P + P + P ≤ b * P := fun a b hab => by
      have := Nat.mul_le_mul_right P hab
      rw [Nat.add_mul] at this; omega
    have hS : (Q + 1) * P = Q * P + P := Nat.succ_mul Q P
    have hRQ : R = Q ∨ R = Q + 1 := by omega
    rcases Nat.lt_or_ge q R with hlt | hge
    · by_cases h2 : q + 2 ≤ R
      · have := hstep q R h2
        rcases hRQ with rfl | rfl <;> omega
      · omega
    · by_cases h2 : R + 2 ≤ q
      · have := hstep R q h2
        rcases hRQ with rfl | rfl <;> omega
      · omega

/-- Exponents above `c`, as multiples. -/
theorem pow_split {c l x : Int} (h1 : c ≤ l) (h2 : l ≤ x) :
    2 ^ (x - c).toNat = 2 ^ (x - l).toNat * 2 ^ (l - c).toNat := by
  rw [← Nat.pow_add]; congr 1; omega

/-- The distances of two multiples of `W` from a third. -/
theorem dist_mul (a b W : Nat) :
    ((a * W : Nat) - (b * W : Nat) : Int).natAbs = ((a : Int) - b).natAbs * W := by
  rw [Int.natCast_mul, Int.natCast_mul, ← Int.sub_mul, Int.natAbs_mul]; simp

/-- Magnitudes: no number of the format is nearer than the rounded one; if another is as near, it has the
smaller exponent. -/
theorem nearest_magnitude {s t : Bool} {n m n' : Nat} {e f e' c : Int}
    (h : toF32 (.fin s n e) = .fin t m f)
    (hy : (n' = 0 ∧ e' = 0) ∨ (n' % 2 = 1 ∧ n' < 2 ^ 24 ∧ -149 ≤ e'))
    (h1 : c ≤ e) (h2 : c ≤ f) (h3 : c ≤ e') :
    t = s ∧ ((n * 2 ^ (e - c).toNat : Nat) - (m * 2 ^ (f - c).toNat : Nat) : Int).natAbs ≤
      ((n * 2 ^ (e - c).toNat : Nat) - (n' * 2 ^ (e' - c).toNat : Nat) : Int).natAbs ∧
    (((n * 2 ^ (e - c).toNat : Nat) - (m * 2 ^ (f - c).toNat : Nat) : Int).natAbs =
      ((n * 2 ^ (e - c).toNat : Nat) - (n' * 2 ^ (e' - c).toNat : Nat) : Int).natAbs →
      (n' = m ∧ e' = f) ∨ e' < f) := by
  have hv := toF32_valid (.fin s n e)
  rw [h] at hv
  have hodd : ∀ a b : Nat, ∀ x y : Int, a % 2 = 1 → b % 2 = 1 → c ≤ x → c ≤ y →
      a * 2 ^ (x - c).toNat = b * 2 ^ (y - c).toNat → a = b ∧ x = y := by
    intro a b x y ha hb hx hy' hab
    rcases Int.lt_trichotomy x y with hl | hl | hl
    · exfalso
      rw [pow_split hx (Int.le_of_lt hl), ← Nat.mul_assoc] at hab
      have := Nat.eq_of_mul_eq_mul_right (Nat.two_pow_pos _) hab
      obtain ⟨k, hk⟩ : ∃ k, (y - x).toNat = k + 1 := ⟨(y - x).toNat - 1, by omega⟩
      rw [hk, Nat.pow_succ, ← Nat.mul_assoc] at this
      omega
    · subst hl
      exact ⟨Nat.eq_of_mul_eq_mul_right (Nat.two_pow_pos _) hab, rfl⟩
    · exfalso
      rw [pow_split hy' (Int.le_of_lt hl), ← Nat.mul_assoc] at hab
      have := Nat.eq_of_mul_eq_mul_right (Nat.two_pow_pos _) hab
      obtain ⟨k, hk⟩ : ∃ k, (x - y).toNat = k + 1 := ⟨(x - y).toNat - 1, by omega⟩
      rw [hk, Nat.pow_succ, ← Nat.mul_assoc] at this
      omega
  -- equal numbers have equal representations
  have hsame : m * 2 ^ (f - c).toNat = n' * 2 ^ (e' - c).toNat → n' = m ∧ e' = f := by
    intro hab
    have hp : ∀ x : Int, 0 < 2 ^ (x - c).toNat := fun x => Nat.two_pow_pos _
    rcases hy with ⟨rfl, rfl⟩ | hy
    · rw [Nat.zero_mul] at hab
      rcases Nat.mul_eq_zero.mp hab with hm | hm
      · rcases hv with ⟨hm1, hm2⟩ | hv
        · exact ⟨hm1.symm, hm2.symm⟩
        · omega
      · have := hp f; omega
    · rcases hv with ⟨rfl, rfl⟩ | hv
      · rw [Nat.zero_mul] at hab
        rcases Nat.mul_eq_zero.mp hab.symm with hm | hm
        · omega
        · have := hp e'; omega
      · have := hodd _ _ _ _ hv.1 hy.1 h2 h3 hab
        exact ⟨this.1.symm, this.2.symm⟩
  rw [toF32] at h
  by_cases hn0 : n = 0
  · subst hn0
    have : toF32 (.fin s 0 e) = .fin s 0 0 := by
      rw [toF32]; split
      · rfl
      · rw [show roundShift 0 _ = 0 from by simp [roundShift]]; rfl
    rw [toF32] at this
    rw [this] at h
    injection h with hs hm hf
    subst hs hm hf
    refine ⟨rfl, by simp, fun hd => .inl (hsame ?_)⟩
    simp only [Nat.zero_mul] at hd ⊢
    omega
  by_cases hl : lastPlace32 n e ≤ e
  · rw [if_pos hl] at h
    by_cases ho : e + n.log2 ≥ 128
    · rw [make32, if_neg hn0, if_pos ho] at h; cases h
    obtain ⟨k, a, h4, h5, h6⟩ := make32_spec s e hn0 (by omega)
    rw [h4] at h
    injection h with hs hm hf
    subst hs hm hf
    have hX : n * 2 ^ (e - c).toNat = a * 2 ^ (e + (k : Nat) - c).toNat := by
      rw [h5, Nat.mul_assoc, ← Nat.pow_add]; congr 2; omega
    rw [hX]
    refine ⟨rfl, by omega, fun hd => .inl (hsame (by omega))⟩
  · rw [if_neg hl] at h
    generalize hlp : lastPlace32 n e = lp at *
    generalize hR : roundShift n (lp - e).toNat = R at *
    have hcl : c ≤ lp := by omega
    -- everything in units of 2^c; multiples of the last place
    have hX : n * 2 ^ (e - c).toNat = n * 2 ^ (e - c).toNat := rfl
    have hlpP : 2 ^ (lp - c).toNat = 2 ^ (lp - e).toNat * 2 ^ (e - c).toNat :=
      pow_split h1 (by omega)
    have htie : ∀ q : Nat,
        ((n * 2 ^ (e - c).toNat : Nat) - (R * 2 ^ (lp - c).toNat : Nat) : Int).natAbs ≤
          ((n * 2 ^ (e - c).toNat : Nat) - (q * 2 ^ (lp - c).toNat : Nat) : Int).natAbs ∧
        (((n * 2 ^ (e - c).toNat : Nat) - (R * 2 ^ (lp - c).toNat : Nat) : Int).natAbs =
          ((n * 2 ^ (e - c).toNat : Nat) - (q * 2 ^ (lp - c).toNat : Nat) : Int).natAbs →
          q = R ∨ (R % 2 = 0 ∧ q % 2 = 1)) := by
      intro q
      rw [hlpP, ← Nat.mul_assoc, ← Nat.mul_assoc, dist_mul, dist_mul]
      have hq := roundShift_tie n (lp - e).toNat q
      rw [hR] at hq
      rw [Int.natCast_mul, Int.natCast_mul]
      exact ⟨Nat.mul_le_mul_right _ hq.1, fun hd =>
        hq.2 (Nat.eq_of_mul_eq_mul_right (Nat.two_pow_pos _) hd)⟩
    -- the rounded number
    have hY : t = s ∧ m * 2 ^ (f - c).toNat = R * 2 ^ (lp - c).toNat ∧
        (R % 2 = 0 → R ≠ 0 → lp < f) ∧ (R = 0 → m = 0 ∧ f = 0) := by
      by_cases hR0 : R = 0
      · rw [make32, if_pos hR0] at h
        injection h with hs hm hf
        subst hs hm hf
        exact ⟨rfl, by rw [hR0]; simp, fun _ h => absurd hR0 h, fun _ => ⟨rfl, rfl⟩⟩
      · by_cases ho : lp + R.log2 ≥ 128
        · rw [make32, if_neg hR0, if_pos ho] at h; cases h
        · obtain ⟨k, a, h4, h5, h6⟩ := make32_spec s lp hR0 (by omega)
          rw [h4] at h
          injection h with hs hm hf
          subst hs hm hf
          refine ⟨rfl, ?_, fun hev _ => ?_, fun h0 => absurd h0 hR0⟩
          · rw [h5, Nat.mul_assoc, ← Nat.pow_add]; congr 2; omega
          · cases k with
            | zero => simp at h5; omega
            | succ k => omega
    obtain ⟨hs, hY, heven, hzero⟩ := hY
    refine ⟨hs, ?_⟩
    rw [hY]
    have hR23 : R = 0 → lp = -149 := by
      intro h0
      by_cases hx : lp = -149
      · exact hx
      exfalso
      have hlpe : lp = e + n.log2 - 23 := by unfold lastPlace32 at hlp; omega
      have hb := (roundShift_bounds n (lp - e).toNat).1
      rw [hR, h0] at hb
      have hd : n / 2 ^ (lp - e).toNat = 0 := Nat.le_zero.mp hb
      rw [Nat.div_eq_zero_iff] at hd
      have hself : 2 ^ n.log2 ≤ n := Nat.log2_self_le hn0
      have : 2 ^ (lp - e).toNat ≤ 2 ^ n.log2 := Nat.pow_le_pow_right (by decide) (by omega)
      have hpos : 0 < 2 ^ (lp - e).toNat := Nat.two_pow_pos _
      omega
    by_cases hlow : n' ≠ 0 ∧ e' < lp
    · -- a number of a lower binade
      obtain ⟨hn', hlow⟩ := hlow
      rcases hy with hy | ⟨hy1, hy2, hy3⟩
      · exact absurd hy.1 hn'
      have hlpe : lp = e + n.log2 - 23 := by unfold lastPlace32 at hlp; omega
      have hself : 2 ^ n.log2 ≤ n := Nat.log2_self_le hn0
      have hX1 : 2 ^ 23 * 2 ^ (lp - c).toNat ≤ n * 2 ^ (e - c).toNat := by
        have : 2 ^ 23 * 2 ^ (lp - c).toNat = 2 ^ n.log2 * 2 ^ (e - c).toNat := by
          rw [← Nat.pow_add, ← Nat.pow_add]; congr 1; omega
        rw [this]
        exact Nat.mul_le_mul_right _ hself
      have hZ1 : n' * 2 ^ (e' - c).toNat < 2 ^ 23 * 2 ^ (lp - c).toNat := by
        have h7 : n' * 2 ^ (e' - c).toNat < 2 ^ 24 * 2 ^ (e' - c).toNat :=
          Nat.mul_lt_mul_of_pos_right hy2 (Nat.two_pow_pos _)
        have h8 : 2 ^ 24 * 2 ^ (e' - c).toNat ≤ 2 ^ 23 * 2 ^ (lp - c).toNat := by
          rw [← Nat.pow_add, ← Nat.pow_add]
          exact Nat.pow_le_pow_right (by decide) (by omega)
        omega
      have h9 := (htie (2 ^ 23)).1
      generalize n * 2 ^ (e - c).toNat = X at *
      generalize n' * 2 ^ (e' - c).toNat = Z at *
      generalize 2 ^ 23 * 2 ^ (lp - c).toNat = W at *
      generalize R * 2 ^ (lp - c).toNat = V at *
      omega
    · -- a multiple of the last place
      obtain ⟨q, hq, hq1, hq0⟩ : ∃ q, n' * 2 ^ (e' - c).toNat = q * 2 ^ (lp - c).toNat ∧
          (q % 2 = 1 → e' = lp) ∧ (q % 2 = 1 → n' ≠ 0) := by
        by_cases hn' : n' = 0
        · exact ⟨0, by rw [hn']; simp, by omega, by omega⟩
        · refine ⟨n' * 2 ^ (e' - lp).toNat, ?_, ?_, fun _ => hn'⟩
          · rw [pow_split hcl (by omega : lp ≤ e'), Nat.mul_assoc]
          · intro ho
            cases hk : (e' - lp).toNat with
            | zero => omega
            | succ k =>
              rw [hk, Nat.pow_succ, ← Nat.mul_assoc] at ho
              omega
      rw [hq]
      obtain ⟨h10, h11⟩ := htie q
      refine ⟨h10, fun hd => ?_⟩
      rcases h11 hd with h12 | ⟨h12, h13⟩
      · exact .inl (hsame (by rw [hY, hq, h12]))
      · right
        rw [hq1 h13]
        by_cases hR0 : R = 0
        · have := hzero hR0
          have := hR23 hR0
          omega
        · exact heven h12 hR0

/-- Rounding reaches an even number from half a step below it. -/
theorem even_le_roundShift (n k q : Nat) (hq : q % 2 = 0) (h0 : q ≠ 0) :
    q ≤ roundShift n k ↔ (2 * q - 1) * 2 ^ k ≤ 2 * n := by
  have hp : 0 < 2 ^ k := Nat.two_pow_pos k
  have hd := Nat.div_add_mod n (2 ^ k)
  have hm := Nat.mod_lt n hp
  unfold roundShift
  generalize 2 ^ k = P at *
  generalize n / P = Q at *
  generalize n % P = r at *
  rw [Nat.mul_comm P Q] at hd
  have e1 : (2 * q - 1) * P + P = 2 * (q * P) := by
    rw [← Nat.succ_mul, ← Nat.mul_assoc]; congr 1; omega
  have hle : ∀ a b : Nat, a ≤ b → a * P ≤ b * P := fun a b h => Nat.mul_le_mul_right P h
  have e2 : (Q + 1) * P = Q * P + P := Nat.succ_mul Q P
  rcases Nat.lt_trichotomy q (Q + 1) with h | h | h
  · have h1 := hle q Q (by omega)
    split <;> omega
  · subst h
    split <;> omega
  · have h1 := hle (Q + 2) q (by omega)
    have e3 : (Q + 2) * P = Q * P + P + P := by rw [Nat.add_mul]; omega
    split <;> omega

theorem log2_ge_iff {n k : Nat} (h : n ≠ 0) : k ≤ n.log2 ↔ 2 ^ k ≤ n := Nat.le_log2 h

/-- Numbers from halfway between the largest number of the format and `2^128` on become infinite. -/
theorem toF32_inf {s t : Bool} {n : Nat} {e c : Int} (h1 : c ≤ e) (h2 : c ≤ 103) :
    toF32 (.fin s n e) = .inf t ↔
      t = s ∧ (2 ^ 25 - 1) * 2 ^ (103 - c).toNat ≤ n * 2 ^ (e - c).toNat := by
  have hp : ∀ x : Int, 0 < 2 ^ (x - c).toNat := fun x => Nat.two_pow_pos _
  by_cases hn0 : n = 0
  · subst hn0
    have : toF32 (.fin s 0 e) = .fin s 0 0 := by
      rw [toF32]; split
      · rfl
      · rw [show roundShift 0 _ = 0 from by simp [roundShift]]; rfl
    rw [this]
    refine ⟨fun h => (by cases h), fun ⟨_, h⟩ => ?_⟩
    have := Nat.mul_pos (show 0 < 2 ^ 25 - 1 by decide) (hp 103)
    omega
  -- position of the leading bit
  have hself : 2 ^ n.log2 ≤ n := Nat.log2_self_le hn0
  have hlt : n < 2 ^ (n.log2 + 1) := Nat.lt_log2_self
  have hlo : 2 ^ (e + n.log2 - c).toNat ≤ n * 2 ^ (e - c).toNat := by
    have : 2 ^ (e + n.log2 - c).toNat = 2 ^ n.log2 * 2 ^ (e - c).toNat := by
      rw [← Nat.pow_add]; congr 1; omega
    rw [this]; exact Nat.mul_le_mul_right _ hself
  have hhi : n * 2 ^ (e - c).toNat < 2 ^ (e + n.log2 + 1 - c).toNat := by
    have : 2 ^ (e + n.log2 + 1 - c).toNat = 2 ^ (n.log2 + 1) * 2 ^ (e - c).toNat := by
      rw [← Nat.pow_add]; congr 1; omega
    rw [this]; exact Nat.mul_lt_mul_of_pos_right hlt (hp e)
  have e128 : 2 ^ (128 - c).toNat = 2 ^ 25 * 2 ^ (103 - c).toNat := by
    rw [← Nat.pow_add]; congr 1; omega
  have e127 : 2 ^ (127 - c).toNat = 2 ^ 24 * 2 ^ (103 - c).toNat := by
    rw [← Nat.pow_add]; congr 1; omega
  have hbig : 128 ≤ e + n.log2 → (2 ^ 25 - 1) * 2 ^ (103 - c).toNat ≤ n * 2 ^ (e - c).toNat := by
    intro h
    have h3 : 2 ^ (128 - c).toNat ≤ 2 ^ (e + n.log2 - c).toNat :=
      Nat.pow_le_pow_right (by decide) (by omega)
    have h4 : (2 ^ 25 - 1) * 2 ^ (103 - c).toNat ≤ 2 ^ 25 * 2 ^ (103 - c).toNat :=
      Nat.mul_le_mul_right _ (by decide)
    omega
  have hsmall : e + n.log2 < 127 → n * 2 ^ (e - c).toNat < (2 ^ 25 - 1) * 2 ^ (103 - c).toNat := by
    intro h
    have h3 : 2 ^ (e + n.log2 + 1 - c).toNat ≤ 2 ^ (127 - c).toNat :=
      Nat.pow_le_pow_right (by decide) (by omega)
    have h4 : 2 ^ 24 * 2 ^ (103 - c).toNat ≤ (2 ^ 25 - 1) * 2 ^ (103 - c).toNat :=
      Nat.mul_le_mul_right _ (by decide)
    omega
  have hmake : ∀ (q : Nat) (x : Int), q ≠ 0 → (make32 s q x = .inf t ↔ t = s ∧ 128 ≤ x + q.log2) := by
    intro q x hq
    rw [make32, if_neg hq]
    split
    · rename_i h
      exact ⟨fun he => by injection he with he; exact ⟨he.symm, h⟩, fun ⟨he, _⟩ => by rw [he]⟩
    · rename_i h
      exact ⟨fun he => (by cases he), fun ⟨_, he⟩ => absurd he h⟩
  rw [toF32]
  by_cases hl : lastPlace32 n e ≤ e
  · rw [if_pos hl, hmake n e hn0]
    refine and_congr_right fun _ => ⟨hbig, fun h => ?_⟩
    refine Int.not_lt.mp fun hno => ?_
    by_cases h127 : e + n.log2 < 127
    · have := hsmall h127; omega
    · -- a multiple of 2^104 below 2^128
      have h104 : 104 ≤ e := by unfold lastPlace32 at hl; omega
      have e104 : 2 ^ (104 - c).toNat = 2 * 2 ^ (103 - c).toNat := by
        rw [show (104 - c).toNat = (103 - c).toNat + 1 by omega, Nat.pow_succ, Nat.mul_comm]
      have hpow := pow_split (c := c) (l := 104) (x := e) (by omega) h104
      have heq : e + n.log2 + 1 = 128 := by omega
      rw [heq, e128] at hhi
      rw [hpow, ← Nat.mul_assoc, e104] at hhi h
      generalize n * 2 ^ (e - 104).toNat = a at hhi h
      have hpc := hp 103
      generalize 2 ^ (103 - c).toNat = P at *
      have h5 : a * (2 * P) = a * 2 * P := by rw [Nat.mul_assoc]
      rw [h5] at h hhi
      have h6 : 2 ^ 25 - 1 ≤ a * 2 := Nat.le_of_mul_le_mul_right h hpc
      have h7 : a * 2 < 2 ^ 25 := Nat.lt_of_mul_lt_mul_right hhi
      have e25 : 2 ^ 25 = 33554432 := by decide
      omega
  · rw [if_neg hl]
    have hq := quotient_lt hl
    generalize hlp : lastPlace32 n e = lp at *
    have hb := roundShift_bounds n (lp - e).toNat
    generalize hR : roundShift n (lp - e).toNat = R at *
    have hR24 : R ≤ 2 ^ 24 := by omega
    by_cases hsm : e + n.log2 < 127
    · -- too small
      refine ⟨fun h => ?_, fun ⟨_, h⟩ => by have := hsmall hsm; omega⟩
      exfalso
      by_cases hR0 : R = 0
      · rw [make32, if_pos hR0] at h; cases h
      · have h3 := ((hmake R lp hR0).mp h).2
        have h4 : R.log2 < 25 := (Nat.log2_lt hR0).mpr (Nat.lt_of_le_of_lt hR24 (by decide))
        unfold lastPlace32 at hlp
        omega
    · have hlpe : lp = e + n.log2 - 23 := by unfold lastPlace32 at hlp; omega
      have hR23 : 2 ^ 23 ≤ R := by
        refine Nat.le_trans ?_ hb.1
        rw [Nat.le_div_iff_mul_le (Nat.two_pow_pos _), ← Nat.pow_add]
        refine Nat.le_trans (Nat.pow_le_pow_right (by decide) ?_) hself
        omega
      have hR0 : R ≠ 0 := by have : 0 < 2 ^ 23 := by decide
                             omega
      rw [hmake R lp hR0]
      refine and_congr_right fun _ => ?_
      by_cases h128 : 128 ≤ e + n.log2
      · have : 23 ≤ R.log2 := (log2_ge_iff hR0).mpr hR23
        exact ⟨fun _ => hbig h128, fun _ => by omega⟩
      · -- the last binade
        have hlp104 : lp = 104 := by omega
        have h24 : 128 ≤ lp + R.log2 ↔ 2 ^ 24 ≤ R := by
          rw [← log2_ge_iff hR0]; omega
        have h25 := even_le_roundShift n (lp - e).toNat (2 ^ 24) (by decide) (by decide)
        rw [hR] at h25
        rw [h24, h25]
        have e1 : 2 * 2 ^ 24 - 1 = 2 ^ 25 - 1 := by decide
        rw [e1]
        -- both sides in units of 2^c, doubled
        have e2 : 2 ^ (lp - e).toNat * 2 ^ (e - c).toNat = 2 * 2 ^ (103 - c).toNat := by
          rw [← Nat.pow_add, Nat.mul_comm, ← Nat.pow_succ]; congr 1; omega
        have hpe := hp e
        generalize 2 ^ (lp - e).toNat = P at *
        generalize 2 ^ (e - c).toNat = U at *
        generalize 2 ^ (103 - c).toNat = V at *
        constructor
        · intro h
          have h3 := Nat.mul_le_mul_right U h
          rw [Nat.mul_assoc, e2, Nat.mul_assoc] at h3
          rw [Nat.mul_left_comm] at h3
          omega
        · intro h
          have h3 := Nat.mul_le_mul_left 2 h
          rw [Nat.mul_left_comm, ← e2, ← Nat.mul_assoc, ← Nat.mul_assoc] at h3
          exact Nat.le_of_mul_le_mul_right h3 hpe

/-! ### Numbers close to one of the format -/

theorem odd_unique {a b : Nat} {x y c : Int} (ha : a % 2 = 1) (hb : b % 2 = 1) (hx : c ≤ x) (hy : c ≤ y)
    (hab : a * 2 ^ (x - c).toNat = b * 2 ^ (y - c).toNat) : a = b ∧ x = y := by
  rcases Int.lt_trichotomy x y with hl | hl | hl
  · exfalso
    rw [pow_split hx (Int.le_of_lt hl), ← Nat.mul_assoc] at hab
    have := Nat.eq_of_mul_eq_mul_right (Nat.two_pow_pos _) hab
    obtain ⟨k, hk⟩ : ∃ k, (y - x).toNat = k + 1 := ⟨(y - x).toNat - 1, by omega⟩
    rw [hk, Nat.pow_succ, ← Nat.mul_assoc] at this
    omega
  · subst hl
    exact ⟨Nat.eq_of_mul_eq_mul_right (Nat.two_pow_pos _) hab, rfl⟩
  · exfalso
    rw [pow_split hy (Int.le_of_lt hl), ← Nat.mul_assoc] at hab
    have := Nat.eq_of_mul_eq_mul_right (Nat.two_pow_pos _) hab
    obtain ⟨k, hk⟩ : ∃ k, (x - y).toNat = k + 1 := ⟨(x - y).toNat - 1, by omega⟩
    rw [hk, Nat.pow_succ, ← Nat.mul_assoc] at this
    omega

theorem units_dist {c : Int} {s : Bool} {n n' : Nat} {e e' : Int} :
    (units c s n e - units c s n' e').natAbs =
      ((n * 2 ^ (e - c).toNat : Nat) - (n' * 2 ^ (e' - c).toNat : Nat) : Int).natAbs := by
  unfold units
  generalize n * 2 ^ (e - c).toNat = A
  generalize n' * 2 ^ (e' - c).toNat = B
  cases s
  · rfl
  · simp only [if_true]; omega

theorem units_abs {c : Int} {s : Bool} {n : Nat} {e : Int} :
    (units c s n e).natAbs = n * 2 ^ (e - c).toNat := by
  unfold units
  generalize n * 2 ^ (e - c).toNat = A
  cases s
  · rfl
  · simp only [if_true]; omega

/-- The largest number of the format. -/
theorem f32_max {n : Nat} {e c : Int} (h1 : n < 2 ^ 24) (h4 : e + n.log2 < 128) (hc : c ≤ e) (hc' : c ≤ 103) :
    n * 2 ^ (e - c).toNat ≤ (2 ^ 25 - 2) * 2 ^ (103 - c).toNat := by
  have e24 : (2 : Nat) ^ 24 = 16777216 := by decide
  have e25 : (2 : Nat) ^ 25 = 33554432 := by decide
  by_cases he : e ≤ 104
  · have h5 : n * 2 ^ (e - c).toNat ≤ n * 2 ^ (104 - c).toNat :=
      Nat.mul_le_mul_left _ (Nat.pow_le_pow_right (by decide) (by omega))
    have h6 : n * 2 ^ (104 - c).toNat ≤ 16777215 * 2 ^ (104 - c).toNat := Nat.mul_le_mul_right _ (by omega)
    rw [show (104 - c).toNat = (103 - c).toNat + 1 by omega, Nat.pow_succ] at h5 h6
    omega
  · have hl : n < 2 ^ (n.log2 + 1) := Nat.lt_log2_self
    have h5 : n + 1 ≤ 2 ^ (128 - e).toNat :=
      Nat.le_trans hl (Nat.pow_le_pow_right (by decide) (by omega))
    have h6 := Nat.mul_le_mul_right (2 ^ (e - 104).toNat) h5
    rw [← Nat.pow_add, show (128 - e).toNat + (e - 104).toNat = 24 by omega, Nat.succ_mul] at h6
    have h7 : 1 ≤ 2 ^ (e - 104).toNat := Nat.two_pow_pos _
    have h8 : n * 2 ^ (e - c).toNat = n * 2 ^ (e - 104).toNat * 2 * 2 ^ (103 - c).toNat := by
      rw [show (e - c).toNat = (e - 104).toNat + 1 + (103 - c).toNat by omega, Nat.pow_add, Nat.pow_add]
      simp [Nat.mul_assoc]
    rw [h8]
    exact Nat.mul_le_mul_right _ (by omega)

theorem toF32_ne_nan (s : Bool) (n : Nat) (e : Int) : toF32 (.fin s n e) ≠ .nan := by
  have : ∀ s n e, make32 s n e ≠ .nan := by
    intro s n e h
    unfold make32 at h
    split at h
    · cases h
    · split at h <;> cases h
  rw [toF32]
  split
  · exact this _ _ _
  · exact this _ _ _

theorem near_twice {Y F R : Nat} (h1 : ((Y : Int) - F).natAbs * 2 ^ 26 ≤ F)
    (h2 : ((Y : Int) - R).natAbs ≤ ((Y : Int) - F).natAbs) : ((R : Int) - F).natAbs * 2 ^ 25 ≤ F := by
  have h3 : ((R : Int) - F).natAbs ≤ ((Y : Int) - F).natAbs * 2 := by omega
  refine Nat.le_trans (Nat.mul_le_mul_right _ h3) ?_
  rw [Nat.mul_assoc]
  exact h1

theorem toF32_close {y f : F64} (hf : F32Valid f) (h : Close y f) : y.toF32 = f := by
  obtain ⟨s, n, e, n', e', rfl, rfl, h⟩ := h
  have e24 : (2 : Nat) ^ 24 = 16777216 := by decide
  have e25 : (2 : Nat) ^ 25 = 33554432 := by decide
  have e26 : (2 : Nat) ^ 26 = 67108864 := by decide
  rcases hf with ⟨rfl, rfl⟩ | ⟨h1, h2, h3, h4⟩
  · have := h (min e 0) (by omega) (by omega)
    rw [units_dist, units_abs] at this
    have hp := Nat.two_pow_pos (e - min e 0).toNat
    have hn : n = 0 := by
      have h5 : n * 2 ^ (e - min e 0).toNat = 0 := by omega
      rcases Nat.mul_eq_zero.mp h5 with h5 | h5
      · exact h5
      · omega
    subst hn
    rw [toF32]; split
    · rfl
    · rw [show roundShift 0 _ = 0 from by simp [roundShift]]; rfl
  · cases hr : toF32 (.fin s n e) with
    | nan => exact absurd hr (toF32_ne_nan s n e)
    | inf t =>
      exfalso
      have hc := h (min e (min e' 103)) (by omega) (by omega)
      rw [units_dist, units_abs] at hc
      have h5 := ((toF32_inf (c := min e (min e' 103)) (by omega) (by omega)).mp hr).2
      have h6 := f32_max (c := min e (min e' 103)) h2 h4 (by omega) (by omega)
      have hp := Nat.two_pow_pos (103 - min e (min e' 103)).toNat
      generalize 2 ^ (103 - min e (min e' 103)).toNat = P at *
      generalize n * 2 ^ (e - min e (min e' 103)).toNat = Y at *
      generalize n' * 2 ^ (e' - min e (min e' 103)).toNat = F at *
      omega
    | fin t m g =>
      have hv := toF32_valid (.fin s n e)
      rw [hr] at hv
      generalize hcd : min (min e e') (min g (-200)) = c
      have hce : c ≤ e := by omega
      have hce' : c ≤ e' := by omega
      have hcg : c ≤ g := by omega
      have hc0 : c ≤ -200 := by omega
      have hc := h c hce hce'
      rw [units_dist, units_abs] at hc
      obtain ⟨rfl, h5, _⟩ := nearest_magnitude (n' := n') (e' := e') hr (.inr ⟨h1, h2, h3⟩) hce hcg hce'
      have hn0 : n' ≠ 0 := by omega
      have hF1 : n' < 2 ^ (n'.log2 + 1) := Nat.lt_log2_self
      have hF2 : 2 ^ n'.log2 ≤ n' := Nat.log2_self_le hn0
      have hl24 : n'.log2 < 24 := (Nat.log2_lt hn0).mpr h2
      -- the magnitudes
      have hFlo : 2 ^ (e' + n'.log2 - c).toNat ≤ n' * 2 ^ (e' - c).toNat := by
        rw [show (e' + n'.log2 - c).toNat = n'.log2 + (e' - c).toNat by omega, Nat.pow_add]
        exact Nat.mul_le_mul_right _ hF2
      have hFhi : n' * 2 ^ (e' - c).toNat < 2 ^ (e' + n'.log2 + 1 - c).toNat := by
        rw [show (e' + n'.log2 + 1 - c).toNat = n'.log2 + 1 + (e' - c).toNat by omega, Nat.pow_add]
        exact Nat.mul_lt_mul_of_pos_right hF1 (Nat.two_pow_pos _)
      have hRF : ((m * 2 ^ (g - c).toNat : Nat) - (n' * 2 ^ (e' - c).toNat : Nat) : Int).natAbs * 2 ^ 25 ≤
          n' * 2 ^ (e' - c).toNat := by
        exact near_twice hc h5
      have hm : m % 2 = 1 ∧ m < 2 ^ 24 ∧ -149 ≤ g := by
        rcases hv with ⟨rfl, rfl⟩ | ⟨h6, h7, h8, _⟩
        · exfalso
          have hp := Nat.two_pow_pos (e' + n'.log2 - c).toNat
          rw [Nat.zero_mul, e25] at hRF
          generalize n' * 2 ^ (e' - c).toNat = F at hFlo hRF
          omega
        · exact ⟨h6, h7, h8⟩
      obtain ⟨hm1, hm2, hm3⟩ := hm
      have hg : e' + n'.log2 - 24 ≤ g := by
        refine Int.not_lt.mp fun hlt => ?_
        have h6 : m * 2 ^ (g - c).toNat < 2 ^ (g + 24 - c).toNat := by
          have e1 : (g + 24 - c).toNat = 24 + (g - c).toNat := by omega
          rw [e1, Nat.pow_add]
          exact Nat.mul_lt_mul_of_pos_right hm2 (Nat.two_pow_pos _)
        have h7 : 2 ^ (g + 24 - c).toNat * 2 ≤ 2 ^ (e' + n'.log2 - c).toNat := by
          rw [← Nat.pow_succ]
          exact Nat.pow_le_pow_right (by decide) (by omega)
        generalize 2 ^ (g + 24 - c).toNat = P at *
        generalize 2 ^ (e' + n'.log2 - c).toNat = Q at *
        generalize n' * 2 ^ (e' - c).toNat = F at *
        generalize m * 2 ^ (g - c).toNat = R at *
        omega
      generalize hK : max (e' + n'.log2 - 24) (-149) = K
      have hcK : c ≤ K := by omega
      have hKe : K ≤ e' := by omega
      have hKg : K ≤ g := by omega
      have heq : m * 2 ^ (g - c).toNat = n' * 2 ^ (e' - c).toNat := by
        have h6 : m * 2 ^ (g - c).toNat = m * 2 ^ (g - K).toNat * 2 ^ (K - c).toNat := by
          rw [pow_split hcK hKg, Nat.mul_assoc]
        have h7 : n' * 2 ^ (e' - c).toNat = n' * 2 ^ (e' - K).toNat * 2 ^ (K - c).toNat := by
          rw [pow_split hcK hKe, Nat.mul_assoc]
        rw [h6, h7] at hRF ⊢
        rw [h7] at hFhi
        rw [dist_mul] at hRF
        have h8 : 2 ^ (e' + n'.log2 + 1 - c).toNat ≤ 2 ^ 25 * 2 ^ (K - c).toNat := by
          rw [← Nat.pow_add]
          exact Nat.pow_le_pow_right (by decide) (by omega)
        have hp := Nat.two_pow_pos (K - c).toNat
        generalize 2 ^ (e' + n'.log2 + 1 - c).toNat = Q at *
        generalize n' * 2 ^ (e' - K).toNat = F at *
        generalize m * 2 ^ (g - K).toNat = R at *
        generalize 2 ^ (K - c).toNat = P at *
        by_cases hd : ((R : Int) - F).natAbs = 0
        · rw [show R = F by omega]
        · exfalso
          have h9 : 1 * P ≤ ((R : Int) - F).natAbs * P := Nat.mul_le_mul_right _ (by omega)
          generalize ((R : Int) - F).natAbs * P = D at *
          omega
      obtain ⟨rfl, rfl⟩ := odd_unique hm1 h1 hcg hce' heq
      rfl

end F64
end Asn1

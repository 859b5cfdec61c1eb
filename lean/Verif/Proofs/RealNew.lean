import Verif.Proofs.Float
/-!
# `Real::new`: the loops end
-/
namespace Asn1
open Spec

theorem realNewLoop_ok (s : Bool) : ∀ (fuel n : Nat) (e x : Int), n % 2 = 1 → n < 2 ^ 53 → -1074 ≤ e →
    e + n.log2 < 1024 → 55 - (e + n.log2) ≤ 3 * (fuel : Int) → 0 < fuel →
    ∃ m f k, realNewLoop fuel (.fin s n e) x = some (.fin s m f, x - (k : Nat)) ∧ m % 2 = 1 ∧
      m < 2 ^ 53 ∧ 0 ≤ f ∧ f + m.log2 < 1024 ∧ (0 ≤ e → m = n ∧ f = e ∧ k = 0) := by
  intro fuel
  induction fuel with
  | zero => intro n e x _ _ _ _ _ h; omega
  | succ fuel ih =>
    intro n e x ho h53 he ht hfu _
    rw [realNewLoop]
    have hl := F64.log2_lt53 (by omega) h53
    by_cases hf : F64.hasFract (.fin s n e) = true
    · have hneg := (F64.hasFract_odd ho).mp hf
      rw [if_pos hf]
      obtain ⟨m, f, h1, h2, h3, h4, h5, h6⟩ := F64.mul_ten s ho h53 he hneg
      rw [h1]
      have hlm := F64.log2_lt53 (by omega) h3
      by_cases hfuel : 0 < fuel
      · obtain ⟨m', f', k, h7, h8, h9, h10, h11, h12⟩ := ih m f (x - 1) h2 h3 h4 h5 (by omega) hfuel
        refine ⟨m', f', k + 1, ?_, h8, h9, h10, h11, fun h => by omega⟩
        rw [h7]
        congr 2
        omega
      · omega
    · rw [if_neg hf]
      have hpos : 0 ≤ e := by
        have := mt (F64.hasFract_odd (s := s) ho).mpr hf
        omega
      exact ⟨n, e, 0, by simp, ho, h53, hpos, ht, fun _ => ⟨rfl, rfl, rfl⟩⟩

theorem gtEps_int {s : Bool} {n : Nat} {e : Int} (ho : n % 2 = 1) (he : 0 ≤ e) :
    F64.gtEpsilon (.fin s n e) = true := by
  simp only [F64.gtEpsilon]
  rw [if_pos (by omega)]
  simp only [decide_eq_true_eq]
  have h1 : 2 ≤ 2 ^ (e + 52).toNat :=
    Nat.le_trans (by decide : 2 ≤ 2 ^ 1) (Nat.pow_le_pow_right (by omega) (by omega))
  have := Nat.le_mul_of_pos_left (2 ^ (e + 52).toNat) (show 0 < n by omega)
  omega

theorem tens_iff {s : Bool} {n : Nat} {e : Int} (he : 0 ≤ e) :
    F64.tensMultiple (.fin s n e) = true ↔ n * 2 ^ e.toNat % 10 = 0 := by
  simp [F64.tensMultiple]

theorem tens_five {n k : Nat} (ho : n % 2 = 1) (h : n * 2 ^ k % 10 = 0) : n % 5 = 0 ∧ 1 ≤ k := by
  have hk : 1 ≤ k := by
    cases k with
    | zero => simp at h; omega
    | succ k => omega
  refine ⟨?_, hk⟩
  have h5 : 5 ∣ n * 2 ^ k := Nat.dvd_trans (by decide : 5 ∣ 10) (Nat.dvd_of_mod_eq_zero h)
  have hc : Nat.Coprime 5 (2 ^ k) := Nat.Coprime.pow_right k (by decide)
  have := hc.dvd_of_dvd_mul_right h5
  omega

/-- The powers of ten are taken out exactly. -/
theorem normalizeLoop_ok (s : Bool) : ∀ (fuel n : Nat) (e x : Int), n % 2 = 1 → n < 2 ^ 53 → 0 ≤ e →
    e + n.log2 < 1024 → n < 2 ^ fuel →
    ∃ m f j, normalizeLoop fuel (.fin s n e) x = some (.fin s m f, x + (j : Nat)) ∧ m % 2 = 1 ∧
      m < 2 ^ 53 ∧ 0 ≤ f ∧ f + m.log2 < 1024 ∧ m * 2 ^ f.toNat % 10 ≠ 0 ∧
      n * 2 ^ e.toNat = m * 2 ^ f.toNat * 10 ^ j := by
  intro fuel
  induction fuel with
  | zero => intro n e x ho _ _ _ h; simp at h; omega
  | succ fuel ih =>
    intro n e x ho h53 he ht hfu
    rw [normalizeLoop, gtEps_int ho he]
    by_cases hten : F64.tensMultiple (.fin s n e) = true
    · have h10 := (tens_iff he).mp hten
      obtain ⟨h5, he1⟩ := tens_five ho h10
      simp only [hten, Bool.and_self, if_true]
      have hlog : (n / 5).log2 ≤ n.log2 := F64.log2_mono (by omega) (by omega)
      have hmk : F64.div10 (.fin s n e) = .fin s (n / 5) (e - 1) :=
        F64.make_odd s (by omega) (by omega)
      rw [hmk]
      obtain ⟨m, f, j, h1, h2, h3, h4, h5', h6, h7⟩ := ih (n / 5) (e - 1) (x + 1) (by omega) (by omega)
        (by omega) (by omega) (by rw [Nat.pow_succ] at hfu; omega)
      refine ⟨m, f, j + 1, ?_, h2, h3, h4, h5', h6, ?_⟩
      · rw [h1]; congr 2; omega
      · have e1 : e.toNat = (e - 1).toNat + 1 := by omega
        have e2 : n = n / 5 * 5 := by omega
        calc n * 2 ^ e.toNat = n / 5 * 5 * 2 ^ ((e - 1).toNat + 1) := by rw [← e2, ← e1]
          _ = n / 5 * 2 ^ (e - 1).toNat * 10 := by
            rw [Nat.pow_succ, Nat.mul_assoc, Nat.mul_assoc, Nat.mul_left_comm 5, Nat.mul_comm 5 2]
          _ = m * 2 ^ f.toNat * 10 ^ j * 10 := by rw [h7]
          _ = m * 2 ^ f.toNat * 10 ^ (j + 1) := by rw [Nat.pow_succ, Nat.mul_assoc]
    · simp only [hten, Bool.and_false, Bool.false_eq_true, if_false]
      exact ⟨n, e, 0, by simp, ho, h53, he, ht, fun h => hten ((tens_iff he).mpr h), by simp⟩

theorem realNew_ok {s : Bool} {n : Nat} {e : Int} (ho : n % 2 = 1) (h53 : n < 2 ^ 53) (he : -1074 ≤ e)
    (ht : e + n.log2 < 1024) :
    ∃ m f x, Real.new (.fin s n e) = some (.binary (.fin s m f) 10 x 10) ∧ m % 2 = 1 ∧ m < 2 ^ 53 ∧
      0 ≤ f ∧ f + m.log2 < 1024 ∧ m * 2 ^ f.toNat % 10 ≠ 0 ∧
      (0 ≤ e → 0 ≤ x ∧ n * 2 ^ e.toNat = m * 2 ^ f.toNat * 10 ^ x.toNat) := by
  obtain ⟨m, f, k, h1, h2, h3, h4, h5, h6⟩ := realNewLoop_ok s 400 n e 0 ho h53 he ht (by omega) (by decide)
  obtain ⟨m', f', j, h7, h8, h9, h10, h11, h12, h13⟩ := normalizeLoop_ok s 400 m f (0 - k) h2 h3 h4 h5
    (Nat.lt_trans h3 (Nat.pow_lt_pow_right (by decide) (by decide)))
  refine ⟨m', f', 0 - k + j, ?_, h8, h9, h10, h11, h12, fun h0 => ?_⟩
  · simp only [Real.new]
    rw [if_neg (by omega), h1]
    simp only
    rw [h7]
  · obtain ⟨rfl, rfl, rfl⟩ := h6 h0
    refine ⟨by omega, ?_⟩
    rw [h13]
    congr 2
    omega

end Asn1

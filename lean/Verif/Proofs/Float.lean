import Verif.Spec.Real
/-!
# Floating-point numbers: exactness and rounding
-/
namespace Asn1
open Spec
namespace F64

theorem log2_mono {a b : Nat} (h : a ≤ b) (ha : a ≠ 0) : a.log2 ≤ b.log2 := by
  rw [Nat.le_log2 (by omega)]
  exact Nat.le_trans (Nat.log2_self_le ha) h

theorem log2_lt53 {n : Nat} (h0 : n ≠ 0) (h : n < 2 ^ 53) : n.log2 < 53 := (Nat.log2_lt h0).mpr h

theorem strip_odd (fuel n : Nat) (e : Int) (h : n % 2 = 1) : strip fuel n e = (n, e) := by
  cases fuel with
  | zero => rfl
  | succ f => rw [strip, if_neg (by omega)]

theorem strip_spec : ∀ (fuel n : Nat) (e : Int), n ≠ 0 → n < 2 ^ (fuel + 1) →
    ∃ k m, strip fuel n e = (m, e + (k : Nat)) ∧ n = m * 2 ^ k ∧ m % 2 = 1 := by
  intro fuel
  induction fuel with
  | zero => intro n e h0 h1; exact ⟨0, n, by simp [strip], by simp, by omega⟩
  | succ f ih =>
    intro n e h0 h1
    rw [strip]
    by_cases h : n % 2 = 0
    · rw [if_pos h]
      obtain ⟨k, m, h2, h3, h4⟩ := ih (n / 2) (e + 1) (by omega) (by rw [Nat.pow_succ] at h1; omega)
      refine ⟨k + 1, m, ?_, ?_, h4⟩
      · rw [h2]; congr 1; omega
      · rw [Nat.pow_succ]
        have : n = n / 2 * 2 := by omega
        rw [this, h3, Nat.mul_assoc]
    · rw [if_neg h]; exact ⟨0, n, by simp, by simp, by omega⟩

theorem log2_mul_pow (m k : Nat) (hm : m ≠ 0) : (m * 2 ^ k).log2 = m.log2 + k := by
  have hp : 0 < 2 ^ k := Nat.two_pow_pos k
  have hne : m * 2 ^ k ≠ 0 := Nat.mul_ne_zero hm (by omega)
  apply Nat.le_antisymm
  · have : (m * 2 ^ k).log2 < m.log2 + k + 1 := by
      rw [Nat.log2_lt hne]
      have h1 : m < 2 ^ (m.log2 + 1) := Nat.lt_log2_self
      calc m * 2 ^ k < 2 ^ (m.log2 + 1) * 2 ^ k := Nat.mul_lt_mul_of_pos_right h1 hp
        _ = 2 ^ (m.log2 + k + 1) := by rw [← Nat.pow_add]; congr 1; omega
    omega
  · rw [Nat.le_log2 hne, Nat.pow_add]
    exact Nat.mul_le_mul_right _ (Nat.log2_self_le hm)

/-- `make` gives the number itself, in its representation. -/
theorem make_spec (s : Bool) {n : Nat} (e : Int) (h0 : n ≠ 0) (h : e + n.log2 < 1024) :
    ∃ k m, make s n e = .fin s m (e + (k : Nat)) ∧ n = m * 2 ^ k ∧ m % 2 = 1 := by
  obtain ⟨k, m, h1, h2, h3⟩ := strip_spec n.log2 n e h0 Nat.lt_log2_self
  refine ⟨k, m, ?_, h2, h3⟩
  rw [make, if_neg h0, if_neg (by omega), h1]

theorem make_odd (s : Bool) {n : Nat} {e : Int} (ho : n % 2 = 1) (h : e + n.log2 < 1024) :
    make s n e = .fin s n e := by
  rw [make, if_neg (by omega), if_neg (by omega), strip_odd _ _ _ ho]

theorem round_small (s : Bool) {n : Nat} {e : Int} (h0 : n ≠ 0) (h : n < 2 ^ 53) (he : -1074 ≤ e) :
    round s n e = make s n e := by
  have := log2_lt53 h0 h
  rw [round, if_pos (by unfold lastPlace; omega)]

theorem round_odd (s : Bool) {n : Nat} {e : Int} (ho : n % 2 = 1) (h : n < 2 ^ 53) (he : -1074 ≤ e)
    (ht : e + n.log2 < 1024) : round s n e = .fin s n e := by
  rw [round_small s (by omega) h he, make_odd s ho ht]

theorem ofInt_odd (s : Bool) {n : Nat} (ho : n % 2 = 1) (h : n < 2 ^ 53) :
    ofInt (if s then -(n : Int) else n) = .fin s n 0 := by
  have hn : (if s then -(n : Int) else n).natAbs = n := by split <;> omega
  have hs : decide ((if s then -(n : Int) else n) < 0) = s := by
    cases s <;> simp <;> omega
  rw [ofInt, hn, hs]
  exact round_odd s ho h (by omega) (by have := log2_lt53 (by omega) h; omega)

/-- Multiplication by a power of two is exact within the range. -/
theorem mul_two (s : Bool) {n : Nat} {e k : Int} (ho : n % 2 = 1) (h : n < 2 ^ 53)
    (he : -1074 ≤ e + k) (ht : e + k + n.log2 < 1024) :
    mul (.fin s n e) (.fin false 1 k) = .fin s n (e + k) := by
  rw [mul, Nat.mul_one]
  have : (s != false) = s := by cases s <;> rfl
  rw [this]
  exact round_odd s ho h he ht

theorem mul_pow2 (s : Bool) {n : Nat} {e k : Int} (ho : n % 2 = 1) (h : n < 2 ^ 53)
    (hk : -1024 < k ∧ k < 1024) (he : -1074 ≤ e + k) (ht : e + k + n.log2 < 1024) :
    mul (.fin s n e) (pow2 k) = .fin s n (e + k) := by
  rw [pow2, if_neg (by omega), if_neg (by omega)]
  exact mul_two s ho h he ht

theorem hasFract_odd {s : Bool} {n : Nat} {e : Int} (ho : n % 2 = 1) :
    hasFract (.fin s n e) = true ↔ e < 0 := by
  rw [hasFract]
  split
  · simp; omega
  · have : (-e).toNat ≠ 0 := by omega
    obtain ⟨k, hk⟩ : ∃ k, (-e).toNat = k + 1 := ⟨(-e).toNat - 1, by omega⟩
    rw [hk, Nat.pow_succ]
    have h1 : n % (2 ^ k * 2) ≠ 0 := by
      intro h
      have : 2 ∣ n := Nat.dvd_trans ⟨2 ^ k, by rw [Nat.mul_comm]⟩ (Nat.dvd_of_mod_eq_zero h)
      omega
    simp only [decide_eq_true_eq]
    exact ⟨fun _ => by omega, fun _ => h1⟩

theorem toU64_int {n : Nat} {e : Int} (he : 0 ≤ e) (h : n * 2 ^ e.toNat < 2 ^ 64) :
    toU64 (.fin false n e) = n * 2 ^ e.toNat := by
  simp only [toU64, Bool.false_eq_true, if_false]
  by_cases h64 : e ≥ 64
  · rw [if_pos h64]
    by_cases h0 : n = 0
    · simp [h0]
    · exfalso
      have h1 : 2 ^ 64 ≤ 2 ^ e.toNat := Nat.pow_le_pow_right (by omega) (by omega)
      have h2 : 1 * 2 ^ e.toNat ≤ n * 2 ^ e.toNat := Nat.mul_le_mul_right _ (by omega)
      omega
  · rw [if_neg h64, if_pos he]
    omega

/-! ### Rounding -/

/-- No multiple of `2^k` is nearer to `n` than the rounded one, and if another is as near, the rounded one
is the even multiple. -/
theorem roundShift_nearest (n k q : Nat) :
    ((n : Int) - roundShift n k * (2 ^ k : Nat)).natAbs ≤ ((n : Int) - q * (2 ^ k : Nat)).natAbs ∧
    (((n : Int) - roundShift n k * (2 ^ k : Nat)).natAbs = ((n : Int) - q * (2 ^ k : Nat)).natAbs →
      q = roundShift n k ∨ roundShift n k % 2 = 0) := by
  have hp : 0 < 2 ^ k := Nat.two_pow_pos k
  have hd := Nat.div_add_mod n (2 ^ k)
  have hm := Nat.mod_lt n hp
  unfold roundShift
  generalize hP : 2 ^ k = P at *
  generalize hQ : n / P = Q at *
  generalize n % P = r at *
  have hc : ∀ a : Nat, (a : Int) * (P : Int) = ((a * P : Nat) : Int) := fun a => by rw [Int.natCast_mul]
  have hS : (Q + 1) * P = Q * P + P := Nat.succ_mul Q P
  rw [Nat.mul_comm P Q] at hd
  have key : q ≤ Q ∧ q * P ≤ Q * P ∧ (q ≠ Q → q * P + P ≤ Q * P) ∨
      Q + 1 ≤ q ∧ Q * P + P ≤ q * P ∧ (q ≠ Q + 1 → Q * P + P + P ≤ q * P) := by
    rcases Nat.lt_or_ge Q q with h | h
    · refine Or.inr ⟨h, by rw [← hS]; exact Nat.mul_le_mul_right P h, fun hne => ?_⟩
      have h2 : (Q + 2) * P ≤ q * P := Nat.mul_le_mul_right P (by omega)
      have h3 : (Q + 2) * P = (Q + 1) * P + P := Nat.succ_mul (Q + 1) P
      omega
    · refine Or.inl ⟨h, Nat.mul_le_mul_right P h, fun hne => ?_⟩
      have h2 : (q + 1) * P ≤ Q * P := Nat.mul_le_mul_right P (by omega)
      have h3 : (q + 1) * P = q * P + P := Nat.succ_mul q P
      omega
  split <;> (rw [hc, hc]; rw [hd.symm]; try rw [hS]) <;> generalize Q * P = A at * <;>
    generalize q * P = B at * <;> rcases key with ⟨h1, h2, h3⟩ | ⟨h1, h2, h3⟩ <;>
    (refine ⟨by omega, fun he => ?_⟩) <;> by_cases hq : q = Q <;> by_cases hq2 : q = Q + 1 <;> omega

theorem roundShift_bounds (n k : Nat) : n / 2 ^ k ≤ roundShift n k ∧ roundShift n k ≤ n / 2 ^ k + 1 := by
  unfold roundShift; split <;> omega

theorem make_valid (s : Bool) {n : Nat} {e : Int} (h : n ≤ 2 ^ 53) (he : -1074 ≤ e) :
    F64Valid (make s n e) := by
  by_cases h0 : n = 0
  · rw [make, if_pos h0]; exact Or.inl ⟨rfl, rfl⟩
  · by_cases ho : e + n.log2 ≥ 1024
    · rw [make, if_neg h0, if_pos ho]; trivial
    · obtain ⟨k, m, h1, h2, h3⟩ := make_spec s e h0 (by omega)
      rw [h1]
      have hlog := log2_mul_pow m k (by omega)
      rw [← h2] at hlog
      refine Or.inr ⟨h3, ?_, by omega, by omega⟩
      cases k with
      | zero =>
        simp at h2
        subst h2
        have : n ≠ 2 ^ 53 := by
          intro hc; rw [hc] at h3; exact absurd h3 (by decide)
        omega
      | succ k =>
        rw [Nat.pow_succ] at h2
        have : m * 2 ≤ n := by
          rw [h2, Nat.mul_comm (2 ^ k) 2, ← Nat.mul_assoc]
          exact Nat.le_mul_of_pos_right _ (Nat.two_pow_pos k)
        have : 2 ^ 53 < 2 * 2 ^ 53 := by decide
        omega

/-- Rounding gives a number of the format. -/
theorem round_valid (s : Bool) (n : Nat) (e : Int) : F64Valid (round s n e) := by
  rw [round]
  split
  · rename_i h
    unfold lastPlace at h
    refine make_valid s ?_ (by omega)
    by_cases h0 : n = 0
    · subst h0; exact Nat.zero_le _
    · exact Nat.le_of_lt ((Nat.log2_lt h0).mp (by omega))
  · rename_i h
    have h1 : -1074 ≤ lastPlace n e := by unfold lastPlace; omega
    refine make_valid s ?_ h1
    have hb := (roundShift_bounds n (lastPlace n e - e).toNat).2
    have : n / 2 ^ (lastPlace n e - e).toNat < 2 ^ 53 := by
      rw [Nat.div_lt_iff_lt_mul (Nat.two_pow_pos _), ← Nat.pow_add]
      have h2 : n < 2 ^ (n.log2 + 1) := Nat.lt_log2_self
      refine Nat.lt_of_lt_of_le h2 (Nat.pow_le_pow_right (by omega) ?_)
      unfold lastPlace
      omega
    omega

theorem mul_valid (x y : F64) : F64Valid (mul x y) := by
  cases x <;> cases y <;> simp only [mul] <;> first | exact round_valid _ _ _ | (try split) <;> trivial

theorem ofInt_valid (p : Int) : F64Valid (ofInt p) := round_valid _ _ _

/-- Machine integers are finite. -/
theorem ofInt_fin {p : Int} (h : p.natAbs < 2 ^ 64) : ∃ n e, ofInt p = .fin (decide (p < 0)) n e := by
  rw [ofInt]
  generalize p.natAbs = a at h
  generalize decide (p < 0) = s
  by_cases h0 : a = 0
  · subst h0
    exact ⟨0, 0, rfl⟩
  · have hl : a.log2 < 64 := (Nat.log2_lt h0).mpr h
    rw [round]
    split
    · obtain ⟨k, m, h1, _⟩ := make_spec s (n := a) 0 h0 (by omega)
      exact ⟨_, _, h1⟩
    · rename_i hlp
      have e1 : lastPlace a 0 ≤ 12 := by unfold lastPlace; omega
      have hb := roundShift_bounds a (lastPlace a 0 - 0).toNat
      generalize hq : roundShift a (lastPlace a 0 - 0).toNat = q at hb
      have hle : q ≤ 2 ^ 64 := by
        have := Nat.div_le_self a (2 ^ (lastPlace a 0 - 0).toNat)
        omega
      by_cases hq0 : q = 0
      · rw [make, if_pos hq0]; exact ⟨_, _, rfl⟩
      · have : q.log2 < 65 := (Nat.log2_lt hq0).mpr (Nat.lt_of_le_of_lt hle (by decide))
        obtain ⟨k, m, h1, _⟩ := make_spec s (n := q) (lastPlace a 0) hq0 (by omega)
        exact ⟨_, _, h1⟩

/-- Multiplication by one. -/
theorem mul_pow2_zero {s : Bool} {n : Nat} {e : Int} (h : F64Valid (.fin s n e)) :
    mul (.fin s n e) (pow2 0) = .fin s n e := by
  rcases h with ⟨rfl, rfl⟩ | ⟨h1, h2, h3, h4⟩
  · cases s <;> rfl
  · have := mul_pow2 s (e := e) (k := 0) h1 h2 (by omega) (by omega) (by omega)
    rw [this, Int.add_zero]

/-- A finite number times ten, when it is not an integer: a number at least eight times as large. -/
theorem mul_ten (s : Bool) {n : Nat} {e : Int} (ho : n % 2 = 1) (h : n < 2 ^ 53) (h1 : -1074 ≤ e)
    (h2 : e < 0) : ∃ m f, mul (.fin s n e) (.fin false 5 1) = .fin s m f ∧ m % 2 = 1 ∧ m < 2 ^ 53 ∧
      -1074 ≤ f ∧ f + m.log2 < 1024 ∧ e + n.log2 + 3 ≤ f + m.log2 := by
  have hsb : (s != false) = s := by cases s <;> rfl
  have hlo : n.log2 + 2 ≤ (n * 5).log2 := by
    have := log2_mono (a := n * 2 ^ 2) (b := n * 5) (by omega) (by omega)
    rw [log2_mul_pow n 2 (by omega)] at this
    exact this
  have hhi : (n * 5).log2 ≤ n.log2 + 3 := by
    have := log2_mono (a := n * 5) (b := n * 2 ^ 3) (by omega) (by omega)
    rw [log2_mul_pow n 3 (by omega)] at this
    exact this
  have hn52 := log2_lt53 (by omega) h
  rw [mul, hsb]
  by_cases hs : (n * 5).log2 ≤ 52
  · have h53 : n * 5 < 2 ^ 53 := (Nat.log2_lt (by omega)).mp (by omega)
    refine ⟨n * 5, e + 1, round_odd s (by omega) h53 (by omega) (by omega), by omega, h53, by omega,
      by omega, by omega⟩
  · have hlp : lastPlace (n * 5) (e + 1) = e + 1 + (n * 5).log2 - 52 := by unfold lastPlace; omega
    have hk : (lastPlace (n * 5) (e + 1) - (e + 1)).toNat = (n * 5).log2 - 52 := by rw [hlp]; omega
    rw [round, if_neg (by rw [hlp]; omega), hk, hlp]
    generalize hL : (n * 5).log2 = L at *
    have hb := roundShift_bounds (n * 5) (L - 52)
    have hq1 : 2 ^ 52 ≤ n * 5 / 2 ^ (L - 52) := by
      rw [Nat.le_div_iff_mul_le (Nat.two_pow_pos _), ← Nat.pow_add]
      have := Nat.log2_self_le (n := n * 5) (by omega)
      rw [hL] at this
      have e1 : 52 + (L - 52) = L := by omega
      rw [e1]; exact this
    have hq2 : n * 5 / 2 ^ (L - 52) < 2 ^ 53 := by
      rw [Nat.div_lt_iff_lt_mul (Nat.two_pow_pos _), ← Nat.pow_add]
      have := Nat.lt_log2_self (n := n * 5)
      rw [hL] at this
      have e1 : 53 + (L - 52) = L + 1 := by omega
      rw [e1]; exact this
    generalize roundShift (n * 5) (L - 52) = q at hb
    generalize n * 5 / 2 ^ (L - 52) = d at *
    have hq0 : q ≠ 0 := by
      intro hc
      have : 0 < 2 ^ 52 := Nat.two_pow_pos _
      omega
    have hl1 : 52 ≤ q.log2 := by rw [Nat.le_log2 hq0]; omega
    have hl2 : q.log2 < 54 := by
      rw [Nat.log2_lt hq0]
      have : 2 ^ 53 < 2 ^ 54 := by decide
      omega
    obtain ⟨k, m, h3, h4, h5⟩ := make_spec s (n := q) (e + 1 + (L : Nat) - 52) hq0 (by omega)
    have hlog := log2_mul_pow m k (by omega)
    rw [← h4] at hlog
    refine ⟨m, _, h3, h5, ?_, by omega, by omega, by omega⟩
    cases k with
    | zero =>
      simp at h4
      subst h4
      have : q ≠ 2 ^ 53 := by
        intro hc; rw [hc] at h5; exact absurd h5 (by decide)
      omega
    | succ k =>
      rw [Nat.pow_succ] at h4
      have : m * 2 ≤ q := by
        rw [h4, Nat.mul_comm (2 ^ k) 2, ← Nat.mul_assoc]
        exact Nat.le_mul_of_pos_right _ (Nat.two_pow_pos k)
      have : 2 ^ 54 = 2 * 2 ^ 53 := by decide
      omega

end F64
end Asn1

import Mathlib.Algebra.Order.Archimedean.Basic
import Mathlib.Algebra.Order.Round
import Mathlib.Tactic.Linarith
import Mathlib.Tactic.Positivity
import Mathlib.Tactic.FieldSimp
import Mathlib.Tactic.Ring
import Verif.Proofs.Decimal
import Verif.Proofs.RealNew
/-!
# Relative errors of `f64`, with rational numbers
-/
namespace Asn1
open Spec
namespace F64

/-- `m * 2^x` as a rational number. -/
def value (m : Nat) (x : Int) : ℚ := m * (2 : ℚ) ^ x

theorem two_zpow_pos (x : Int) : (0 : ℚ) < 2 ^ x := zpow_pos (by norm_num) x

theorem ten_zpow_pos (x : Int) : (0 : ℚ) < 10 ^ x := zpow_pos (by norm_num) x

theorem cast_pow_toNat {b : Nat} {x : Int} (h : 0 ≤ x) : ((b ^ x.toNat : Nat) : ℚ) = (b : ℚ) ^ x := by
  rw [Nat.cast_pow, ← zpow_natCast, Int.toNat_of_nonneg h]

theorem value_units {m : Nat} {x c : Int} (h : c ≤ x) :
    ((m * 2 ^ (x - c).toNat : Nat) : ℚ) = value m x * 2 ^ (-c) := by
  rw [Nat.cast_mul, cast_pow_toNat (by omega), value, mul_assoc, ← zpow_add₀ (by norm_num)]
  rfl

theorem value_grid {m : Nat} {x : Int} (h : -1074 ≤ x) : (grid m x : ℚ) = value m x * 2 ^ (1074 : Int) := by
  have := value_units (m := m) h
  rw [show x - -1074 = x + 1074 by omega] at this
  exact this

theorem cast_dist (a b : Nat) : ((((a : Int) - b).natAbs : Nat) : ℚ) = |(a : ℚ) - b| := by
  rw [Nat.cast_natAbs, Int.cast_abs, Int.cast_sub, Int.cast_natCast, Int.cast_natCast]

theorem valid_exp {s : Bool} {m : Nat} {x : Int} (h : F64Valid (.fin s m x)) : -1074 ≤ x := by
  rcases h with ⟨_, rfl⟩ | h
  · decide
  · exact h.2.2.1

/-- `n * 10^k`. -/
theorem ten_split (n : Nat) (k : Int) :
    ((n * 10 ^ k.toNat : Nat) : ℚ) = n * (10 : ℚ) ^ k * ((10 ^ (-k).toNat : Nat) : ℚ) := by
  rw [Nat.cast_mul, mul_assoc]
  congr 1
  rcases Int.le_total 0 k with h | h
  · rw [show (-k).toNat = 0 by omega, cast_pow_toNat h]; simp
  · rw [show k.toNat = 0 by omega, cast_pow_toNat (by omega), Nat.cast_ofNat, ← zpow_add₀ (by norm_num)]; simp

theorem decimal_dist {n m : Nat} {k x : Int} (hx : -1074 ≤ x) :
    (((((n * 10 ^ k.toNat * 2 ^ 1074 : Nat) : Int) - (grid m x * 10 ^ (-k).toNat : Nat)).natAbs : Nat) : ℚ) =
      |n * (10 : ℚ) ^ k - value m x| * (2 ^ (1074 : Int) * ((10 ^ (-k).toNat : Nat) : ℚ)) := by
  rw [cast_dist, Nat.cast_mul, Nat.cast_mul (grid m x), ten_split, value_grid hx, Nat.cast_pow 2, Nat.cast_ofNat,
    ← zpow_natCast]
  have hp : (0 : ℚ) ≤ 2 ^ (1074 : Int) * ((10 ^ (-k).toNat : Nat) : ℚ) :=
    mul_nonneg (two_zpow_pos _).le (Nat.cast_nonneg _)
  rw [← abs_of_nonneg hp, ← abs_mul]
  congr 1
  generalize ((10 ^ (-k).toNat : Nat) : ℚ) = d
  rw [show (((1074 : Nat) : Int)) = 1074 from rfl]
  generalize (2 : ℚ) ^ (1074 : Int) = w
  ring

theorem nearest_value {s : Bool} {n m m' : Nat} {k x x' : Int} (h : NearestDecimal s n k (.fin s m x))
    (hv : F64Valid (.fin s m' x')) : |n * (10 : ℚ) ^ k - value m x| ≤ |n * (10 : ℚ) ^ k - value m' x'| := by
  obtain ⟨a, b, h1, h2, h3⟩ := h
  injection h1 with _ h4 h5
  subst h4 h5
  have h6 := h3 m' x' hv
  have h7 : ((_ : Nat) : ℚ) ≤ _ := Nat.cast_le.mpr h6
  rw [decimal_dist (valid_exp h2), decimal_dist (valid_exp hv)] at h7
  refine le_of_mul_le_mul_right h7 (mul_pos (two_zpow_pos _) ?_)
  exact Nat.cast_pos.mpr (Nat.pow_pos (by decide))

theorem round_value {s t : Bool} {N m m' : Nat} {E x x' : Int} (h : round s N E = .fin t m x)
    (hv : F64Valid (.fin s m' x')) : t = s ∧ |value N E - value m x| ≤ |value N E - value m' x'| := by
  obtain ⟨h1, h2, _⟩ := round_nearest (c := min E (min x x')) h
    (by rcases hv with hv | hv; exact .inl hv; exact .inr ⟨hv.1, hv.2.1, hv.2.2.1⟩) (by omega) (by omega) (by omega)
  refine ⟨h1, ?_⟩
  have h7 : ((_ : Nat) : ℚ) ≤ _ := Nat.cast_le.mpr h2
  have hp := two_zpow_pos (-(min E (min x x')))
  rw [cast_dist, cast_dist, value_units (by omega), value_units (by omega), value_units (by omega), ← sub_mul,
    ← sub_mul, abs_mul, abs_mul, abs_of_pos hp] at h7
  exact le_of_mul_le_mul_right h7 hp

/-- Every number that is neither too small nor too large has a number of the format within `2^-53` of it. -/
theorem exists_near (s : Bool) {V : ℚ} (h1 : (2 : ℚ) ^ (-1022 : Int) ≤ V) (h2 : V < 2 ^ (1023 : Int)) :
    ∃ m x, F64Valid (.fin s m x) ∧ |V - value m x| ≤ V * 2 ^ (-53 : Int) := by
  have hV : 0 < V := lt_of_lt_of_le (two_zpow_pos _) h1
  obtain ⟨p, hp1, hp2⟩ := exists_mem_Ico_zpow hV (one_lt_two : (1 : ℚ) < 2)
  have hpl : -1022 ≤ p := by
    have : (2 : ℚ) ^ (-1022 : Int) < 2 ^ (p + 1) := lt_of_le_of_lt h1 hp2
    have := (zpow_lt_zpow_iff_right₀ (by norm_num : (1 : ℚ) < 2)).mp this
    omega
  have hpu : p < 1023 := (zpow_lt_zpow_iff_right₀ (by norm_num : (1 : ℚ) < 2)).mp (lt_of_le_of_lt hp1 h2)
  have hs : (2 : ℚ) ^ (52 - p) * 2 ^ (p - 52) = 1 := by
    rw [← zpow_add₀ (by norm_num)]; simp
  have hpos := two_zpow_pos (52 - p)
  have hpos' := two_zpow_pos (p - 52)
  -- the number in units of the last place
  obtain ⟨q, hq⟩ : ∃ q : Int, q = _root_.round (V * 2 ^ (52 - p)) := ⟨_, rfl⟩
  have hr := abs_sub_round (V * 2 ^ (52 - p))
  rw [← hq] at hr
  have hlo : (2 : ℚ) ^ (52 : Int) ≤ V * 2 ^ (52 - p) := by
    have := mul_le_mul_of_nonneg_right hp1 hpos.le
    rw [← zpow_add₀ (by norm_num)] at this
    simpa using this
  have hhi : V * 2 ^ (52 - p) < (2 : ℚ) ^ (53 : Int) := by
    have := mul_lt_mul_of_pos_right hp2 hpos
    rw [← zpow_add₀ (by norm_num)] at this
    rwa [show p + 1 + (52 - p) = 53 by omega] at this
  have hq1 : (2 : Int) ^ 52 ≤ q := by
    have h3 : ((2 ^ 52 - 1 : Int) : ℚ) < q := by
      have := (abs_le.mp hr).2
      norm_num at hlo ⊢
      linarith
    have := Int.cast_lt.mp h3
    omega
  have hq2 : q ≤ (2 : Int) ^ 53 := by
    have h3 : (q : ℚ) < ((2 ^ 53 + 1 : Int) : ℚ) := by
      have := (abs_le.mp hr).1
      norm_num at hhi ⊢
      linarith
    have := Int.cast_lt.mp h3
    omega
  obtain ⟨Q, rfl⟩ := Int.eq_ofNat_of_zero_le (by omega : 0 ≤ q)
  have hQ1 : 2 ^ 52 ≤ Q := by omega
  have hQ2 : Q ≤ 2 ^ 53 := by omega
  obtain ⟨a, j, ha, ho⟩ := odd_part (by omega : Q ≠ 0)
  have hval : value a (p - 52 + j) = Q * 2 ^ (p - 52) := by
    rw [value, ha, Nat.cast_mul, Nat.cast_pow, Nat.cast_ofNat, zpow_add₀ (by norm_num), zpow_natCast]
    ring
  refine ⟨a, p - 52 + j, .inr ⟨ho, ?_, by omega, ?_⟩, ?_⟩
  · have h3 : 1 ≤ 2 ^ j := Nat.two_pow_pos j
    have h4 : a * 1 ≤ a * 2 ^ j := Nat.mul_le_mul_left _ h3
    have : a ≠ 2 ^ 53 := by
      rintro rfl
      omega
    omega
  · have h3 : (2 : ℚ) ^ (a.log2 : Int) ≤ a := by
      rw [zpow_natCast]
      exact_mod_cast Nat.log2_self_le (by omega : a ≠ 0)
    have h4 : (2 : ℚ) ^ (a.log2 + (p - 52 + j) : Int) ≤ 2 ^ (p + 1) := by
      calc (2 : ℚ) ^ (a.log2 + (p - 52 + j) : Int) = 2 ^ (a.log2 : Int) * 2 ^ (p - 52 + j) := zpow_add₀ (by norm_num) _ _
        _ ≤ value a (p - 52 + j) := mul_le_mul_of_nonneg_right h3 (two_zpow_pos _).le
        _ = Q * 2 ^ (p - 52) := hval
        _ ≤ 2 ^ (53 : Int) * 2 ^ (p - 52) := by
          refine mul_le_mul_of_nonneg_right ?_ hpos'.le
          have : (Q : ℚ) ≤ ((2 ^ 53 : Nat) : ℚ) := Nat.cast_le.mpr hQ2
          norm_num at this ⊢
          exact this
        _ = 2 ^ (p + 1) := by rw [← zpow_add₀ (by norm_num)]; congr 1; omega
    have := (zpow_le_zpow_iff_right₀ (by norm_num : (1 : ℚ) < 2)).mp h4
    omega
  · rw [hval]
    have h3 : V - Q * 2 ^ (p - 52) = (V * 2 ^ (52 - p) - Q) * 2 ^ (p - 52) := by
      rw [sub_mul, mul_assoc, hs, mul_one]
    rw [h3, abs_mul, abs_of_pos hpos']
    calc |V * 2 ^ (52 - p) - Q| * 2 ^ (p - 52) ≤ 1 / 2 * 2 ^ (p - 52) :=
          mul_le_mul_of_nonneg_right (by simpa using hr) hpos'.le
      _ = 2 ^ p * 2 ^ (-53 : Int) := by
          rw [← zpow_add₀ (by norm_num), show p - 52 = p + -53 + 1 by omega, zpow_add_one₀ (by norm_num)]
          ring
      _ ≤ V * 2 ^ (-53 : Int) := mul_le_mul_of_nonneg_right hp1 (two_zpow_pos _).le

/-- `|a - b| ≤ b * ε`. -/
def Near (a b ε : ℚ) : Prop := |a - b| ≤ b * ε

theorem Near.bounds {a b ε : ℚ} (h : Near a b ε) : b * (1 - ε) ≤ a ∧ a ≤ b * (1 + ε) := by
  have := abs_le.mp h
  constructor <;> linarith

theorem Near.of_bounds {a b ε : ℚ} (h1 : b * (1 - ε) ≤ a) (h2 : a ≤ b * (1 + ε)) : Near a b ε :=
  abs_le.mpr ⟨by linarith, by linarith⟩

theorem Near.mono {a b ε δ : ℚ} (h : Near a b ε) (hb : 0 ≤ b) (hd : ε ≤ δ) : Near a b δ :=
  le_trans h (mul_le_mul_of_nonneg_left hd hb)

theorem Near.trans {a b c ε δ : ℚ} (h1 : Near a b ε) (h2 : Near b c δ) (he : 0 ≤ ε) :
    Near a c (ε + δ + ε * δ) := by
  have hb := h2.bounds
  have h3 : b * ε ≤ c * (1 + δ) * ε := mul_le_mul_of_nonneg_right hb.2 he
  have h4 := abs_sub_le a b c
  unfold Near at *
  linarith

theorem Near.mul {a b ε c : ℚ} (h : Near a b ε) (hc : 0 ≤ c) : Near (a * c) (b * c) ε := by
  unfold Near at *
  rw [← sub_mul, abs_mul, abs_of_nonneg hc]
  have := mul_le_mul_of_nonneg_right h hc
  linarith

theorem Near.refl {b ε : ℚ} (hb : 0 ≤ b) (he : 0 ≤ ε) : Near b b ε := by
  unfold Near
  rw [sub_self, abs_zero]
  exact mul_nonneg hb he

theorem round_near (s : Bool) {N : Nat} {E : Int} (h1 : (2 : ℚ) ^ (-1022 : Int) ≤ value N E)
    (h2 : value N E < 2 ^ (1023 : Int)) :
    ∃ m x, round s N E = .fin s m x ∧ F64Valid (.fin s m x) ∧ Near (value m x) (value N E) (2 ^ (-53 : Int)) := by
  have hv := round_valid s N E
  obtain ⟨m', x', hv', hn⟩ := exists_near s h1 h2
  cases hr : round s N E with
  | nan => exact absurd hr (round_ne_nan _ _ _)
  | inf t =>
    exfalso
    have h3 := ((round_inf (c := min E 970) (by omega) (by omega)).mp hr).2
    have h4 : ((_ : Nat) : ℚ) ≤ _ := Nat.cast_le.mpr h3
    rw [value_units (by omega), value_units (by omega)] at h4
    have h5 := le_of_mul_le_mul_right h4 (two_zpow_pos _)
    have h6 : value (2 ^ 54 - 1) 970 ≥ 2 ^ (1023 : Int) := by
      rw [value, show (1023 : Int) = 53 + 970 by decide, zpow_add₀ (by norm_num)]
      refine mul_le_mul_of_nonneg_right ?_ (two_zpow_pos _).le
      norm_num
    linarith
  | fin t m x =>
    rw [hr] at hv
    obtain ⟨rfl, h3⟩ := round_value hr hv'
    refine ⟨m, x, rfl, hv, ?_⟩
    unfold Near
    rw [abs_sub_comm]
    exact le_trans h3 hn

theorem decimal_near {s : Bool} {n : Nat} {k : Int} {f : F64} (h : NearestDecimal s n k f)
    (h1 : (2 : ℚ) ^ (-1022 : Int) ≤ n * 10 ^ k) (h2 : n * (10 : ℚ) ^ k < 2 ^ (1023 : Int)) :
    ∃ m x, f = .fin s m x ∧ F64Valid (.fin s m x) ∧ Near (value m x) (n * 10 ^ k) (2 ^ (-53 : Int)) := by
  obtain ⟨m', x', hv', hn⟩ := exists_near s h1 h2
  obtain ⟨m, x, rfl, hv, h3⟩ := id h
  refine ⟨m, x, rfl, hv, ?_⟩
  unfold Near
  rw [abs_sub_comm]
  exact le_trans (nearest_value h hv') hn

/-! ### `Real::new` -/

theorem value_pos {m : Nat} {x : Int} (h : m ≠ 0) : 0 < value m x :=
  mul_pos (Nat.cast_pos.mpr (Nat.pos_of_ne_zero h)) (two_zpow_pos _)

/-- A number with a fraction is less than `2^53`. -/
theorem fract_small {s : Bool} {n : Nat} {e : Int} (hv : F64Valid (.fin s n e)) (he : e < 0) :
    value n e < 2 ^ (53 : Int) := by
  have h53 : n < 2 ^ 53 := by
    rcases hv with ⟨rfl, _⟩ | hv
    · decide
    · exact hv.2.1
  have h1 : (n : ℚ) < 2 ^ (53 : Int) := by
    have : (n : ℚ) < ((2 ^ 53 : Nat) : ℚ) := Nat.cast_lt.mpr h53
    norm_num at this ⊢
    exact this
  have h2 : (2 : ℚ) ^ e ≤ 1 := zpow_le_one_of_nonpos₀ (by norm_num) (by omega)
  calc value n e ≤ n * 1 := mul_le_mul_of_nonneg_left h2 (Nat.cast_nonneg _)
    _ < _ := by rw [mul_one]; exact h1

theorem newLoop_near (s : Bool) : ∀ (fuel n : Nat) (e x : Int) (g : F64) (y : Int), F64Valid (.fin s n e) → n ≠ 0 →
    (2 : ℚ) ^ (-1022 : Int) ≤ value n e → realNewLoop fuel (.fin s n e) x = some (g, y) →
    ∃ m f j, g = .fin s m f ∧ y = x - (j : Nat) ∧ F64Valid (.fin s m f) ∧ m ≠ 0 ∧ 0 ≤ f ∧
      value n e * 10 ^ j * (1 - 2 ^ (-53 : Int)) ^ j ≤ value m f ∧
      value m f ≤ value n e * 10 ^ j * (1 + 2 ^ (-53 : Int)) ^ j ∧
      (j ≠ 0 → value n e * 10 ^ (j - 1) * (1 - 2 ^ (-53 : Int)) ^ (j - 1) < 2 ^ (53 : Int)) := by
  intro fuel
  induction fuel with
  | zero => intro n e x g y _ _ _ h; simp [realNewLoop] at h
  | succ fuel ih =>
    intro n e x g y hv h0 hl h
    rw [realNewLoop] at h
    have ho : n % 2 = 1 := by
      rcases hv with ⟨h1, _⟩ | h1
      · exact absurd h1 h0
      · exact h1.1
    have hpos := value_pos (x := e) h0
    by_cases hf : F64.hasFract (.fin s n e) = true
    · have hneg := (F64.hasFract_odd ho).mp hf
      rw [if_pos hf] at h
      have hsm := fract_small hv hneg
      have hten : value (n * 5) (e + 1) = value n e * 10 := by
        rw [value, value, zpow_add_one₀ (by norm_num), Nat.cast_mul]
        push_cast
        ring
      have hmul : F64.mul (.fin s n e) (.fin false 5 1) = round s (n * 5) (e + 1) := by
        simp [F64.mul]
      obtain ⟨m, f, h1, h2, h3⟩ := round_near s (N := n * 5) (E := e + 1)
        (by rw [hten]; generalize (2 : ℚ) ^ (-1022 : Int) = w at *; linarith) (by
          rw [hten]
          have h1 : (2 : ℚ) ^ (53 : Int) * 10 ≤ 2 ^ (57 : Int) := by norm_num
          have h2 : (2 : ℚ) ^ (57 : Int) ≤ 2 ^ (1023 : Int) := zpow_le_zpow_right₀ (by norm_num) (by norm_num)
          generalize (2 : ℚ) ^ (1023 : Int) = w at *
          generalize (2 : ℚ) ^ (57 : Int) = w' at *
          linarith)
      rw [hmul, h1] at h
      rw [hten] at h3
      have h3 := h3.bounds
      have hu1 : (2 : ℚ) ^ (-53 : Int) < 1 / 10 := by norm_num
      have hu0 := two_zpow_pos (-53)
      generalize (2 : ℚ) ^ (-53 : Int) = u at *
      have hge : value n e ≤ value m f := by
        have : value n e * u ≤ value n e * (1 / 10) := mul_le_mul_of_nonneg_left hu1.le hpos.le
        linarith
      have hm0 : m ≠ 0 := by
        rintro rfl
        rw [show value 0 f = 0 by simp [value]] at hge
        linarith
      obtain ⟨m', f', j, h4, h5, h6, h7, h8, h9, h10, h11⟩ := ih m f (x - 1) g y h2 hm0 (le_trans hl hge) h
      refine ⟨m', f', j + 1, h4, by omega, h6, h7, h8, ?_, ?_, fun _ => ?_⟩
      · refine le_trans ?_ h9
        rw [pow_succ, pow_succ]
        calc value n e * (10 ^ j * 10) * ((1 - u) ^ j * (1 - u)) = value n e * 10 * (1 - u) * (10 ^ j * (1 - u) ^ j) := by
              ring
          _ ≤ value m f * (10 ^ j * (1 - u) ^ j) := mul_le_mul_of_nonneg_right h3.1
            (mul_nonneg (by positivity) (pow_nonneg (by linarith) _))
          _ = _ := by ring
      · refine le_trans h10 ?_
        rw [pow_succ, pow_succ]
        calc value m f * 10 ^ j * (1 + u) ^ j = value m f * (10 ^ j * (1 + u) ^ j) := by ring
          _ ≤ value n e * 10 * (1 + u) * (10 ^ j * (1 + u) ^ j) := mul_le_mul_of_nonneg_right h3.2
            (by positivity)
          _ = _ := by ring
      · rw [Nat.add_sub_cancel]
        by_cases hj : j = 0
        · subst hj
          simpa using hsm
        · refine lt_of_le_of_lt ?_ (h11 hj)
          obtain ⟨i, rfl⟩ : ∃ i, j = i + 1 := ⟨j - 1, by omega⟩
          rw [Nat.add_sub_cancel, pow_succ, pow_succ]
          calc value n e * (10 ^ i * 10) * ((1 - u) ^ i * (1 - u)) =
                value n e * 10 * (1 - u) * (10 ^ i * (1 - u) ^ i) := by ring
            _ ≤ value m f * (10 ^ i * (1 - u) ^ i) := mul_le_mul_of_nonneg_right h3.1
              (mul_nonneg (by positivity) (pow_nonneg (by linarith) _))
            _ = _ := by ring
    · rw [if_neg hf] at h
      have hpos : 0 ≤ e := by
        have := mt (F64.hasFract_odd (s := s) ho).mpr hf
        omega
      obtain ⟨rfl, rfl⟩ := Prod.mk.inj (Option.some.inj h)
      exact ⟨n, e, 0, rfl, by simp, hv, h0, hpos, by simp, by simp, fun h => absurd rfl h⟩

theorem pow_bounds {j : Nat} (hj : j ≤ 270) :
    1 - (2 : ℚ) ^ (-44 : Int) ≤ (1 - 2 ^ (-53 : Int)) ^ j ∧ (1 + (2 : ℚ) ^ (-53 : Int)) ^ j ≤ 1 + 2 ^ (-44 : Int) := by
  have hj' : (j : ℚ) ≤ 270 := by exact_mod_cast hj
  have hB := one_add_mul_le_pow (a := -(2 : ℚ) ^ (-53 : Int)) (by norm_num) j
  rw [← sub_eq_add_neg] at hB
  have hu : (2 : ℚ) ^ (-44 : Int) = 512 * 2 ^ (-53 : Int) := by norm_num
  have hu0 := two_zpow_pos (-53)
  have hu1 : (2 : ℚ) ^ (-53 : Int) ≤ 1 / 1000000 := by norm_num
  rw [hu]
  generalize (2 : ℚ) ^ (-53 : Int) = u at *
  have h1 : (j : ℚ) * u ≤ 270 * u := mul_le_mul_of_nonneg_right hj' hu0.le
  refine ⟨by linarith, ?_⟩
  have h2 : (1 + u) ^ j * (1 - u) ^ j ≤ 1 := by
    rw [← mul_pow]
    exact pow_le_one₀ (by nlinarith) (by nlinarith)
  have h3 : 1 - 270 * u ≤ (1 - u) ^ j := by linarith
  have h4 : 0 ≤ (1 + u) ^ j := by positivity
  have h5 : (1 + u) ^ j * (1 - 270 * u) ≤ 1 := le_trans (mul_le_mul_of_nonneg_left h3 h4) h2
  have h6 : 1 ≤ (1 + 512 * u) * (1 - 270 * u) := by nlinarith
  have h7 : 0 < 1 - 270 * u := by linarith
  exact le_of_mul_le_mul_right (le_trans h5 h6) h7

theorem nine_lt {j : Nat} {V : ℚ} (h1 : (2 : ℚ) ^ (-801 : Int) ≤ V)
    (h2 : V * 10 ^ j * (1 - 2 ^ (-53 : Int)) ^ j < 2 ^ (53 : Int)) : j < 270 := by
  refine Classical.byContradiction fun hc => ?_
  have hc : 270 ≤ j := by omega
  have h3 : (9 : ℚ) ^ j ≤ 10 ^ j * (1 - 2 ^ (-53 : Int)) ^ j := by
    rw [← mul_pow]
    exact pow_le_pow_left₀ (by norm_num) (by norm_num) _
  have h4 : (9 : ℚ) ^ 270 ≤ 9 ^ j := pow_le_pow_right₀ (by norm_num) hc
  have h5 : (2 : ℚ) ^ (854 : Int) ≤ 9 ^ 270 := by
    have : 2 ^ 854 ≤ 9 ^ 270 := by decide +kernel
    have h : (((2 ^ 854 : Nat)) : ℚ) ≤ ((9 ^ 270 : Nat) : ℚ) := Nat.cast_le.mpr this
    rw [Nat.cast_pow, Nat.cast_pow, ← zpow_natCast] at h
    exact h
  have h6 : (2 : ℚ) ^ (-801 : Int) * 2 ^ (854 : Int) = 2 ^ (53 : Int) := by
    rw [← zpow_add₀ (by norm_num)]; rfl
  have h7 : (2 : ℚ) ^ (-801 : Int) * 2 ^ (854 : Int) ≤ V * (10 ^ j * (1 - 2 ^ (-53 : Int)) ^ j) :=
    mul_le_mul h1 (le_trans h5 (le_trans h4 h3)) (two_zpow_pos _).le (le_trans (two_zpow_pos _).le h1)
  rw [h6, ← mul_assoc] at h7
  exact absurd h2 (not_lt.mpr h7)

theorem value_int {m : Nat} {f : Int} (h : 0 ≤ f) : value m f = ((m * 2 ^ f.toNat : Nat) : ℚ) := by
  rw [value, Nat.cast_mul, cast_pow_toNat h]
  rfl

set_option exponentiation.threshold 3000 in
/-- `Real::new` has a relative error of at most `2^-44` on the numbers between `2^-801` and `2^801`. -/
theorem new_near {s : Bool} {n : Nat} {e : Int} (hv : F64Valid (.fin s n e))
    (h1 : (2 : ℚ) ^ (-801 : Int) ≤ value n e) (h2 : value n e ≤ 2 ^ (801 : Int)) :
    ∃ m f x, Real.new (.fin s n e) = some (.binary (.fin s m f) 10 x 10) ∧ F64Valid (.fin s m f) ∧ m ≠ 0 ∧ 0 ≤ f ∧
      Near (value m f * 10 ^ x) (value n e) (2 ^ (-44 : Int)) ∧ value m f ≤ 2 ^ (801 : Int) ∧ x.natAbs ≤ 300 := by
  have hpos : 0 < value n e := lt_of_lt_of_le (two_zpow_pos _) h1
  have h0 : n ≠ 0 := by rintro rfl; simp [value] at hpos
  have hv' := hv
  rcases hv' with ⟨h3, _⟩ | ⟨ho, h53, hlo, hhi⟩
  · exact absurd h3 h0
  obtain ⟨m, f, k, h3, h4, h5, h6, h7, _⟩ := realNewLoop_ok s 400 n e 0 ho h53 hlo hhi (by omega) (by decide)
  obtain ⟨m', f', i, h8, h9, h10, h11, h12, _, h13⟩ := normalizeLoop_ok s 400 m f (0 - k) h4 h5 h6 h7
    (Nat.lt_trans h5 (Nat.pow_lt_pow_right (by decide) (by decide)))
  have hle : (2 : ℚ) ^ (-1022 : Int) ≤ value n e :=
    le_trans (zpow_le_zpow_right₀ (by norm_num) (by norm_num)) h1
  obtain ⟨m2, f2, j, h14, h15, h16, h17, h18, h19, h20, h21⟩ := newLoop_near s 400 n e 0 _ _ hv h0 hle h3
  injection h14 with _ h22 h23
  subst h22 h23
  have hjk : j = k := by omega
  subst hjk
  have hj : j ≤ 270 := by
    by_cases hj : j = 0
    · omega
    · have := nine_lt h1 (h21 hj)
      omega
  have hb := pow_bounds hj
  have hval : value m f = value m' f' * 10 ^ i := by
    rw [value_int h6, value_int h11, h13, Nat.cast_mul, Nat.cast_pow 10]
    rfl
  have hten : (0 : ℚ) < 10 ^ j := by positivity
  have hshift : value m' f' * 10 ^ (0 - (j : Int) + i) * 10 ^ j = value m f := by
    rw [hval, mul_assoc, ← zpow_natCast, ← zpow_natCast, ← zpow_add₀ (by norm_num),
      show 0 - (j : Int) + i + j = i by omega]
  have hnear : Near (value m' f' * 10 ^ (0 - (j : Int) + i)) (value n e) (2 ^ (-44 : Int)) := by
    refine Near.of_bounds ?_ ?_
    · refine le_of_mul_le_mul_right ?_ hten
      rw [hshift]
      refine le_trans ?_ h19
      rw [mul_right_comm]
      exact mul_le_mul_of_nonneg_left hb.1 (by positivity)
    · refine le_of_mul_le_mul_right ?_ hten
      rw [hshift]
      refine le_trans h20 ?_
      rw [mul_right_comm _ _ ((10 : ℚ) ^ j)]
      exact mul_le_mul_of_nonneg_left hb.2 (by positivity)
  have hm1 : 1 ≤ value m' f' := by
    rw [value_int h11]
    exact_mod_cast Nat.mul_pos (by omega : 0 < m') (Nat.two_pow_pos _)
  have hi1 : (1 : ℚ) ≤ 10 ^ i := one_le_pow₀ (by norm_num)
  have hle1 : value m' f' ≤ value m f := by
    rw [hval]
    exact le_mul_of_one_le_right (by linarith) hi1
  refine ⟨m', f', 0 - j + i, ?_, .inr ⟨h9, h10, by omega, h12⟩, by omega, h11, hnear, ?_, ?_⟩
  · simp only [Real.new]
    rw [if_neg h0, h3]
    simp only
    rw [h8]
  · refine le_trans hle1 ?_
    by_cases hj0 : j = 0
    · subst hj0
      simp only [pow_zero, mul_one] at h20
      exact le_trans h20 h2
    · have h24 := h21 hj0
      have h25 := (pow_bounds (j := j - 1) (by omega)).1
      have h26 : value n e * 10 ^ j ≤ 2 ^ (58 : Int) := by
        have h27 : value n e * 10 ^ (j - 1) * (1 / 2) < 2 ^ (53 : Int) := by
          refine lt_of_le_of_lt ?_ h24
          refine mul_le_mul_of_nonneg_left (le_trans ?_ h25) (by positivity)
          norm_num
        have h28 : (10 : ℚ) ^ j = 10 ^ (j - 1) * 10 := by
          rw [← pow_succ, show j - 1 + 1 = j by omega]
        rw [h28]
        norm_num at h27 ⊢
        linarith
      have h29 : value m f ≤ 2 ^ (59 : Int) := by
        refine le_trans h20 ?_
        have : value n e * 10 ^ j * (1 + 2 ^ (-53 : Int)) ^ j ≤ 2 ^ (58 : Int) * 2 :=
          mul_le_mul h26 (le_trans hb.2 (by norm_num)) (by positivity) (by positivity)
        refine le_trans this ?_
        norm_num
      exact le_trans h29 (zpow_le_zpow_right₀ (by norm_num) (by norm_num))
  · have hup : (0 - (j : Int) + i) ≤ 300 := by
      refine Classical.byContradiction fun hc => ?_
      have h30 : (10 : ℚ) ^ (301 : Int) ≤ 10 ^ (0 - (j : Int) + i) := zpow_le_zpow_right₀ (by norm_num) (by omega)
      have h31 := hnear.bounds.2
      have h32 : (10 : ℚ) ^ (0 - (j : Int) + i) ≤ value m' f' * 10 ^ (0 - (j : Int) + i) :=
        le_mul_of_one_le_left (ten_zpow_pos _).le hm1
      have h33 : value n e * (1 + 2 ^ (-44 : Int)) ≤ 2 ^ (801 : Int) * 2 :=
        mul_le_mul h2 (by norm_num) (by positivity) (two_zpow_pos _).le
      have h34 : (2 : ℚ) ^ (801 : Int) * 2 < 10 ^ (301 : Int) := by
        have : 2 ^ 802 < 10 ^ 301 := by decide +kernel
        have h : (((2 ^ 802 : Nat)) : ℚ) < ((10 ^ 301 : Nat) : ℚ) := Nat.cast_lt.mpr this
        rw [Nat.cast_pow, Nat.cast_pow, ← zpow_natCast, ← zpow_natCast] at h
        rw [← zpow_add_one₀ (by norm_num)]
        exact h
      exact absurd (lt_of_le_of_lt (le_trans h30 (le_trans h32 (le_trans h31 h33))) h34) (lt_irrefl _)
    omega

end F64
end Asn1

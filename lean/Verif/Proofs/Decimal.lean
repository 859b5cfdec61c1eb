import Verif.Spec.Decimal
import Verif.Proofs.FloatNearest
/-!
# Decimal numbers and `f64`: lemmas, and a library that does what is assumed
-/
namespace Asn1
open Spec
namespace F64

/-! ### Numbers on the grid -/

theorem grid_inj {s : Bool} {m m' : Nat} {x x' : Int} (h : F64Valid (.fin s m x)) (h' : F64Valid (.fin s m' x'))
    (hg : grid m x = grid m' x') : m = m' ∧ x = x' := by
  unfold grid at hg
  have hp : ∀ y : Int, 0 < 2 ^ (y + 1074).toNat := fun _ => Nat.two_pow_pos _
  rcases h with ⟨rfl, rfl⟩ | h
  · rcases h' with ⟨rfl, rfl⟩ | h'
    · exact ⟨rfl, rfl⟩
    · rw [Nat.zero_mul] at hg
      rcases Nat.mul_eq_zero.mp hg.symm with h1 | h1
      · omega
      · have := hp x'; omega
  · rcases h' with ⟨rfl, rfl⟩ | h'
    · rw [Nat.zero_mul] at hg
      rcases Nat.mul_eq_zero.mp hg with h1 | h1
      · omega
      · have := hp x; omega
    · exact odd_unique (c := -1074) h.1 h'.1 h.2.2.1 h'.2.2.1 (by simpa using hg)

/-- A number of the format is the only one nearest to itself. -/
theorem nearest_exact {s : Bool} {n m : Nat} {k x : Int} {f : F64} (hf : NearestDecimal s n k f)
    (hv : F64Valid (.fin s m x)) (he : n * 10 ^ k.toNat * 2 ^ 1074 = grid m x * 10 ^ (-k).toNat) :
    f = .fin s m x := by
  obtain ⟨m', x', rfl, hv', hn⟩ := hf
  have h1 := hn m x hv
  rw [he] at h1
  generalize hden : 10 ^ (-k).toNat = den at h1
  have hpos : 0 < den := hden ▸ Nat.pow_pos (by decide)
  have h2 : grid m x * den = grid m' x' * den := by
    generalize grid m x * den = A at h1 ⊢
    generalize grid m' x' * den = B at h1 ⊢
    omega
  obtain ⟨rfl, rfl⟩ := grid_inj hv hv' (Nat.eq_of_mul_eq_mul_right hpos h2)
  rfl

theorem nat_abs_mul (a b d : Nat) :
    (((a * d : Nat) : Int) - ((b * d : Nat) : Int)).natAbs = ((a : Int) - b).natAbs * d := by
  rw [Int.natCast_mul, Int.natCast_mul, ← Int.sub_mul, Int.natAbs_mul, Int.natAbs_natCast]

/-- A number is the only one nearest to what is less than half a last place away from it. (The last place is
`2^L` units of `2^-1074`; for numbers below `2^-1021` it is one unit.) -/
theorem nearest_unique {s : Bool} {n m L : Nat} {k x : Int} {f : F64} (hf : NearestDecimal s n k f)
    (hv : F64Valid (.fin s m x)) (h1 : L = 0 ∨ 2 ^ (52 + L) < grid m x) (h2 : grid m x % 2 ^ L = 0)
    (h3 : 2 * ((n * 10 ^ k.toNat * 2 ^ 1074 : Nat) - (grid m x * 10 ^ (-k).toNat : Nat) : Int).natAbs <
      2 ^ L * 10 ^ (-k).toNat) : f = .fin s m x := by
  obtain ⟨m', x', rfl, hv', hn⟩ := hf
  have h4 := hn m x hv
  generalize hden : 10 ^ (-k).toNat = den at h3 h4
  generalize n * 10 ^ k.toNat * 2 ^ 1074 = V at h3 h4
  have hpos : 0 < den := hden ▸ Nat.pow_pos (by decide)
  -- the two are less than a last place apart
  have h5 : ((grid m x : Int) - grid m' x').natAbs < 2 ^ L := by
    have h6 := nat_abs_mul (grid m x) (grid m' x') den
    have h7 : ((grid m x : Int) - grid m' x').natAbs * den < 2 ^ L * den := by
      rw [← h6]
      generalize grid m x * den = A at h3 h4 h6 ⊢
      generalize grid m' x' * den = B at h4 h6 ⊢
      generalize 2 ^ L * den = C at h3 ⊢
      omega
    exact Nat.lt_of_mul_lt_mul_right h7
  have hL : 0 < 2 ^ L := Nat.two_pow_pos L
  have hM : 2 ^ (52 + L) % 2 ^ L = 0 := by rw [Nat.pow_add]; exact Nat.mul_mod_left _ _
  -- so the other one is a multiple of it, too
  have h6 : grid m' x' % 2 ^ L = 0 := by
    rcases h1 with rfl | h1
    · exact Nat.mod_one _
    have h7 : 2 ^ (52 + L) ≤ grid m' x' := by
      obtain ⟨a, ha⟩ := Nat.dvd_of_mod_eq_zero h2
      obtain ⟨b, hb⟩ := Nat.dvd_of_mod_eq_zero hM
      rw [ha, hb] at h1
      have hlt : b < a := Nat.lt_of_mul_lt_mul_left h1
      have h8 : 2 ^ L * (b + 1) ≤ 2 ^ L * a := Nat.mul_le_mul_left _ hlt
      rw [Nat.mul_succ] at h8
      rw [ha] at h5
      rw [hb]
      omega
    have h8 : L ≤ (x' + 1074).toNat := by
      refine Classical.byContradiction fun hc => ?_
      have h9 : grid m' x' < 2 ^ (52 + L) := by
        rcases hv' with ⟨rfl, rfl⟩ | hv'
        · unfold grid; rw [Nat.zero_mul]; exact Nat.two_pow_pos _
        · unfold grid
          refine Nat.lt_of_lt_of_le (Nat.mul_lt_mul_of_pos_right hv'.2.1 (Nat.two_pow_pos _)) ?_
          rw [← Nat.pow_add]
          exact Nat.pow_le_pow_right (by decide) (by omega)
      omega
    unfold grid
    obtain ⟨j, hj⟩ := Nat.exists_eq_add_of_le h8
    rw [hj, Nat.pow_add, ← Nat.mul_assoc, Nat.mul_right_comm]
    exact Nat.mul_mod_left _ _
  have h7 : grid m x = grid m' x' := by
    obtain ⟨a, ha⟩ := Nat.dvd_of_mod_eq_zero h2
    obtain ⟨b, hb⟩ := Nat.dvd_of_mod_eq_zero h6
    rw [ha, hb] at h5 ⊢
    have h8 := nat_abs_mul a b (2 ^ L)
    rw [Nat.mul_comm a, Nat.mul_comm b] at h8
    rw [h8] at h5
    have h9 : ((a : Int) - b).natAbs < 1 := Nat.lt_of_mul_lt_mul_right (by rw [Nat.one_mul]; exact h5)
    have : a = b := by omega
    rw [this]
  obtain ⟨rfl, rfl⟩ := grid_inj hv hv' h7
  rfl

theorem odd_part {n : Nat} (h : n ≠ 0) : ∃ a j, n = a * 2 ^ j ∧ a % 2 = 1 := by
  induction n using Nat.strongRecOn with
  | _ n ih =>
    by_cases hn : n % 2 = 1
    · exact ⟨n, 0, by simp, hn⟩
    · obtain ⟨a, j, h1, h2⟩ := ih (n / 2) (by omega) (by omega)
      exact ⟨a, j + 1, by rw [Nat.pow_succ, ← Nat.mul_assoc, ← h1]; omega, h2⟩

/-- A product that is a number of the format is not rounded. -/
theorem round_same {s : Bool} {n N : Nat} {e E c : Int} (hv : F64Valid (.fin s n e)) (h0 : n ≠ 0) (h1 : c ≤ e)
    (h2 : c ≤ E) (h : N * 2 ^ (E - c).toNat = n * 2 ^ (e - c).toNat) : round s N E = .fin s n e := by
  rcases hv with ⟨rfl, _⟩ | ⟨ho, h53, hlo, hhi⟩
  · exact absurd rfl h0
  · have hN : N ≠ 0 := by
      rintro rfl
      rw [Nat.zero_mul] at h
      have := Nat.two_pow_pos (e - c).toNat
      rcases Nat.mul_eq_zero.mp h.symm with h | h <;> omega
    obtain ⟨a, j, rfl, ha⟩ := odd_part hN
    have h3 : a * 2 ^ ((E + j) - c).toNat = n * 2 ^ (e - c).toNat := by
      rw [← h, Nat.mul_assoc, ← Nat.pow_add]
      congr 2
      omega
    obtain ⟨rfl, hE⟩ := odd_unique (c := c) ha ho (by omega) h1 h3
    rw [round_shift s j E (by omega), hE, round_odd s ho h53 hlo hhi]

/-! ### A library -/

/-- `±n * 10^k` rounded to `f64`: 1076 binary places, and one more for what is cut off. -/
def ofDecimal (s : Bool) (n : Nat) (k : Int) : F64 :=
  round s (2 * (n * 10 ^ k.toNat * 2 ^ 1076 / 10 ^ (-k).toNat) +
    (if n * 10 ^ k.toNat * 2 ^ 1076 % 10 ^ (-k).toNat = 0 then 0 else 1)) (-1077)

/-- Comparing distances from a cut number, and from the number. -/
theorem cut_nearest {A d a b : Nat} (hd : 0 < d)
    (h : (((2 * (A / d) + (if A % d = 0 then 0 else 1) : Nat) : Int) - (a * 8 : Nat)).natAbs ≤
      (((2 * (A / d) + (if A % d = 0 then 0 else 1) : Nat) : Int) - (b * 8 : Nat)).natAbs) :
    (((2 * A : Nat) : Int) - (8 * (a * d) : Nat)).natAbs ≤ (((2 * A : Nat) : Int) - (8 * (b * d) : Nat)).natAbs := by
  have h1 := Nat.div_add_mod A d
  have h2 := Nat.mod_lt A hd
  generalize A / d = q at h h1
  generalize A % d = r at h h1 h2
  rcases Nat.lt_trichotomy a b with hab | rfl | hab
  · have h3 : a * d ≤ b * d := Nat.mul_le_mul_right _ (Nat.le_of_lt hab)
    have h4 : 2 * A ≤ 4 * (a * d) + 4 * (b * d) := by
      by_cases hr : r = 0
      · rw [if_pos hr] at h
        have h5 : q ≤ 2 * a + 2 * b := by omega
        have h6 : q * d ≤ (2 * a + 2 * b) * d := Nat.mul_le_mul_right _ h5
        rw [Nat.add_mul, Nat.mul_assoc, Nat.mul_assoc, Nat.mul_comm q] at h6
        omega
      · rw [if_neg hr] at h
        have h5 : q + 1 ≤ 2 * a + 2 * b := by omega
        have h6 : (q + 1) * d ≤ (2 * a + 2 * b) * d := Nat.mul_le_mul_right _ h5
        rw [Nat.add_mul, Nat.add_mul, Nat.mul_assoc, Nat.mul_assoc, Nat.mul_comm q] at h6
        omega
    omega
  · exact Nat.le_refl _
  · have h3 : b * d ≤ a * d := Nat.mul_le_mul_right _ (Nat.le_of_lt hab)
    have h4 : 4 * (a * d) + 4 * (b * d) ≤ 2 * A := by
      have h5 : 2 * a + 2 * b ≤ q := by
        split at h <;> omega
      have h6 : (2 * a + 2 * b) * d ≤ q * d := Nat.mul_le_mul_right _ h5
      rw [Nat.add_mul, Nat.mul_assoc, Nat.mul_assoc, Nat.mul_comm q] at h6
      omega
    omega

theorem eighths (num : Nat) : 2 * (num * 2 ^ 1076) = 8 * (num * 2 ^ 1074) := by
  have h : ∀ w : Nat, 2 * (num * (w * 2 ^ 2)) = 8 * (num * w) := by
    intro w
    rw [← Nat.mul_assoc num]
    omega
  have h2 : (2 : Nat) ^ 1076 = 2 ^ 1074 * 2 ^ 2 := by decide +kernel
  rw [h2]
  exact h _

set_option linter.constructorNameAsVariable false in
set_option exponentiation.threshold 3000 in
theorem ofDecimal_nearest {s : Bool} {n : Nat} {k : Int} (h : n * 10 ^ k.toNat < 2 ^ 1023 * 10 ^ (-k).toNat) :
    NearestDecimal s n k (ofDecimal s n k) := by
  have hpos : 0 < 10 ^ (-k).toNat := Nat.pow_pos (by decide)
  have hv := round_valid s (2 * (n * 10 ^ k.toNat * 2 ^ 1076 / 10 ^ (-k).toNat) +
    (if n * 10 ^ k.toNat * 2 ^ 1076 % 10 ^ (-k).toNat = 0 then 0 else 1)) (-1077)
  unfold NearestDecimal ofDecimal
  generalize n * 10 ^ k.toNat = num at h hv ⊢
  generalize 10 ^ (-k).toNat = den at h hv hpos ⊢
  have h2 : ∀ y : Int, -1074 ≤ y → (y - -1077).toNat = (y + 1074).toNat + 3 := by intro y hy; omega
  cases hr : round s (2 * (num * 2 ^ 1076 / den) + (if num * 2 ^ 1076 % den = 0 then 0 else 1)) (-1077) with
  | nan => exact absurd hr (round_ne_nan _ _ _)
  | inf t =>
    exfalso
    have h3 := ((round_inf (c := -1077) (by decide) (by decide)).mp hr).2
    have h4 : num * 2 ^ 1076 / den < 2 ^ 1023 * 2 ^ 1076 := by
      rw [Nat.div_lt_iff_lt_mul hpos, Nat.mul_right_comm]
      exact Nat.mul_lt_mul_of_pos_right h (Nat.two_pow_pos _)
    generalize num * 2 ^ 1076 / den = q at h3 h4
    have h5 : 2 * q + (if num * 2 ^ 1076 % den = 0 then 0 else 1) < 2 * (2 ^ 1023 * 2 ^ 1076) := by
      split <;> omega
    refine absurd (Nat.lt_of_le_of_lt h3 (Nat.lt_of_lt_of_le ?_ (?_ : 2 * (2 ^ 1023 * 2 ^ 1076) ≤ (2 ^ 54 - 1) * 2 ^ (970 - -1077 : Int).toNat))) (Nat.lt_irrefl _)
    · rw [show ((-1077 : Int) - -1077).toNat = 0 from rfl, Nat.pow_zero, Nat.mul_one]
      exact h5
    · decide +kernel
  | fin t m x =>
    rw [hr] at hv
    obtain ⟨h3, _⟩ := round_nearest (c := -1077) (n' := 0) (e' := 0) hr (.inl ⟨rfl, rfl⟩) (by decide)
      (by rcases hv with ⟨_, rfl⟩ | hv <;> omega) (by decide)
    subst h3
    refine ⟨m, x, rfl, hv, fun m' x' hv' => ?_⟩
    have hx : -1074 ≤ x := by rcases hv with ⟨_, rfl⟩ | hv <;> omega
    have hx' : -1074 ≤ x' := by rcases hv' with ⟨_, rfl⟩ | hv' <;> omega
    obtain ⟨_, h4, _⟩ := round_nearest (c := -1077) hr
      (by rcases hv' with hv' | hv'; exact .inl hv'; exact .inr ⟨hv'.1, hv'.2.1, hv'.2.2.1⟩)
      (by decide) (by omega) (by omega : -1077 ≤ x')
    rw [h2 x hx, h2 x' hx', show ((-1077 : Int) - -1077).toNat = 0 from rfl, Nat.pow_zero, Nat.mul_one, Nat.pow_add,
      Nat.pow_add, ← Nat.mul_assoc, ← Nat.mul_assoc] at h4
    have h5 := cut_nearest (a := grid m x) (b := grid m' x') hpos h4
    have h6 := eighths num
    rw [h6] at h5
    generalize num * 2 ^ 1074 = V at h5 ⊢
    generalize grid m x * den = X at h5 ⊢
    generalize grid m' x' * den = Y at h5 ⊢
    omega

end F64
end Asn1

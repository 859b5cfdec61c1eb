import Verif.Props.Real32
import Verif.Props.OidText
import Verif.Proofs.DecimalRat
/-!
# `f64` and `f32` through decimal REALs (C122, C96)

Under the assumptions of `Honest` on Rust's library: which numbers survive, and what happens to the others.
-/
namespace Asn1
open Spec

set_option exponentiation.threshold 3000

/-! ### Texts -/

theorem digits_two_pow {n : Nat} {t : Bytes} (h : Digits n t) (h0 : 0 < n) : 2 ^ (t.length - 1) ≤ n := by
  induction h with
  | one n _ => simpa using Nat.succ_le_of_lt h0
  | more n d t hn _ hd ih =>
    have h1 := ih hn
    have h2 := List.length_pos_iff.mpr (digits_bytes hd).1
    rw [List.length_append, List.length_singleton, Nat.add_sub_cancel]
    have h3 : 2 ^ t.length = 2 ^ (t.length - 1) * 2 := by rw [← Nat.pow_succ]; congr 1; omega
    rw [h3]
    generalize 2 ^ (t.length - 1) = w at *
    omega

theorem digits_length {n p : Nat} {t : Bytes} (h : Digits n t) (h1 : n < 2 ^ p) : t.length ≤ p + 1 := by
  rcases Nat.eq_zero_or_pos n with h0 | h0
  · subst h0
    generalize hz : 0 = z at h
    cases h with
    | one n _ => simp
    | more n d t hn _ _ => omega
  · have h2 := Nat.lt_of_le_of_lt (digits_two_pow h h0) h1
    have := (Nat.pow_lt_pow_iff_right (by decide : 1 < 2)).mp h2
    omega

theorem digits_ascii {n : Nat} {t : Bytes} (h : Digits n t) : ∀ b ∈ t, b.toNat < 0x80 := fun b hb => by
  have := (digits_bytes h).2 b hb
  omega

/-- The text after the first octet, from the digits of the mantissa. -/
theorem decimal_text {lib : FloatLib} {s : Bool} {N : Nat} {ds : Bytes} {m : F64} (x : Int) (hd : Digits N ds)
    (hm : lib.display m = (if s then [0x2d] else []) ++ ds) :
    ∃ text, realDecimalText lib m x = 3 :: text ∧ DecimalText text s N x ∧ (∀ b ∈ text, b.toNat < 0x80) ∧
      text.length ≤ ds.length + (decimal x.natAbs).length + 3 := by
  have hx := decimal_digits x.natAbs
  have hs : ∀ b ∈ (if s then [0x2d] else [] : Bytes), b.toNat < 0x80 := by cases s <;> simp
  have hsl : (if s then [0x2d] else [] : Bytes).length ≤ 1 := by cases s <;> simp
  have hasc := digits_ascii hd
  have hasx := digits_ascii hx
  rcases Int.lt_trichotomy x 0 with h | rfl | h
  · refine ⟨(if s then [0x2d] else []) ++ ds ++ 0x45 :: 0x2d :: decimal x.natAbs, ?_, ?_, ?_, ?_⟩
    · rw [realDecimalText, hm, showI32, if_neg (show ¬ x = 0 by omega), if_pos h]
      simp
    · have := DecimalText.minus s hd hx
      rwa [show -(x.natAbs : Int) = x by omega] at this
    · intro b hb
      simp only [List.mem_append, List.mem_cons] at hb
      rcases hb with (hb | hb) | rfl | rfl | hb
      · exact hs b hb
      · exact hasc b hb
      · decide
      · decide
      · exact hasx b hb
    · simp only [List.length_append, List.length_cons]; omega
  · refine ⟨(if s then [0x2d] else []) ++ ds ++ 0x45 :: 0x2b :: decimal 0, ?_, ?_, ?_, ?_⟩
    · rw [realDecimalText, hm, showI32, if_pos rfl, if_neg (show ¬ (0 : Int) < 0 by omega)]
      simp
    · exact DecimalText.plus s hd hx
    · intro b hb
      simp only [List.mem_append, List.mem_cons] at hb
      rcases hb with (hb | hb) | rfl | rfl | hb
      · exact hs b hb
      · exact hasc b hb
      · decide
      · decide
      · exact hasx b hb
    · simp only [List.length_append, List.length_cons, Int.natAbs_zero]; omega
  · refine ⟨(if s then [0x2d] else []) ++ ds ++ 0x45 :: decimal x.natAbs, ?_, ?_, ?_, ?_⟩
    · rw [realDecimalText, hm, showI32, if_neg (show ¬ x = 0 by omega), if_neg (show ¬ x < 0 by omega)]
      simp
    · have := DecimalText.plain s hd hx
      rwa [show (x.natAbs : Int) = x by omega] at this
    · intro b hb
      simp only [List.mem_append, List.mem_cons] at hb
      rcases hb with (hb | hb) | rfl | hb
      · exact hs b hb
      · exact hasc b hb
      · decide
      · exact hasx b hb
    · simp only [List.length_append, List.length_cons]; omega

set_option exponentiation.threshold 3000 in
/-- Encoding a decimal REAL and decoding it: the nearest number to the digits, and `Real::new` of that. -/
theorem decimal_back {lib : FloatLib} (hl : Honest lib) {s : Bool} {m : Nat} {f x : Int} {b : Nat}
    (hv : F64Valid (.fin s m f)) (h0 : 0 ≤ f) (hm : F64.value m f ≤ 2 ^ (801 : Int)) (hx : x.natAbs < 2 ^ 32) :
    ∃ N, NearestDecimal s N 0 (.fin s m f) ∧ N < 2 ^ 1023 ∧
      (N * 10 ^ x.toNat < 2 ^ 1023 * 10 ^ (-x).toNat → ∃ g, NearestDecimal s N x g ∧
        ∀ v, Real.new g = some v → RealBack lib (.binary (.fin s m f) 10 x b) v) := by
  obtain ⟨N, ds, hd, hdisp, hn⟩ := hl.display hv h0
  have hN : N < 2 ^ 1023 := by
    refine Classical.byContradiction fun hc => ?_
    have hc : 2 ^ 1023 ≤ N := by omega
    have h1 := F64.nearest_value hn (m' := 1) (x' := 1022) (.inr ⟨by decide, by decide, by decide, by decide +kernel⟩)
    have h2 : ((2 ^ 1023 : Nat) : ℚ) ≤ N := Nat.cast_le.mpr hc
    rw [Nat.cast_pow, ← zpow_natCast] at h2
    have h3 : F64.value 1 1022 = 2 ^ (1022 : Int) := by simp [F64.value]
    rw [h3, zpow_zero, mul_one] at h1
    have h4 : (2 : ℚ) ^ (801 : Int) < 2 ^ (1022 : Int) := zpow_lt_zpow_right₀ (by norm_num) (by norm_num)
    have h5 : (2 : ℚ) ^ (1022 : Int) < 2 ^ ((1023 : Nat) : Int) := zpow_lt_zpow_right₀ (by norm_num) (by norm_num)
    simp only [Nat.cast_ofNat] at h2 h5
    generalize (2 : ℚ) ^ (801 : Int) = a at *
    generalize (2 : ℚ) ^ (1022 : Int) = b at *
    generalize (2 : ℚ) ^ (1023 : Int) = c at *
    rw [abs_of_nonneg (by linarith), abs_of_nonneg (by linarith)] at h1
    linarith
  refine ⟨N, hn, hN, fun hb => ?_⟩
  obtain ⟨text, h1, h2, h3, h4⟩ := decimal_text x hd hdisp
  obtain ⟨g, h5, h6⟩ := hl.parse h2 hb
  refine ⟨g, h6, fun v h7 => ?_⟩
  have he := realWrite_decimal lib (.fin s m f) x b
  have hc : RealContent lib (3 :: text) v := by
    obtain ⟨t, ht⟩ := fromUtf8_ascii text h3
    exact .nr23 (by decide) (.inr rfl) ⟨t, fromUtf8_iff.mp ht⟩ h5 h7
  have h8 := digits_length hd hN
  have h9 := digits_length (decimal_digits x.natAbs) hx
  refine real_back lib he ?_ (h1 ▸ hc)
  rw [h1, List.length_cons]
  omega

/-- The four decoders of `f64` give `g` for the encoding of `f`. -/
def F64Back (lib : FloatLib) (f g : F64) : Prop :=
  ParseBerBack (f64ToBer lib) (f64P lib) f g ∧ FromBerBack (f64ToBer lib) (f64P lib) f g ∧
  ParseDerBack (f64ToBer lib) (f64P lib) f g ∧ FromDerBack (f64ToBer lib) (f64P lib) realCheck f g

theorem f64_back {lib : FloatLib} {f : F64} {v v' : Real} (hn : Real.new f = some v) (h : RealBack lib v v') :
    F64Back lib f (v'.f64 lib) := by
  obtain ⟨⟨bs, h1, h2⟩, ⟨bs', h3, h4⟩, ⟨bs'', h5, h6⟩, ⟨bs''', h7, h8⟩⟩ := h
  have hw : ∀ bs, (realToBer lib).toVec v = .ok bs → (f64ToBer lib).toVec f = .ok bs := by
    intro bs h
    rw [← h]
    unfold ToBer.toVec ToBer.encode ToBer.writeHeader
    simp only [f64ToBer, realToBer, hn]
  refine ⟨⟨bs, hw bs h1, fun rest i hi => ?_⟩, ⟨bs', hw _ h3, fun rest => ?_⟩,
    ⟨bs'', hw _ h5, fun rest i hi => ?_⟩, ⟨bs''', hw _ h7, fun rest => ?_⟩⟩
  · exact map_parseBer.mpr ⟨v', h2 rest i hi, rfl⟩
  · exact map_fromBer.mpr ⟨v', h4 rest, rfl⟩
  · exact map_parseDer.mpr ⟨v', h6 rest i hi, rfl⟩
  · exact map_fromDer.mpr ⟨v', h8 rest, rfl⟩

theorem f32_back {lib : FloatLib} {f : F64} {v v' : Real} (hn : Real.new f = some v) (h : RealBack lib v v') :
    F32Back lib f (v'.f64 lib).toF32 := by
  obtain ⟨⟨bs, h1, h2⟩, ⟨bs', h3, h4⟩, ⟨bs'', h5, h6⟩, ⟨bs''', h7, h8⟩⟩ := h
  have hw : ∀ bs, (realToBer lib).toVec v = .ok bs → (f32ToBer lib).toVec f = .ok bs := by
    intro bs h
    rw [← h]
    have hn' : Real.ofF32 f = some v := hn
    unfold ToBer.toVec ToBer.encode ToBer.writeHeader
    simp only [f32ToBer, realToBer, hn']
  refine ⟨⟨bs, hw bs h1, fun rest i hi => ?_⟩, ⟨bs', hw _ h3, fun rest => ?_⟩,
    ⟨bs'', hw _ h5, fun rest i hi => ?_⟩, ⟨bs''', hw _ h7, fun rest => ?_⟩⟩
  · exact map_parseBer.mpr ⟨v', h2 rest i hi, rfl⟩
  · exact map_fromBer.mpr ⟨v', h4 rest, rfl⟩
  · exact map_parseDer.mpr ⟨v', h6 rest i hi, rfl⟩
  · exact map_fromDer.mpr ⟨v', h8 rest, rfl⟩

/-! ### Relative errors -/

open F64 in
theorem within_of_near {s : Bool} {n n' p : Nat} {e e' : Int}
    (h : Near (value n e) (value n' e') (2 ^ (-(p : Int)))) : Within p (.fin s n e) (.fin s n' e') := by
  refine ⟨s, n, e, n', e', rfl, rfl, fun c h1 h2 => ?_⟩
  rw [units_dist, units_abs]
  refine (Nat.cast_le (α := ℚ)).mp ?_
  have hc := two_zpow_pos (-c)
  rw [Nat.cast_mul, cast_dist, value_units h1, value_units h2, ← sub_mul, abs_mul, abs_of_pos hc, Nat.cast_pow,
    ← zpow_natCast, Nat.cast_ofNat]
  have hp := two_zpow_pos p
  have h3 := mul_le_mul_of_nonneg_right h hp.le
  rw [mul_assoc, ← zpow_add₀ (by norm_num), neg_add_cancel, zpow_zero, mul_one] at h3
  have h4 := mul_le_mul_of_nonneg_right h3 hc.le
  rwa [mul_right_comm] at h4

open F64 in
theorem powi_near {lib : FloatLib} (hl : Honest lib) {k : Int} (hk : k.natAbs ≤ 300) :
    ∃ m x, lib.powi 10 k = .fin false m x ∧ F64Valid (.fin false m x) ∧
      Near (value m x) (10 ^ k) (2 ^ (-40 : Int)) := by
  obtain ⟨m, x, h1, h2, h3⟩ := hl.powi_close k hk
  refine ⟨m, x, h1, h2, ?_⟩
  have h4 : ((_ : Nat) : ℚ) ≤ _ := Nat.cast_le.mpr h3
  have h5 := decimal_dist (n := 1) (m := m) (k := k) (valid_exp h2)
  have h6 := ten_split 1 k
  rw [Nat.one_mul, Nat.cast_one, one_mul] at h5 h6
  rw [Nat.cast_mul, h5, Nat.cast_mul, h6, Nat.cast_pow 2 40, Nat.cast_pow 2 1074, Nat.cast_ofNat, ← zpow_natCast,
    ← zpow_natCast] at h4
  have hd : (0 : ℚ) < ((10 ^ (-k).toNat : Nat) : ℚ) := Nat.cast_pos.mpr (Nat.pow_pos (by decide))
  have hw := two_zpow_pos 1074
  simp only [Nat.cast_ofNat] at h4
  generalize ((10 ^ (-k).toNat : Nat) : ℚ) = d at *
  generalize (2 : ℚ) ^ (1074 : Int) = w at *
  unfold Near
  rw [abs_sub_comm]
  have h7 : |(10 : ℚ) ^ k - value m x| * 2 ^ (40 : Int) * (w * d) ≤ 10 ^ k * (w * d) := by linarith
  have h8 := le_of_mul_le_mul_right h7 (mul_pos hw hd)
  have h9 := mul_le_mul_of_nonneg_right h8 (two_zpow_pos (-40)).le
  rwa [mul_assoc, ← zpow_add₀ (by norm_num), show (40 : Int) + -40 = 0 by decide, zpow_zero, mul_one] at h9

open F64 in
/-- A decimal REAL as `f64`. -/
theorem decimal_f64 {lib : FloatLib} (hl : Honest lib) {s : Bool} {m b : Nat} {f x : Int} {V ε : ℚ}
    (hx : x.natAbs ≤ 300) (h : Near (value m f * 10 ^ x) V ε) (h0 : 0 ≤ V) (hε : ε ≤ 2 ^ (-41 : Int))
    (h1 : (2 : ℚ) ^ (-900 : Int) ≤ V) (h2 : V ≤ 2 ^ (900 : Int)) :
    ∃ n e, (Real.binary (.fin s m f) 10 x b).f64 lib = .fin s n e ∧ F64Valid (.fin s n e) ∧
      Near (value n e) V (2 ^ (-38 : Int)) := by
  obtain ⟨pm, px, h3, h4, h5⟩ := powi_near hl hx
  have hprod : value (m * pm) (f + px) = value pm px * value m f := by
    rw [value, value, value, Nat.cast_mul, zpow_add₀ (by norm_num)]
    ring
  have hmv : (0 : ℚ) ≤ value m f := mul_nonneg (Nat.cast_nonneg _) (two_zpow_pos _).le
  have h6 : Near (value (m * pm) (f + px)) V (2 ^ (-39 : Int)) := by
    rw [hprod]
    have h7 := h5.mul hmv
    rw [mul_comm ((10 : ℚ) ^ x)] at h7
    refine (h7.trans h (two_zpow_pos _).le).mono h0 ?_
    norm_num at hε ⊢
    linarith
  have h7 := h6.bounds
  have h8 : (2 : ℚ) ^ (-1022 : Int) ≤ value (m * pm) (f + px) := by
    refine le_trans ?_ h7.1
    have h9 : (2 : ℚ) ^ (-900 : Int) * 2 ^ (-1 : Int) ≤ V * (1 - 2 ^ (-39 : Int)) :=
      mul_le_mul h1 (by norm_num) (two_zpow_pos _).le h0
    rw [← zpow_add₀ (by norm_num)] at h9
    exact le_trans (zpow_le_zpow_right₀ (by norm_num) (by norm_num)) h9
  have h9 : value (m * pm) (f + px) < 2 ^ (1023 : Int) := by
    refine lt_of_le_of_lt h7.2 ?_
    have h10 : V * (1 + 2 ^ (-39 : Int)) ≤ 2 ^ (900 : Int) * 2 ^ (1 : Int) :=
      mul_le_mul h2 (by norm_num) (by positivity) (two_zpow_pos _).le
    rw [← zpow_add₀ (by norm_num)] at h10
    exact lt_of_le_of_lt h10 (zpow_lt_zpow_right₀ (by norm_num) (by norm_num))
  obtain ⟨n, e, h10, h11, h12⟩ := round_near s h8 h9
  refine ⟨n, e, ?_, h11, ?_⟩
  · rw [Real.f64, if_neg (by decide), h3, F64.mul, Bool.bne_false, h10]
  · refine (h12.trans h6 (two_zpow_pos _).le).mono h0 ?_
    norm_num

theorem small_square {u : ℚ} (h0 : 0 < u) (h1 : u ≤ 1 / 4) : 1 - u - 2 * u * u ≤ 1 ∧ 1 ≤ 1 + u - 2 * u * u := by
  constructor <;> nlinarith

open F64 in
/-- Encoding a number between `2^-800` and `2^800` as REAL, and decoding it. -/
theorem f64_near {lib : FloatLib} (hl : Honest lib) {s : Bool} {n : Nat} {e : Int} (hv : F64Valid (.fin s n e))
    (h1 : (2 : ℚ) ^ (-800 : Int) ≤ value n e) (h2 : value n e ≤ 2 ^ (800 : Int)) :
    ∃ v v' n' e', Real.new (.fin s n e) = some v ∧ RealBack lib v v' ∧ v'.f64 lib = .fin s n' e' ∧
      F64Valid (.fin s n' e') ∧ Near (value n' e') (value n e) (2 ^ (-38 : Int)) := by
  have hp : ∀ {a b : Int}, a ≤ b → (2 : ℚ) ^ a ≤ 2 ^ b := fun h => zpow_le_zpow_right₀ (by norm_num) h
  have hV : 0 < value n e := lt_of_lt_of_le (two_zpow_pos _) h1
  obtain ⟨m, f, x, h3, h4, h5, h6, h7, h8, h9⟩ := new_near hv (le_trans (hp (by norm_num)) h1)
    (le_trans h2 (hp (by norm_num)))
  obtain ⟨N, h10, h11, h12⟩ := decimal_back hl (x := x) (b := 10) h4 h6 h8 (by omega)
  have hm1 : 1 ≤ value m f := by
    rw [value_int h6]
    exact_mod_cast Nat.mul_pos (by omega : 0 < m) (Nat.two_pow_pos _)
  have hN0 : N ≠ 0 := by
    rintro rfl
    have h13 := nearest_value h10 (m' := 0) (x' := 0) (.inl ⟨rfl, rfl⟩)
    simp only [Nat.cast_zero, zero_mul, zero_sub, abs_neg] at h13
    rw [show value 0 0 = 0 by simp [value], abs_zero, abs_of_pos (by linarith)] at h13
    linarith
  have hNc : (N : ℚ) < 2 ^ (1023 : Int) := by
    have : ((N : Nat) : ℚ) < ((2 ^ 1023 : Nat) : ℚ) := Nat.cast_lt.mpr h11
    rwa [Nat.cast_pow, ← zpow_natCast] at this
  have hN1 : (1 : ℚ) ≤ N := by exact_mod_cast Nat.pos_of_ne_zero hN0
  obtain ⟨m0, f0, h13, _, h14⟩ := decimal_near h10
    (by rw [zpow_zero, mul_one]; exact le_trans (zpow_le_one_of_nonpos₀ (by norm_num) (by norm_num)) hN1)
    (by rw [zpow_zero, mul_one]; exact hNc)
  injection h13 with _ h15 h16
  subst h15 h16
  rw [zpow_zero, mul_one] at h14
  -- the digits
  have h17 : Near N (value m f) (2 ^ (-52 : Int)) := by
    have h18 := h14.bounds
    have hu : (2 : ℚ) ^ (-52 : Int) = 2 * 2 ^ (-53 : Int) := by norm_num
    have hu1 : (2 : ℚ) ^ (-53 : Int) ≤ 1 / 4 := by norm_num
    have hu0 := two_zpow_pos (-53)
    rw [hu]
    generalize (2 : ℚ) ^ (-53 : Int) = u at *
    refine Near.of_bounds ?_ ?_
    · calc value m f * (1 - 2 * u) ≤ N * (1 + u) * (1 - 2 * u) :=
            mul_le_mul_of_nonneg_right h18.2 (by linarith)
        _ = N * (1 - u - 2 * u * u) := by ring
        _ ≤ N * 1 := mul_le_mul_of_nonneg_left (small_square hu0 hu1).1 (by linarith)
        _ = N := mul_one _
    · calc (N : ℚ) = N * 1 := (mul_one _).symm
        _ ≤ N * (1 + u - 2 * u * u) := mul_le_mul_of_nonneg_left (small_square hu0 hu1).2 (by linarith)
        _ = N * (1 - u) * (1 + 2 * u) := by ring
        _ ≤ value m f * (1 + 2 * u) := mul_le_mul_of_nonneg_right h18.1 (by linarith)
  have h18 : Near (N * 10 ^ x) (value n e) (2 ^ (-43 : Int)) := by
    refine ((h17.mul (ten_zpow_pos x).le).trans h7 (two_zpow_pos _).le).mono hV.le ?_
    norm_num
  have h19 := h18.bounds
  have hlo : (2 : ℚ) ^ (-801 : Int) ≤ N * 10 ^ x := by
    refine le_trans ?_ h19.1
    have h20 : (2 : ℚ) ^ (-800 : Int) * 2 ^ (-1 : Int) ≤ value n e * (1 - 2 ^ (-43 : Int)) :=
      mul_le_mul h1 (by norm_num) (two_zpow_pos _).le hV.le
    rwa [← zpow_add₀ (by norm_num)] at h20
  have hhi : (N : ℚ) * 10 ^ x ≤ 2 ^ (801 : Int) := by
    refine le_trans h19.2 ?_
    have h20 : value n e * (1 + 2 ^ (-43 : Int)) ≤ 2 ^ (800 : Int) * 2 ^ (1 : Int) :=
      mul_le_mul h2 (by norm_num) (by positivity) (two_zpow_pos _).le
    rwa [← zpow_add₀ (by norm_num)] at h20
  have hhi' : (N : ℚ) * 10 ^ x < 2 ^ (1023 : Int) :=
    lt_of_le_of_lt hhi (zpow_lt_zpow_right₀ (by norm_num) (by norm_num))
  have hbound : N * 10 ^ x.toNat < 2 ^ 1023 * 10 ^ (-x).toNat := by
    refine (Nat.cast_lt (α := ℚ)).mp ?_
    rw [ten_split, Nat.cast_mul, Nat.cast_pow 2, ← zpow_natCast, Nat.cast_ofNat]
    refine mul_lt_mul_of_pos_right hhi' ?_
    exact Nat.cast_pos.mpr (Nat.pow_pos (by decide))
  obtain ⟨g, h20, h21⟩ := h12 hbound
  obtain ⟨m', x', rfl, h22, h23⟩ := decimal_near h20 (le_trans (hp (by norm_num)) hlo) hhi'
  have h24 : Near (value m' x') (value n e) (2 ^ (-42 : Int)) := by
    refine (h23.trans h18 (two_zpow_pos _).le).mono hV.le ?_
    norm_num
  have h25 := h24.bounds
  obtain ⟨m2, f2, x2, h26, h27, h28, h29, h30, h31, h32⟩ := new_near h22 (by
      refine le_trans ?_ h25.1
      have h20 : (2 : ℚ) ^ (-800 : Int) * 2 ^ (-1 : Int) ≤ value n e * (1 - 2 ^ (-42 : Int)) :=
        mul_le_mul h1 (by norm_num) (two_zpow_pos _).le hV.le
      rwa [← zpow_add₀ (by norm_num)] at h20) (by
      refine le_trans h25.2 ?_
      have h20 : value n e * (1 + 2 ^ (-42 : Int)) ≤ 2 ^ (800 : Int) * 2 ^ (1 : Int) :=
        mul_le_mul h2 (by norm_num) (by positivity) (two_zpow_pos _).le
      rwa [← zpow_add₀ (by norm_num)] at h20)
  have h33 : Near (value m2 f2 * 10 ^ x2) (value n e) (2 ^ (-41 : Int)) := by
    refine (h30.trans h24 (two_zpow_pos _).le).mono hV.le ?_
    norm_num
  obtain ⟨n', e', h34, h35, h36⟩ := decimal_f64 hl (b := 10) (s := s) h32 h33 hV.le le_rfl
    (le_trans (hp (by norm_num)) h1) (le_trans h2 (hp (by norm_num)))
  exact ⟨_, _, n', e', h3, h21 _ h26, h34, h35, h36⟩

/-! ### Numbers come back to 38 bits -/

theorem normal_value {n : Nat} {e : Int} (h0 : n ≠ 0) (h1 : -800 ≤ e + n.log2) (h2 : e + n.log2 < 800) :
    (2 : ℚ) ^ (-800 : Int) ≤ F64.value n e ∧ F64.value n e ≤ 2 ^ (800 : Int) := by
  have h3 : ((2 ^ n.log2 : Nat) : ℚ) ≤ n := Nat.cast_le.mpr (Nat.log2_self_le h0)
  have h4 : (n : ℚ) ≤ ((2 ^ (n.log2 + 1) : Nat) : ℚ) := Nat.cast_le.mpr Nat.lt_log2_self.le
  rw [Nat.cast_pow, ← zpow_natCast, Nat.cast_ofNat] at h3 h4
  have hp := F64.two_zpow_pos e
  constructor
  · have h5 := mul_le_mul_of_nonneg_right h3 hp.le
    rw [← zpow_add₀ (by norm_num)] at h5
    exact le_trans (zpow_le_zpow_right₀ (by norm_num) (by omega)) h5
  · have h5 := mul_le_mul_of_nonneg_right h4 hp.le
    rw [← zpow_add₀ (by norm_num)] at h5
    exact le_trans h5 (zpow_le_zpow_right₀ (by norm_num) (by omega))

/-- **C122** Every `f64` from `2^-800` to `2^800` (in magnitude) that is encoded as REAL and decoded through any of
the four APIs comes back with the same sign and a relative error of at most `2^-38`. -/
theorem C122_f64_close {lib : FloatLib} (hl : Honest lib) {s : Bool} {n : Nat} {e : Int}
    (hv : F64Valid (.fin s n e)) (h0 : n ≠ 0) (h1 : -800 ≤ e + n.log2) (h2 : e + n.log2 < 800) :
    ∃ g, F64Valid g ∧ Within 38 g (.fin s n e) ∧ F64Back lib (.fin s n e) g := by
  obtain ⟨h3, h4⟩ := normal_value h0 h1 h2
  obtain ⟨v, v', n', e', h5, h6, h7, h8, h9⟩ := f64_near hl hv h3 h4
  refine ⟨.fin s n' e', h8, within_of_near h9, ?_⟩
  rw [← h7]
  exact f64_back h5 h6

/-- **C96**, **C122** Every finite `f32` other than zero that is encoded as REAL and decoded through any of the four
APIs comes back unchanged. -/
theorem C122_f32_roundtrip {lib : FloatLib} (hl : Honest lib) {s : Bool} {n : Nat} {e : Int}
    (hv : F32Valid (.fin s n e)) (h0 : n ≠ 0) : F32Back lib (.fin s n e) (.fin s n e) := by
  have h1 : -800 ≤ e + n.log2 ∧ e + n.log2 < 800 := by
    rcases hv with ⟨h, _⟩ | h
    · exact absurd h h0
    · omega
  obtain ⟨h3, h4⟩ := normal_value h0 h1.1 h1.2
  obtain ⟨v, v', n', e', h5, h6, h7, h8, h9⟩ := f64_near hl (F64.f32_f64 hv) h3 h4
  have h10 := f32_back h5 h6
  have h11 : Within 26 (.fin s n' e') (.fin s n e) :=
    within_of_near (h9.mono (le_trans (F64.two_zpow_pos _).le h3) (by norm_num))
  rwa [h7, F64.toF32_close hv h11] at h10

/-! ### Exact numbers -/

theorem int_valid (s : Bool) {N : Nat} (h0 : N ≠ 0) (h : N ≤ 2 ^ 53) :
    ∃ a j : Nat, N = a * 2 ^ j ∧ a ≠ 0 ∧ F64Valid (.fin s a j) := by
  obtain ⟨a, j, rfl, ho⟩ := F64.odd_part h0
  have ha : a ≠ 0 := by omega
  have h1 : 1 ≤ 2 ^ j := Nat.two_pow_pos j
  have h2 : a * 1 ≤ a * 2 ^ j := Nat.mul_le_mul_left _ h1
  refine ⟨a, j, rfl, ha, .inr ⟨ho, ?_, by omega, ?_⟩⟩
  · have : a ≠ 2 ^ 53 := by rintro rfl; omega
    omega
  · have h3 : 2 ^ a.log2 * 2 ^ j ≤ 2 ^ 53 := le_trans (Nat.mul_le_mul_right _ (Nat.log2_self_le ha)) h
    rw [← Nat.pow_add] at h3
    have := (Nat.pow_le_pow_iff_right (by decide : 1 < 2)).mp h3
    omega

theorem grid_int (a j : Nat) : grid a j = a * 2 ^ j * 2 ^ 1074 := by
  rw [grid, show ((j : Int) + 1074).toNat = j + 1074 by omega, Nat.pow_add, Nat.mul_assoc]

/-- An integer of up to 53 bits is formatted exactly. -/
theorem nearest_int {s : Bool} {N m : Nat} {f : Int} (h : NearestDecimal s N 0 (.fin s m f)) (h0 : 0 ≤ f)
    (h53 : m * 2 ^ f.toNat < 2 ^ 53) : N = m * 2 ^ f.toNat := by
  obtain ⟨F, rfl⟩ := Int.eq_ofNat_of_zero_le h0
  rw [Int.toNat_natCast] at h53 ⊢
  by_cases hN0 : N = 0
  · subst hN0
    have h1 := F64.nearest_exact h (m := 0) (x := 0) (.inl ⟨rfl, rfl⟩) (by simp [grid])
    injection h1 with _ h2 _
    rw [h2, Nat.zero_mul]
  · by_cases hN : N ≤ 2 ^ 53
    · obtain ⟨a, j, rfl, _, h2⟩ := int_valid s hN0 hN
      have h1 := F64.nearest_exact h h2 (by rw [grid_int, Int.toNat_zero, Nat.pow_zero, Nat.mul_one, Int.neg_zero,
        Int.toNat_zero, Nat.pow_zero, Nat.mul_one])
      injection h1 with _ h3 h4
      rw [h3, Int.ofNat_inj.mp h4]
    · exfalso
      have h1 := F64.nearest_value h (m' := 1) (x' := 53) (.inr ⟨by decide, by decide, by decide, by decide +kernel⟩)
      have h2 : ((2 ^ 53 : Nat) : ℚ) < N := Nat.cast_lt.mpr (by omega)
      have h3 : F64.value m (F : Int) < ((2 ^ 53 : Nat) : ℚ) := by
        rw [F64.value_int h0]
        exact Nat.cast_lt.mpr h53
      have h4 : F64.value 1 53 = ((2 ^ 53 : Nat) : ℚ) := by norm_num [F64.value]
      rw [h4, zpow_zero, mul_one, abs_of_nonneg (by linarith), abs_of_nonneg (by linarith)] at h1
      linarith

theorem value_small {m : Nat} {f : Int} (h0 : 0 ≤ f) (h53 : m * 2 ^ f.toNat < 2 ^ 53) :
    F64.value m f ≤ 2 ^ (801 : Int) := by
  rw [F64.value_int h0]
  have h1 : ((m * 2 ^ f.toNat : Nat) : ℚ) ≤ ((2 ^ 53 : Nat) : ℚ) := Nat.cast_le.mpr h53.le
  rw [Nat.cast_pow 2 53, ← zpow_natCast, Nat.cast_ofNat] at h1
  exact le_trans h1 (zpow_le_zpow_right₀ (by norm_num) (by norm_num))

/-- A decimal REAL with a mantissa of up to 53 bits: the text has that number, and is read as the nearest one. -/
theorem exact_back {lib : FloatLib} (hl : Honest lib) {s : Bool} {m b : Nat} {f x : Int} (hv : F64Valid (.fin s m f))
    (h0 : 0 ≤ f) (h53 : m * 2 ^ f.toNat < 2 ^ 53) (hx : x.natAbs < 2 ^ 32)
    (hb : m * 2 ^ f.toNat * 10 ^ x.toNat < 2 ^ 1023 * 10 ^ (-x).toNat) :
    ∃ g, NearestDecimal s (m * 2 ^ f.toNat) x g ∧
      ∀ v, Real.new g = some v → RealBack lib (.binary (.fin s m f) 10 x b) v := by
  obtain ⟨N, h1, _, h2⟩ := decimal_back hl (x := x) (b := b) hv h0 (value_small h0 h53) hx
  obtain rfl := nearest_int h1 h0 h53
  exact h2 hb

theorem five_log2 {x : Nat} (hx : x ≤ 22) : (5 ^ x).log2 ≤ 53 ∧ 5 ^ x % 2 = 1 ∧ 5 ^ x < 2 ^ 53 := by
  have h1 : 5 ^ x ≤ 5 ^ 22 := Nat.pow_le_pow_right (by decide) hx
  have h2 : 5 ^ 22 < 2 ^ 53 := by decide
  have h3 : 5 ^ x < 2 ^ 53 := Nat.lt_of_le_of_lt h1 h2
  refine ⟨?_, by rw [Nat.pow_mod]; simp, h3⟩
  have h4 : 2 ^ (5 ^ x).log2 < 2 ^ 53 := Nat.lt_of_le_of_lt (Nat.log2_self_le (Nat.pos_iff_ne_zero.mp (Nat.pow_pos (by decide)))) h3
  have := (Nat.pow_lt_pow_iff_right (by decide : 1 < 2)).mp h4
  omega

/-- `10^x` is a number of the format. -/
theorem powi_exact {lib : FloatLib} (hl : Honest lib) {x : Nat} (hx : x ≤ 22) :
    lib.powi 10 x = .fin false (5 ^ x) x := by
  obtain ⟨h1, h2, h3⟩ := five_log2 hx
  refine F64.nearest_exact (hl.powi x (by omega)) (.inr ⟨h2, h3, by omega, by omega⟩) ?_
  rw [grid_int, Int.toNat_natCast, ← Nat.mul_pow, show (-(x : Int)).toNat = 0 by omega, Nat.pow_zero, Nat.mul_one,
    Nat.one_mul]

/-- **C122** Every integer of up to 53 bits, as an `f64`, that is encoded as REAL and decoded comes back unchanged,
through each of the four APIs; so does the REAL that `Real::new` makes of it. -/
theorem C122_integers {lib : FloatLib} (hl : Honest lib) {s : Bool} {n : Nat} {e : Int}
    (hv : F64Valid (.fin s n e)) (h0 : n ≠ 0) (he : 0 ≤ e) (h53 : n * 2 ^ e.toNat < 2 ^ 53) :
    F64Back lib (.fin s n e) (.fin s n e) ∧
    ∃ v, Real.new (.fin s n e) = some v ∧ RealBack lib v v := by
  obtain ⟨m, f, x, h1, h2, h3, h4, h5⟩ := C74_real_new hv h0
  obtain ⟨h6, h7⟩ := h5 he
  obtain ⟨E, rfl⟩ := Int.eq_ofNat_of_zero_le he
  obtain ⟨F, rfl⟩ := Int.eq_ofNat_of_zero_le h3
  obtain ⟨X, rfl⟩ := Int.eq_ofNat_of_zero_le h6
  simp only [Int.toNat_natCast] at h4 h7 h53
  have hm0 : 1 ≤ m * 2 ^ F := by
    rcases Nat.eq_zero_or_pos (m * 2 ^ F) with h | h
    · rw [h] at h4; omega
    · exact h
  have hX : X ≤ 22 := by
    refine Classical.byContradiction fun hc => ?_
    have h8 : 10 ^ 23 ≤ 10 ^ X := Nat.pow_le_pow_right (by decide) (by omega)
    have h9 : 1 * 10 ^ X ≤ m * 2 ^ F * 10 ^ X := Nat.mul_le_mul_right _ hm0
    have h10 : (2 : Nat) ^ 53 ≤ 10 ^ 23 := by decide
    omega
  have hmle : m * 2 ^ F < 2 ^ 53 := by
    have h8 : m * 2 ^ F * 1 ≤ m * 2 ^ F * 10 ^ X := Nat.mul_le_mul_left _ (Nat.pow_pos (by decide))
    omega
  obtain ⟨g, h8, h9⟩ := exact_back hl (b := 10) (x := X) h2 h3 hmle (by omega) (by
    rw [Int.toNat_natCast, Int.toNat_natCast, ← h7, show (-(X : Int)).toNat = 0 by omega, Nat.pow_zero, Nat.mul_one]
    exact Nat.lt_trans h53 (Nat.pow_lt_pow_right (by decide) (by decide)))
  rw [Int.toNat_natCast] at h8
  have h10 : g = .fin s n E := by
    refine F64.nearest_exact h8 hv ?_
    rw [grid_int, Int.toNat_natCast, ← h7, show (-(X : Int)).toNat = 0 by omega, Nat.pow_zero, Nat.mul_one]
  subst h10
  have hb := h9 _ h1
  refine ⟨?_, _, h1, hb⟩
  have h11 := f64_back h1 hb
  have h12 : (Real.binary (.fin s m F) 10 X 10).f64 lib = .fin s n E := by
    rw [Real.f64, if_neg (by decide), powi_exact hl hX, F64.mul, Bool.bne_false]
    refine F64.round_same hv h0 (c := 0) (by omega) (by omega) ?_
    rw [show ((F : Int) + X - 0).toNat = F + X by omega, show ((E : Int) - 0).toNat = E by omega, h7, Nat.pow_add,
      show 10 ^ X = 5 ^ X * 2 ^ X by rw [← Nat.mul_pow]]
    generalize 2 ^ F = a
    generalize 5 ^ X = b
    generalize 2 ^ X = c
    rw [Nat.mul_assoc, Nat.mul_assoc, Nat.mul_left_comm b]
  rwa [h12] at h11

/-- `Real::new` of `±n / 2^k`, if `n * 5^k` has up to 53 bits: the loop is exact. -/
theorem newLoop_exact (s : Bool) : ∀ (k fuel n : Nat) (x : Int), n % 2 = 1 → n * 5 ^ k < 2 ^ 53 → k < fuel →
    realNewLoop fuel (.fin s n (-k)) x = some (.fin s (n * 5 ^ k) 0, x - k) := by
  intro k
  induction k with
  | zero =>
    intro fuel n x ho h hf
    obtain ⟨fuel, rfl⟩ : ∃ g, fuel = g + 1 := ⟨fuel - 1, by omega⟩
    simp [realNewLoop, F64.hasFract]
  | succ k ih =>
    intro fuel n x ho h hf
    obtain ⟨fuel, rfl⟩ : ∃ g, fuel = g + 1 := ⟨fuel - 1, by omega⟩
    rw [realNewLoop, if_pos ((F64.hasFract_odd ho).mpr (by omega))]
    have h5 : n * 5 * 5 ^ k < 2 ^ 53 := by rwa [Nat.mul_assoc, ← Nat.pow_succ']
    have h6 : n * 5 < 2 ^ 53 := by
      have : n * 5 * 1 ≤ n * 5 * 5 ^ k := Nat.mul_le_mul_left _ (Nat.pow_pos (by decide))
      omega
    have h7 := F64.log2_lt53 (by omega) h6
    have hk : k < 400 := by
      refine Classical.byContradiction fun hc => ?_
      have h8 : 5 ^ 400 ≤ 5 ^ k := Nat.pow_le_pow_right (by decide) (by omega)
      have h9 : 1 * 5 ^ k ≤ n * 5 * 5 ^ k := Nat.mul_le_mul_right _ (by omega)
      have h10 : (2 : Nat) ^ 53 ≤ 5 ^ 400 := by decide +kernel
      generalize 5 ^ 400 = w at *
      omega
    have h8 : F64.mul (.fin s n (-(k + 1 : Nat))) (.fin false 5 1) = .fin s (n * 5) (-k) := by
      rw [F64.mul, Bool.bne_false, show (-((k + 1 : Nat) : Int) + 1) = -k by omega]
      exact F64.round_odd s (by omega) h6 (by omega) (by omega)
    rw [h8, ih fuel (n * 5) (x - 1) (by omega) h5 (by omega), Nat.mul_assoc, ← Nat.pow_succ']
    congr 2
    omega

theorem new_of {s : Bool} {n : Nat} {e x y : Int} {m m' : F64} (h0 : n ≠ 0)
    (h1 : realNewLoop 400 (.fin s n e) 0 = some (m, x)) (h2 : normalizeLoop 400 m x = some (m', y)) :
    Real.new (.fin s n e) = some (.binary m' 10 y 10) := by
  simp only [Real.new]
  rw [if_neg h0, h1]
  simp only
  rw [h2]

theorem new_fraction (s : Bool) {n k : Nat} (ho : n % 2 = 1) (h53 : n * 5 ^ k < 2 ^ 53) :
    Real.new (.fin s n (-k)) = some (.binary (.fin s (n * 5 ^ k) 0) 10 (-k) 10) := by
  have hk : k ≤ 22 := by
    refine Classical.byContradiction fun hc => ?_
    have h8 : 5 ^ 23 ≤ 5 ^ k := Nat.pow_le_pow_right (by decide) (by omega)
    have h9 : 1 * 5 ^ k ≤ n * 5 ^ k := Nat.mul_le_mul_right _ (by omega)
    have h10 : (2 : Nat) ^ 53 ≤ 5 ^ 23 := by decide
    omega
  have ho' : n * 5 ^ k % 2 = 1 := by
    rw [Nat.mul_mod, ho, (five_log2 hk).2.1]
  have h1 := newLoop_exact s k 400 n 0 ho h53 (by omega)
  have ht : F64.tensMultiple (.fin s (n * 5 ^ k) 0) = false := by
    simp only [F64.tensMultiple, Int.toNat_zero, Nat.pow_zero, Nat.mul_one, decide_eq_false_iff_not]
    omega
  have hn : ∀ fuel, 0 < fuel → ∀ y, normalizeLoop fuel (.fin s (n * 5 ^ k) 0) y = some (.fin s (n * 5 ^ k) 0, y) := by
    intro fuel hf y
    cases fuel with
    | zero => omega
    | succ fuel => rw [normalizeLoop, ht, Bool.and_false, if_neg (by decide)]
  have h2 := hn 400 (by decide) (0 - k)
  rw [Int.zero_sub] at h1 h2
  exact new_of (by omega) h1 h2

/-- **C122** The REAL that `Real::new` makes of `±n / 2^k` is the exact decimal number, and it is encoded and decoded
unchanged, if its digits `n * 5^k` have up to 53 bits. -/
theorem C122_fractions {lib : FloatLib} (hl : Honest lib) (s : Bool) {n k : Nat} (ho : n % 2 = 1)
    (h53 : n * 5 ^ k < 2 ^ 53) :
    Real.new (.fin s n (-k)) = some (.binary (.fin s (n * 5 ^ k) 0) 10 (-k) 10) ∧
    RealBack lib (.binary (.fin s (n * 5 ^ k) 0) 10 (-k) 10) (.binary (.fin s (n * 5 ^ k) 0) 10 (-k) 10) := by
  have hk : k ≤ 22 := by
    refine Classical.byContradiction fun hc => ?_
    have h8 : 5 ^ 23 ≤ 5 ^ k := Nat.pow_le_pow_right (by decide) (by omega)
    have h9 : 1 * 5 ^ k ≤ n * 5 ^ k := Nat.mul_le_mul_right _ (by omega)
    have h10 : (2 : Nat) ^ 53 ≤ 5 ^ 23 := by decide
    omega
  have ho' : n * 5 ^ k % 2 = 1 := by
    rw [Nat.mul_mod, ho, (five_log2 hk).2.1]
  have hnew := new_fraction s ho h53
  refine ⟨hnew, ?_⟩
  have hl1 := F64.log2_lt53 (by omega) h53
  have hn53 : n < 2 ^ 53 := by
    have : n * 1 ≤ n * 5 ^ k := Nat.mul_le_mul_left _ (Nat.pow_pos (by decide))
    omega
  have hl2 := F64.log2_lt53 (by omega) hn53
  obtain ⟨g, h1, h2⟩ := exact_back hl (b := 10) (x := -k) (s := s) (m := n * 5 ^ k) (f := 0)
    (.inr ⟨ho', h53, by omega, by omega⟩) (by omega) (by simpa using h53) (by omega) (by
      rw [show (-(k : Int)).toNat = 0 by omega, Int.toNat_zero, Nat.pow_zero, Nat.mul_one, Nat.pow_zero, Nat.mul_one]
      have h3 : 2 ^ 1023 * 1 ≤ 2 ^ 1023 * 10 ^ (- -(k : Int)).toNat := Nat.mul_le_mul_left _ (Nat.pow_pos (by decide))
      rw [Nat.mul_one] at h3
      have h4 : (2 : Nat) ^ 53 < 2 ^ 1023 := Nat.pow_lt_pow_right (by decide) (by decide)
      exact Nat.lt_of_lt_of_le (Nat.lt_trans h53 h4) h3)
  refine h2 _ ?_
  have h4 : g = .fin s n (-k) := by
    refine F64.nearest_exact h1 (.inr ⟨ho, hn53, by omega, by omega⟩) ?_
    rw [grid, show (-(k : Int)).toNat = 0 by omega, show (- -(k : Int)).toNat = k by omega, Int.toNat_zero,
      Nat.pow_zero, Nat.mul_one, Nat.mul_one, show (1074 : Nat) = (-(k : Int) + 1074).toNat + k by omega, Nat.pow_add,
      show 10 ^ k = 5 ^ k * 2 ^ k by rw [← Nat.mul_pow]]
    generalize 2 ^ (-(k : Int) + 1074).toNat = a
    generalize 5 ^ k = b
    generalize 2 ^ k = c
    ring
  rw [h4]
  exact hnew

/-! ### Numbers that change -/

theorem dev_nearest {n : Nat} {k : Int} {f : F64} (L m : Nat) (x : Int) (hf : NearestDecimal false n k f)
    (hv : m % 2 = 1 ∧ m < 2 ^ 53 ∧ -1074 ≤ x ∧ x + m.log2 < 1024) (h1 : L = 0 ∨ 2 ^ (52 + L) < grid m x)
    (h2 : grid m x % 2 ^ L = 0)
    (h3 : 2 * ((n * 10 ^ k.toNat * 2 ^ 1074 : Nat) - (grid m x * 10 ^ (-k).toNat : Nat) : Int).natAbs <
      2 ^ L * 10 ^ (-k).toNat) : f = .fin false m x :=
  F64.nearest_unique hf (.inr hv) h1 h2 h3

/-- **C122** Deviation: `0.3` as an `f64` comes back as `0.30000000000000004`; the REAL in between, `3E-1`, is
exact. -/
theorem C122_third_place {lib : FloatLib} (hl : Honest lib) :
    Real.new (.fin false 5404319552844595 (-54)) = some (.binary (.fin false 3 0) 10 (-1) 10) ∧
    NearestDecimal false 3 (-1) (.fin false 5404319552844595 (-54)) ∧
    F64Back lib (.fin false 5404319552844595 (-54)) (.fin false 1351079888211149 (-52)) := by
  have hn : Real.new (.fin false 5404319552844595 (-54)) = some (.binary (.fin false 3 0) 10 (-1) 10) := by
    decide +kernel
  obtain ⟨g, h1, h2⟩ := exact_back hl (s := false) (m := 3) (f := 0) (b := 10) (x := -1)
    (.inr ⟨by decide, by decide, by decide, by decide +kernel⟩) (by decide) (by decide) (by decide) (by decide +kernel)
  rw [show 3 * 2 ^ (0 : Int).toNat = 3 by decide] at h1
  have h3 : g = .fin false 5404319552844595 (-54) :=
    dev_nearest 1020 _ _ h1 (by decide +kernel) (.inr (by decide +kernel)) (by decide +kernel) (by decide +kernel)
  subst h3
  refine ⟨hn, h1, ?_⟩
  have h4 := f64_back hn (h2 _ hn)
  have h5 : lib.powi 10 (-1) = .fin false 3602879701896397 (-55) :=
    dev_nearest 1018 _ _ (hl.powi (-1) (by decide)) (by decide +kernel) (.inr (by decide +kernel)) (by decide +kernel)
      (by decide +kernel)
  have h6 : (Real.binary (.fin false 3 0) 10 (-1) 10).f64 lib = .fin false 1351079888211149 (-52) := by
    rw [Real.f64, if_neg (by decide), h5]
    decide +kernel
  rwa [h6] at h4

/-- **C122** Deviation: the REAL that `Real::new` makes of `2675.7807436963367` is `2675780743696336E-12`; it is
encoded as that, and decoded as `26757807436963356E-13`. -/
theorem C122_real_changes {lib : FloatLib} (hl : Honest lib) :
    Real.new (.fin false 2942052041073235 (-40)) = some (.binary (.fin false 167236296481021 4) 10 (-12) 10) ∧
    RealBack lib (.binary (.fin false 167236296481021 4) 10 (-12) 10)
      (.binary (.fin false 6689451859240839 2) 10 (-13) 10) := by
  refine ⟨by decide +kernel, ?_⟩
  obtain ⟨g, h1, h2⟩ := exact_back hl (s := false) (m := 167236296481021) (f := 4) (b := 10) (x := -12)
    (.inr ⟨by decide, by decide, by decide, by decide +kernel⟩) (by decide) (by decide) (by decide) (by decide +kernel)
  rw [show 167236296481021 * 2 ^ (4 : Int).toNat = 2675780743696336 by decide] at h1
  have h3 : g = .fin false 1471026020536617 (-39) :=
    dev_nearest 1033 _ _ h1 (by decide +kernel) (.inr (by decide +kernel)) (by decide +kernel) (by decide +kernel)
  subst h3
  exact h2 _ (by decide +kernel)

/-- **C122** Deviation: the smallest positive `f64`, `2^-1074`, comes back as zero. -/
theorem C122_underflow {lib : FloatLib} (hl : Honest lib) :
    F64Back lib (.fin false 1 (-1074)) (.fin false 0 0) := by
  have hn : Real.new (.fin false 1 (-1074)) = some (.binary (.fin false 4940656458412465 0) 10 (-339) 10) := by
    decide +kernel
  obtain ⟨g, h1, h2⟩ := exact_back hl (s := false) (m := 4940656458412465) (f := 0) (b := 10) (x := -339)
    (.inr ⟨by decide, by decide, by decide, by decide +kernel⟩) (by decide) (by decide) (by decide) (by decide +kernel)
  rw [show 4940656458412465 * 2 ^ (0 : Int).toNat = 4940656458412465 by decide] at h1
  have h3 : g = .fin false 1 (-1074) :=
    dev_nearest 0 _ _ h1 (by decide +kernel) (.inl rfl) (by decide +kernel) (by decide +kernel)
  subst h3
  have h4 := f64_back hn (h2 _ hn)
  have h6 : (Real.binary (.fin false 4940656458412465 0) 10 (-339) 10).f64 lib = .fin false 0 0 := by
    rw [Real.f64, if_neg (by decide), hl.powi_zero _ (by decide)]
    decide +kernel
  rwa [h6] at h4

/-! ### The assumptions can be met -/

/-- The value of digits. -/
def digitsValue (bs : Bytes) : Nat := bs.foldl (fun a b => a * 10 + (b.toNat - 48)) 0

/-- A reader of exponents: `45`, `+45`, `-45`. -/
def readExponent : Bytes → Int
  | 0x2b :: es => digitsValue es
  | 0x2d :: es => -digitsValue es
  | es => digitsValue es

/-- A reader of `-123E-45`. -/
def readDecimal (bs : Bytes) : Option F64 :=
  let neg := bs.head? == some 0x2d
  let t := if neg then bs.tail else bs
  match t.dropWhile (· != 0x45) with
  | [] => none
  | _ :: es =>
    some (F64.ofDecimal neg (digitsValue (t.takeWhile (· != 0x45))) (readExponent es))

/-- A library that reads the nearest number, formats integers with all their digits, and computes the nearest power
of ten. -/
def honestLib : FloatLib where
  parse := readDecimal
  display
    | .fin s n e => (if s then [0x2d] else []) ++ decimal (n * 2 ^ e.toNat)
    | _ => []
  powi _ k := F64.ofDecimal false 1 k

theorem digitsValue_digits {n : Nat} {t : Bytes} (h : Digits n t) : digitsValue t = n := by
  unfold digitsValue
  induction h with
  | one n hn =>
    simp only [List.foldl_cons, List.foldl_nil, digit_toNat hn]
    omega
  | more n d t _ hd _ ih =>
    rw [List.foldl_append, ih]
    simp only [List.foldl_cons, List.foldl_nil, digit_toNat hd]
    omega

theorem readDecimal_text {neg : Bool} {n : Nat} {ds rest : Bytes} (hd : Digits n ds) :
    readDecimal ((if neg then [0x2d] else []) ++ ds ++ 0x45 :: rest) =
      some (F64.ofDecimal neg n (readExponent rest)) := by
  have hb := digits_bytes hd
  have hne : ∀ b ∈ ds, (b != 0x45) = true := by
    intro b h
    have := hb.2 b h
    have : b ≠ 0x45 := by rintro rfl; simp at this
    simpa using this
  have h1 : (ds ++ 0x45 :: rest).dropWhile (· != 0x45) = 0x45 :: rest := by
    rw [List.dropWhile_append_of_pos hne]; simp
  have h2 : (ds ++ 0x45 :: rest).takeWhile (· != 0x45) = ds := by
    rw [List.takeWhile_append_of_pos hne]; simp
  have hd0 : ((ds ++ 0x45 :: rest).head? == some 0x2d) = false := by
    cases ds with
    | nil => exact absurd rfl hb.1
    | cons b ds =>
      have := hb.2 b (List.mem_cons_self ..)
      have : b ≠ 0x2d := by rintro rfl; simp at this
      simpa using this
  cases neg with
  | false =>
    simp only [Bool.false_eq_true, if_false, List.nil_append, readDecimal, hd0, h1, h2, digitsValue_digits hd]
  | true =>
    simp only [if_true, List.nil_append, List.cons_append, readDecimal, List.head?_cons, BEq.rfl,
      List.tail_cons, h1, h2, digitsValue_digits hd]

theorem readExponent_digits {n : Nat} {es : Bytes} (h : Digits n es) : readExponent es = n := by
  have hb := digits_bytes h
  rw [← digitsValue_digits h]
  cases es with
  | nil => exact absurd rfl hb.1
  | cons b es =>
    have h1 := hb.2 b (List.mem_cons_self ..)
    have h2 : b ≠ 0x2b := by rintro rfl; simp at h1
    have h3 : b ≠ 0x2d := by rintro rfl; simp at h1
    unfold readExponent
    split
    · rename_i h4; exact absurd (List.cons.inj h4).1 h2
    · rename_i h4; exact absurd (List.cons.inj h4).1 h3
    · rfl

theorem one_bound (k : Int) (hk : k ≤ 300) : 1 * 10 ^ k.toNat < 2 ^ 1023 * 10 ^ (-k).toNat := by
  have h1 : 10 ^ k.toNat ≤ 10 ^ 300 := Nat.pow_le_pow_right (by decide) (by omega)
  have h2 : (10 : Nat) ^ 300 < 2 ^ 1023 := by decide +kernel
  have h3 : 2 ^ 1023 * 1 ≤ 2 ^ 1023 * 10 ^ (-k).toNat := Nat.mul_le_mul_left _ (Nat.pow_pos (by decide))
  rw [Nat.one_mul]
  rw [Nat.mul_one] at h3
  exact Nat.lt_of_lt_of_le (Nat.lt_of_le_of_lt h1 h2) h3

theorem scale_le {a b p w d : ℚ} (h : a * p ≤ b) (hw : 0 ≤ w) (hd : 0 ≤ d) : a * (w * d) * p ≤ b * d * w := by
  have := mul_le_mul_of_nonneg_right h (mul_nonneg hw hd)
  linarith

/-- **C122** There is a library with these properties. -/
theorem C122_honest_library : Honest honestLib where
  parse {text neg n k} h hb := by
    refine ⟨F64.ofDecimal neg n k, ?_, F64.ofDecimal_nearest hb⟩
    show readDecimal _ = _
    cases h with
    | plain neg hd he => rw [readDecimal_text hd, readExponent_digits he]
    | plus neg hd he =>
      rw [readDecimal_text hd]
      simp only [readExponent, digitsValue_digits he]
    | minus neg hd he =>
      rw [readDecimal_text hd]
      simp only [readExponent, digitsValue_digits he]
  display {neg n e} hv he := by
    refine ⟨_, _, decimal_digits _, rfl, n, e, rfl, hv, fun m' x' _ => ?_⟩
    obtain ⟨E, rfl⟩ := Int.eq_ofNat_of_zero_le he
    rw [grid_int, Int.toNat_natCast, Int.toNat_zero, Int.neg_zero, Int.toNat_zero, Nat.pow_zero, Nat.mul_one,
      Nat.mul_one, Int.sub_self, Int.natAbs_zero]
    exact Nat.zero_le _
  powi k hk := F64.ofDecimal_nearest (one_bound k (by omega))
  powi_close k hk := by
    have h1 := F64.ofDecimal_nearest (s := false) (one_bound k (by omega))
    have hlo : (2 : ℚ) ^ (-1022 : Int) ≤ (1 : Nat) * (10 : ℚ) ^ k := by
      have h2 : (10 : ℚ) ^ (-300 : Int) ≤ 10 ^ k := zpow_le_zpow_right₀ (by norm_num) (by omega)
      have h3 : (2 : ℚ) ^ (-1022 : Int) ≤ 10 ^ (-300 : Int) := by
        rw [zpow_neg, zpow_neg]
        refine inv_anti₀ (by positivity) ?_
        have h4 : ((10 ^ 300 : Nat) : ℚ) ≤ ((2 ^ 1022 : Nat) : ℚ) := Nat.cast_le.mpr (by decide +kernel)
        rw [Nat.cast_pow, Nat.cast_pow, ← zpow_natCast, ← zpow_natCast] at h4
        exact h4
      rw [Nat.cast_one, one_mul]
      exact le_trans h3 h2
    have hhi : (1 : Nat) * (10 : ℚ) ^ k < 2 ^ (1023 : Int) := by
      have h2 : (10 : ℚ) ^ k ≤ 10 ^ (300 : Int) := zpow_le_zpow_right₀ (by norm_num) (by omega)
      have h4 : ((10 ^ 300 : Nat) : ℚ) < ((2 ^ 1023 : Nat) : ℚ) := Nat.cast_lt.mpr (by decide +kernel)
      rw [Nat.cast_pow, Nat.cast_pow, ← zpow_natCast, ← zpow_natCast] at h4
      rw [Nat.cast_one, one_mul]
      exact lt_of_le_of_lt h2 h4
    obtain ⟨m, x, h2, h3, h4⟩ := F64.decimal_near h1 hlo hhi
    refine ⟨m, x, h2, h3, ?_⟩
    have h5 := F64.decimal_dist (n := 1) (m := m) (k := k) (F64.valid_exp h3)
    have h6 := F64.ten_split 1 k
    rw [Nat.one_mul, Nat.cast_one, one_mul] at h5 h6
    rw [Nat.cast_one, one_mul] at h4 hlo
    refine (Nat.cast_le (α := ℚ)).mp ?_
    rw [Nat.cast_mul, h5, Nat.cast_mul, h6, Nat.cast_pow 2 40, Nat.cast_pow 2 1074, Nat.cast_ofNat, ← zpow_natCast,
      ← zpow_natCast]
    have hd : (0 : ℚ) < ((10 ^ (-k).toNat : Nat) : ℚ) := Nat.cast_pos.mpr (Nat.pow_pos (by decide))
    have h7 : |(10 : ℚ) ^ k - F64.value m x| * 2 ^ (40 : Int) ≤ 10 ^ k := by
      rw [abs_sub_comm]
      have h8 := h4.mono (δ := 2 ^ (-40 : Int)) (le_trans (F64.two_zpow_pos _).le hlo) (by norm_num)
      have h9 := mul_le_mul_of_nonneg_right h8 (F64.two_zpow_pos 40).le
      rwa [mul_assoc _ _ ((2 : ℚ) ^ (40 : Int)), ← zpow_add₀ (by norm_num), show (-40 : Int) + 40 = 0 by decide,
        zpow_zero, mul_one] at h9
    exact scale_le h7 (F64.two_zpow_pos 1074).le hd.le
  powi_zero k hk := by
    obtain ⟨m, x, h1, h2, h3⟩ := F64.ofDecimal_nearest (s := false) (one_bound k (by omega))
    have h4 := h3 0 0 (.inl ⟨rfl, rfl⟩)
    show F64.ofDecimal false 1 k = _
    rw [h1] at h2 ⊢
    have h5 : 10 ^ 324 ≤ 10 ^ (-k).toNat := Nat.pow_le_pow_right (by decide) (by omega)
    have h6 : (2 : Nat) * 2 ^ 1074 < 10 ^ 324 := by decide +kernel
    have h7 : grid m x = 0 := by
      refine Classical.byContradiction fun hc => ?_
      have h8 : 1 * 10 ^ (-k).toNat ≤ grid m x * 10 ^ (-k).toNat := Nat.mul_le_mul_right _ (by omega)
      rw [show k.toNat = 0 by omega, show grid 0 0 = 0 by rw [grid, Nat.zero_mul], Nat.zero_mul, Nat.pow_zero,
        Nat.one_mul] at h4
      rw [Nat.one_mul] at h8
      generalize 10 ^ (-k).toNat = d at *
      generalize grid m x * d = a at *
      generalize (2 : Nat) ^ 1074 = w at *
      generalize (10 : Nat) ^ 324 = t at *
      omega
    obtain ⟨rfl, rfl⟩ := F64.grid_inj h2 (.inl ⟨rfl, rfl⟩ : F64Valid (.fin false 0 0))
      (by rw [h7, grid, Nat.zero_mul])
    rfl

/-! ### Cases -/

/-- 0.1 as an `f64`, and as an `f32`; the smallest and the largest positive `f32`; -5000; 5/8. -/
example :
    (∃ g, F64Valid g ∧ Within 38 g (.fin false 3602879701896397 (-55)) ∧
      F64Back honestLib (.fin false 3602879701896397 (-55)) g) ∧
    F32Back honestLib (.fin false 13421773 (-27)) (.fin false 13421773 (-27)) ∧
    F32Back honestLib (.fin false 1 (-149)) (.fin false 1 (-149)) ∧
    F32Back honestLib (.fin false 16777215 104) (.fin false 16777215 104) ∧
    F64Back honestLib (.fin true 625 3) (.fin true 625 3) ∧
    RealBack honestLib (.binary (.fin false 625 0) 10 (-3) 10) (.binary (.fin false 625 0) 10 (-3) 10) :=
  ⟨C122_f64_close C122_honest_library (.inr ⟨by decide, by decide, by decide, by decide +kernel⟩) (by decide)
      (by decide +kernel) (by decide +kernel),
    C122_f32_roundtrip C122_honest_library (.inr ⟨by decide, by decide, by decide, by decide +kernel⟩) (by decide),
    C122_f32_roundtrip C122_honest_library (.inr ⟨by decide, by decide, by decide, by decide +kernel⟩) (by decide),
    C122_f32_roundtrip C122_honest_library (.inr ⟨by decide, by decide, by decide, by decide +kernel⟩) (by decide),
    (C122_integers C122_honest_library (.inr ⟨by decide, by decide, by decide, by decide +kernel⟩) (by decide)
      (by decide) (by decide)).1,
    (C122_fractions C122_honest_library false (n := 5) (k := 3) (by decide) (by decide)).2⟩

/-- The encoding of -5000, and what the smallest `f64` becomes. -/
example : (f64ToBer honestLib).toVec (.fin true 625 3) = .ok [9, 5, 3, 0x2d, 0x35, 0x45, 0x33] ∧
    fromDer (f64P honestLib) realCheck [9, 5, 3, 0x2d, 0x35, 0x45, 0x33] = .ok ([], .fin true 625 3) ∧
    F64Back honestLib (.fin false 1 (-1074)) (.fin false 0 0) :=
  ⟨by decide +kernel, by decide +kernel, C122_underflow C122_honest_library⟩

end Asn1

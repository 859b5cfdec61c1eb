import Verif.Proofs.FloatNearest
import Verif.Props.RealAgree
/-!
# REAL: rounding (C72, C75)
-/
namespace Asn1
open Spec

variable (lib : FloatLib)

theorem signed64_small {N : Nat} (h : N < 2 ^ 63) : signed64 N = N := by
  unfold signed64
  rw [if_pos h]

/-- The mantissa is rounded once. -/
theorem mantissa_round {neg : Bool} {N F : Nat} (h0 : N ≠ 0) (h63 : N < 2 ^ 63) (hF : F < 4) :
    (F64.ofInt (if neg then -signed64 N else signed64 N)).mul (F64.pow2 F) = F64.round neg N F := by
  rw [signed64_small h63]
  have hn : (if neg then -(N : Int) else N).natAbs = N := by split <;> omega
  have hsg : decide ((if neg then -(N : Int) else N) < 0) = neg := by cases neg <;> simp <;> omega
  obtain ⟨m, x, hfin⟩ := F64.ofInt_fin (p := if neg then -(N : Int) else N) (by
    rw [hn]; exact Nat.lt_trans h63 (by decide))
  rw [hsg] at hfin
  rw [hfin]
  rw [F64.ofInt, hn, hsg] at hfin
  have hb : (neg != false) = neg := by cases neg <;> rfl
  rw [F64.pow2, if_neg (by omega), if_neg (by omega), F64.mul, Nat.mul_one, hb,
    F64.round_scale hfin h0 (.inr ⟨by omega, by omega⟩), Int.zero_add]

/-- What binary contents are decoded to. -/
theorem binary_round {i r : Input} {a : Any} {neg : Bool} {N F k len : Nat} {E : Int}
    (ht : a.header.tag = 9) (hp : a.header.constructed = false)
    (hf : BinaryForm a.data.data neg N F k E len) (hl : len ≤ 8) (h0 : N ≠ 0) (h63 : N < 2 ^ 63) :
    (parseBerAny i = .ok (r, a) →
      (realP lib).parseBer i = .ok (r, .binary (F64.round neg N F) 2 (k * E) (2 ^ k))) ∧
    (parseDerAny i = .ok (r, a) →
      (realP lib).parseDer i = .ok (r, .binary (F64.round neg N F) 2 (k * E) (2 ^ k))) := by
  obtain ⟨b, exp, mant, h1, h2, h3, rfl, rfl, rfl⟩ := hf
  have h1' := h1
  obtain ⟨first, _, _, _, hF, he1, _, _⟩ := h1'
  have hE := form_inInt (baseLog_le h2) (exp_small he1 h3)
  have hc := RealContent.binary (lib := lib) h1 h2 hl hE
    (by rintro ⟨_, h⟩; rw [h] at h63; exact absurd h63 (by decide))
  rw [mantissa_round h0 h63 hF, Int.mul_comm] at hc
  exact ⟨fun ha => (C72_real_accepts lib i r [] [] _).1.mpr ⟨a, ha, ht, hp, hc⟩,
    fun ha => (C72_real_accepts lib i r [] [] _).2.1.mpr ⟨a, ha, ht, hp, hc⟩⟩

theorem mantissa_fin {neg : Bool} {N F : Nat} (h63 : N < 2 ^ 63) (hF : F < 4) :
    ∃ m x, F64.round neg N F = .fin neg m x := by
  have hn := F64.round_is_nearest neg N F
  rcases hn.2 with h | ⟨m, x, h, _⟩
  · exfalso
    have h1 := (hn.1 0 (by omega) (by omega)).mp h
    have h2 : N * 2 ^ ((F : Int) - 0).toNat ≤ 2 ^ 63 * 2 ^ 3 :=
      Nat.mul_le_mul (Nat.le_of_lt h63) (Nat.pow_le_pow_right (by decide) (by omega))
    have h3 : 2 ^ 970 ≤ (2 ^ 54 - 1) * 2 ^ ((970 : Int) - 0).toNat := by
      rw [show ((970 : Int) - 0).toNat = 970 from rfl]
      exact Nat.le_mul_of_pos_left _ (by decide)
    have h4 : 2 ^ 67 ≤ 2 ^ 970 := Nat.pow_le_pow_right (by decide) (by decide)
    have h5 : 2 ^ 63 * 2 ^ 3 < 2 ^ 67 := by decide
    exact absurd (Nat.le_trans h4 (Nat.le_trans h3 (Nat.le_trans h1 h2))) (Nat.not_le.mpr h5)
  · exact ⟨m, x, h⟩

theorem form_scale {cs : Bytes} {neg : Bool} {N F k len : Nat} {E : Int} (h : BinaryForm cs neg N F k E len) :
    F < 4 := by
  obtain ⟨_, _, _, ⟨_, _, _, _, hF, _⟩, _⟩ := h
  exact hF

/-- **C72** (partial) A binary content of X.690 8.5.7 with an exponent of one, two or three octets and a
non-zero number below `2^63` in at most eight octets decodes, in BER and DER, to a value of base 2 whose
mantissa is the `f64` nearest to `±N * 2^F` and whose exponent is that of the content, `(2^k)^E`. Missing: larger
numbers, which change sign (`C72_sign_deviation`); longer exponents (`C72_deviations`); the number zero, accepted
but with no sign. -/
theorem C72_binary_nearest_partial {i r : Input} {a : Any} {neg : Bool} {N F k len : Nat} {E : Int}
    (ht : a.header.tag = 9) (hp : a.header.constructed = false)
    (hf : BinaryForm a.data.data neg N F k E len) (hl : len ≤ 8) (h0 : N ≠ 0) (h63 : N < 2 ^ 63) :
    ∃ m x, Nearest64 neg N F (.fin neg m x) ∧
    (parseBerAny i = .ok (r, a) →
      (realP lib).parseBer i = .ok (r, .binary (.fin neg m x) 2 (k * E) (2 ^ k))) ∧
    (parseDerAny i = .ok (r, a) →
      (realP lib).parseDer i = .ok (r, .binary (.fin neg m x) 2 (k * E) (2 ^ k))) := by
  have hn := F64.round_is_nearest neg N F
  have hb := binary_round lib (i := i) (r := r) ht hp hf hl h0 h63
  obtain ⟨m, x, h⟩ := mantissa_fin (neg := neg) h63 (form_scale hf)
  rw [h] at hb hn
  exact ⟨m, x, hn, hb⟩

/-- A case: `2^53 + 1` is read as `2^53`, the even one of the two nearest. -/
example : BinaryForm [0x80, 0x00, 0x20, 0, 0, 0, 0, 0, 1] false (2 ^ 53 + 1) 0 1 0 7 ∧
    (realP noLib).parseDer (Input.fromSlice [9, 9, 0x80, 0x00, 0x20, 0, 0, 0, 0, 0, 1]) =
      .ok (⟨[], 11, 11⟩, .binary (.fin false 1 53) 2 0 2) :=
  ⟨⟨0, [0], [0x20, 0, 0, 0, 0, 0, 1], ⟨0x80, rfl, by decide, by decide, by decide, by decide, by decide,
      by decide⟩, Or.inl ⟨rfl, rfl⟩, by decide, by decide, by decide +kernel, rfl⟩, by decide +kernel⟩

/-- **C72** (partial) If moreover the number `N` has at most 53 bits between its first and its last one, the
value is exact: `±N * 2^F * (2^k)^E`. Missing: as in `C72_binary_nearest_partial`. -/
theorem C72_binary_value_partial {i r : Input} {a : Any} {neg : Bool} {N F k len m j : Nat} {E : Int}
    (ht : a.header.tag = 9) (hp : a.header.constructed = false)
    (hf : BinaryForm a.data.data neg N F k E len) (hl : len ≤ 8) (h0 : N ≠ 0) (h63 : N < 2 ^ 63)
    (hN : N = m * 2 ^ j) (h53 : m < 2 ^ 53) :
    (parseBerAny i = .ok (r, a) →
      ∃ v, (realP lib).parseBer i = .ok (r, v) ∧ RealIs v neg N (F + k * E)) ∧
    (parseDerAny i = .ok (r, a) →
      ∃ v, (realP lib).parseDer i = .ok (r, v) ∧ RealIs v neg N (F + k * E)) := by
  have hb := binary_round lib (i := i) (r := r) ht hp hf hl h0 h63
  have hF : F < 4 := by
    obtain ⟨_, _, _, ⟨_, _, _, _, hF, _⟩, _⟩ := hf
    exact hF
  have hm0 : m ≠ 0 := by rintro rfl; simp at hN; exact h0 hN
  have hlog := F64.log2_mul_pow m j hm0
  have hl63 : (m * 2 ^ j).log2 < 63 := (Nat.log2_lt (hN ▸ h0)).mpr (hN ▸ h63)
  obtain ⟨n, l, h1, h2, _⟩ := F64.make_spec neg ((F : Int) + j) hm0 (by omega)
  have hv : RealIs (.binary (F64.round neg N F) 2 (k * E) (2 ^ k)) neg N (F + k * E) := by
    rw [hN, F64.round_shift neg j F hm0, F64.round_small neg hm0 h53 (by omega), h1]
    refine ⟨_, _, _, _, rfl, ?_⟩
    have h3 := sameNumber_shift l (n + j) (F + k * E)
    rw [Nat.pow_add, ← Nat.mul_assoc, ← h2] at h3
    have h4 : (F : Int) + j + (n : Nat) + k * E = F + k * E + ((n + j : Nat) : Int) := by omega
    rw [h4]
    exact h3
  exact ⟨fun ha => ⟨_, hb.1 ha, hv⟩, fun ha => ⟨_, hb.2 ha, hv⟩⟩

/-- A case: `94 ff 0d` is `13 * 2^1 * 8^-1`. -/
example : BinaryForm [0x94, 0xff, 0x0d] false 13 1 3 (-1) 1 :=
  ⟨1, [0xff], [0x0d], ⟨0x94, rfl, by decide, by decide, by decide, by decide, by decide, by decide⟩,
    Or.inr (Or.inl ⟨rfl, rfl⟩), by decide, by decide, by decide, rfl⟩

/-! ### `f64` -/

/-- A number of `2^1024` and more is rounded to infinity. -/
theorem round_large (s : Bool) {n : Nat} {e : Int} (h0 : n ≠ 0) (h : 1024 ≤ e) :
    F64.round s n e = .inf s := by
  refine (F64.round_inf (c := 970) (by omega) (by omega)).mpr ⟨rfl, ?_⟩
  have h1 : 2 ^ 54 ≤ 2 ^ (e - 970).toNat := Nat.pow_le_pow_right (by decide) (by omega)
  have h2 : 2 ^ (e - 970).toNat ≤ n * 2 ^ (e - 970).toNat := Nat.le_mul_of_pos_left _ (by omega)
  have h3 : (2 ^ 54 - 1) * 2 ^ ((970 : Int) - 970).toNat ≤ 2 ^ 54 := by decide
  exact Nat.le_trans h3 (Nat.le_trans h1 h2)

theorem f64_round {i r : Input} {a : Any} {neg : Bool} {N F k len : Nat} {E : Int}
    (ht : a.header.tag = 9) (hp : a.header.constructed = false)
    (hf : BinaryForm a.data.data neg N F k E len) (hl : len ≤ 8) (h0 : N ≠ 0) (h63 : N < 2 ^ 63)
    (hE : -1024 < k * E) :
    (parseBerAny i = .ok (r, a) → (f64P lib).parseBer i = .ok (r, F64.round neg N (F + k * E))) ∧
    (parseDerAny i = .ok (r, a) → (f64P lib).parseDer i = .ok (r, F64.round neg N (F + k * E))) := by
  have hb := binary_round lib (i := i) (r := r) ht hp hf hl h0 h63
  have hv : Real.f64 lib (.binary (F64.round neg N F) 2 (k * E) (2 ^ k)) = F64.round neg N (F + k * E) := by
    obtain ⟨m, x, hfin⟩ := mantissa_fin (neg := neg) h63 (form_scale hf)
    have hsb : (neg != false) = neg := by cases neg <;> rfl
    by_cases hbig : k * E ≥ 1024
    · have hm0 : m ≠ 0 := by
        rintro rfl
        by_cases h53 : N < 2 ^ 53
        · rw [F64.round_small neg h0 h53 (by omega)] at hfin
          have := F64.log2_lt53 h0 h53
          have := form_scale hf
          obtain ⟨j, a, h1, h2, h3⟩ := F64.make_spec neg (F : Int) h0 (by omega)
          rw [h1] at hfin
          injection hfin with _ h4
          omega
        · -- zero is not the nearest
          have hx := (F64.round_is_nearest neg N F).2
          rw [hfin] at hx
          rcases hx with hx | ⟨m', x', h1, h2, h3⟩
          · cases hx
          · injection h1 with _ h4 h5
            subst h4 h5
            have hx0 : x = 0 := by
              rcases h2 with h2 | h2
              · exact h2.2
              · omega
            have := (h3 1 53 0 (.inr ⟨by decide, by decide, by decide, by decide +kernel⟩) (by omega) (by omega)
              (by omega)).1
            rw [Nat.zero_mul] at this
            have h4 : N ≤ N * 2 ^ ((F : Int) - 0).toNat := Nat.le_mul_of_pos_right _ (Nat.two_pow_pos _)
            generalize N * 2 ^ ((F : Int) - 0).toNat = X at *
            have h5 : 1 * 2 ^ ((53 : Int) - 0).toNat = 9007199254740992 := by decide
            have h6 : 2 ^ 53 = 9007199254740992 := by decide
            rw [h5] at this
            omega
      rw [Real.f64, if_pos rfl, hfin, F64.pow2, if_pos hbig, F64.mul, if_neg hm0, hsb,
        round_large neg h0 (by omega)]
    · rw [Real.f64, if_pos rfl, hfin, F64.pow2, if_neg hbig, if_neg (by omega), F64.mul, Nat.mul_one, hsb]
      refine F64.round_scale hfin h0 ?_
      by_cases h53 : N < 2 ^ 53
      · have hlog := F64.log2_lt53 h0 h53
        exact .inl (by unfold F64.lastPlace; omega)
      · have : 53 ≤ N.log2 := (Nat.le_log2 h0).mpr (by omega)
        exact .inr ⟨by omega, by omega⟩
  exact ⟨fun ha => (f64_parse lib).1.mpr ⟨_, hb.1 ha, hv.symm⟩,
    fun ha => (f64_parse lib).2.mpr ⟨_, hb.2 ha, hv.symm⟩⟩

/-- **C75** (partial) A binary content with a number `N` of less than `2^63` is read as the `f64` nearest to
`±N * 2^F * (2^k)^E`, subnormal and infinite results included, when the power `(2^k)^E` is at least `2^-1023`.
Missing: smaller powers (`C75_small_powers`), larger `N` (`C72_sign_deviation`), the number zero. -/
theorem C75_f64_nearest_partial {i r : Input} {a : Any} {neg : Bool} {N F k len : Nat} {E : Int}
    (ht : a.header.tag = 9) (hp : a.header.constructed = false)
    (hf : BinaryForm a.data.data neg N F k E len) (hl : len ≤ 8) (h0 : N ≠ 0) (h63 : N < 2 ^ 63)
    (hE : -1024 < k * E) :
    ∃ v, Nearest64 neg N (F + k * E) v ∧
    (parseBerAny i = .ok (r, a) → (f64P lib).parseBer i = .ok (r, v)) ∧
    (parseDerAny i = .ok (r, a) → (f64P lib).parseDer i = .ok (r, v)) :=
  ⟨_, F64.round_is_nearest neg N (F + k * E), f64_round lib ht hp hf hl h0 h63 hE⟩

/-- **C75** Deviation: when the power `(2^k)^E` is less than `2^-1023`, every number is read as zero, even those
that an `f64` can represent (up to almost `2^-958`). -/
theorem C75_small_powers {i r : Input} {a : Any} {neg : Bool} {N F k len : Nat} {E : Int}
    (ht : a.header.tag = 9) (hp : a.header.constructed = false)
    (hf : BinaryForm a.data.data neg N F k E len) (hl : len ≤ 8) (h0 : N ≠ 0) (h63 : N < 2 ^ 63)
    (hE : k * E ≤ -1024) :
    (parseBerAny i = .ok (r, a) → (f64P lib).parseBer i = .ok (r, .fin neg 0 0)) ∧
    (parseDerAny i = .ok (r, a) → (f64P lib).parseDer i = .ok (r, .fin neg 0 0)) := by
  have hb := binary_round lib (i := i) (r := r) ht hp hf hl h0 h63
  have hv : Real.f64 lib (.binary (F64.round neg N F) 2 (k * E) (2 ^ k)) = .fin neg 0 0 := by
    obtain ⟨m, x, hfin⟩ := mantissa_fin (neg := neg) h63 (form_scale hf)
    have hsb : (neg != false) = neg := by cases neg <;> rfl
    rw [Real.f64, if_pos rfl, hfin, F64.pow2, if_neg (by omega), if_pos (by omega), F64.mul, Nat.mul_zero, hsb,
      F64.round_zero]
  exact ⟨fun ha => (f64_parse lib).1.mpr ⟨_, hb.1 ha, hv.symm⟩,
    fun ha => (f64_parse lib).2.mpr ⟨_, hb.2 ha, hv.symm⟩⟩

/-- A case: `2^62 * 2^-1024`, that is `2^-962`, is read as zero, although it is a number of `f64`. -/
example : BinaryForm [0x81, 0xfc, 0x00, 0x40, 0, 0, 0, 0, 0, 0, 0] false (2 ^ 62) 0 1 (-1024) 8 ∧
    (f64P noLib).parseBer (Input.fromSlice [9, 11, 0x81, 0xfc, 0x00, 0x40, 0, 0, 0, 0, 0, 0, 0]) =
      .ok (⟨[], 13, 13⟩, .fin false 0 0) ∧ F64Valid (.fin false 1 (-962)) ∧
    SameNumber 1 (-962) (2 ^ 62) (0 + 1 * -1024) :=
  ⟨⟨0, [0xfc, 0x00], [0x40, 0, 0, 0, 0, 0, 0, 0], ⟨0x81, rfl, by decide, by decide, by decide, by decide, by decide,
      by decide⟩, Or.inl ⟨rfl, rfl⟩, by decide, by decide, by decide +kernel, rfl⟩, by decide +kernel,
   .inr ⟨by decide, by decide, by decide, by decide +kernel⟩, by unfold SameNumber; decide +kernel⟩

/-- A case: `(2^52 + 1) * 2^-1023`. -/
example : BinaryForm [0x81, 0xfc, 0x01, 0x10, 0, 0, 0, 0, 0, 1] false (2 ^ 52 + 1) 0 1 (-1023) 7 ∧
    (f64P noLib).parseBer (Input.fromSlice [9, 10, 0x81, 0xfc, 0x01, 0x10, 0, 0, 0, 0, 0, 1]) =
      .ok (⟨[], 12, 12⟩, .fin false (2 ^ 52 + 1) (-1023)) :=
  ⟨⟨0, [0xfc, 0x01], [0x10, 0, 0, 0, 0, 0, 1], ⟨0x81, rfl, by decide, by decide, by decide, by decide, by decide,
      by decide⟩, Or.inl ⟨rfl, rfl⟩, by decide, by decide, by decide +kernel, rfl⟩, by decide +kernel⟩

/-- **C75** (partial) If `±N * 2^F * (2^k)^E` is itself a number of `f64` other than zero, it is read as that
number, when `N` is less than `2^63` and the power `(2^k)^E` at least `2^-1023`. Missing: smaller powers
(`C75_small_powers`), larger `N`. -/
theorem C75_f64_exact_partial {i r : Input} {a : Any} {neg : Bool} {N F k len n : Nat} {E x : Int}
    (ht : a.header.tag = 9) (hp : a.header.constructed = false)
    (hf : BinaryForm a.data.data neg N F k E len) (hl : len ≤ 8) (h63 : N < 2 ^ 63)
    (h0 : n ≠ 0) (hv : F64Valid (.fin neg n x)) (hs : SameNumber n x N (F + k * E)) (hE : -1024 < k * E) :
    (parseBerAny i = .ok (r, a) → (f64P lib).parseBer i = .ok (r, .fin neg n x)) ∧
    (parseDerAny i = .ok (r, a) → (f64P lib).parseDer i = .ok (r, .fin neg n x)) := by
  rcases hv with ⟨rfl, _⟩ | ⟨ho, h53, hlo, hhi⟩
  · exact absurd rfl h0
  have hx : ∃ j : Nat, x = F + k * E + j ∧ N = n * 2 ^ j := by
    unfold SameNumber at hs
    by_cases hle : F + k * E ≤ x
    · refine ⟨(x - (F + k * E)).toNat, by omega, ?_⟩
      rw [Int.min_eq_right hle] at hs
      rw [hs]; simp
    · exfalso
      rw [Int.min_eq_left (by omega)] at hs
      obtain ⟨j, hj⟩ : ∃ j, (F + k * E - x).toNat = j + 1 := ⟨(F + k * E - x).toNat - 1, by omega⟩
      rw [hj, Nat.pow_succ, ← Nat.mul_assoc] at hs
      simp at hs
      omega
  obtain ⟨j, hj, hN⟩ := hx
  have hN0 : N ≠ 0 := by rw [hN]; exact Nat.mul_ne_zero h0 (Nat.pos_iff_ne_zero.mp (Nat.two_pow_pos j))
  have h := f64_round lib (i := i) (r := r) ht hp hf hl hN0 h63 hE
  have hr : F64.round neg N (F + k * E) = .fin neg n x := by
    rw [hN, F64.round_shift neg j _ h0, ← hj, F64.round_odd neg ho h53 hlo hhi]
  rw [hr] at h
  exact h

end Asn1

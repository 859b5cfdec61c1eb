import Verif.Proofs.Real
import Verif.Proofs.Time
/-!
# REAL: encoding
-/
namespace Asn1
open Spec Wr

/-! ### Floating point and its removal -/

theorem gtEps_mono {s t : Bool} {n : Nat} {y z : Int} (hyz : y ≤ z) (h : F64.gtEpsilon (.fin s n y) = true) :
    F64.gtEpsilon (.fin t n z) = true := by
  simp only [F64.gtEpsilon] at h ⊢
  have hn0 : n ≠ 0 := by
    rintro rfl
    simp at h
  split at h
  · rename_i h1
    rw [if_pos (by omega)]
    simp only [decide_eq_true_eq] at h ⊢
    have : 2 ^ (y + 52).toNat ≤ 2 ^ (z + 52).toNat := Nat.pow_le_pow_right (by omega) (by omega)
    exact Nat.lt_of_lt_of_le h (Nat.mul_le_mul_left _ this)
  · rename_i h1
    simp only [decide_eq_true_eq] at h
    have h2 : 2 ≤ 2 ^ (-(y + 52)).toNat :=
      Nat.le_trans (by decide : 2 ≤ 2 ^ 1) (Nat.pow_le_pow_right (by omega) (by omega))
    split
    · simp only [decide_eq_true_eq]
      have : 1 ≤ 2 ^ (z + 52).toNat := Nat.two_pow_pos _
      have := Nat.mul_le_mul_left n this
      omega
    · simp only [decide_eq_true_eq]
      have : 2 ^ (-(z + 52)).toNat ≤ 2 ^ (-(y + 52)).toNat := Nat.pow_le_pow_right (by omega) (by omega)
      omega

theorem ofInt_base {b s : Nat} (hb : EncBase b s) : F64.ofInt b = .fin false 1 s := by
  cases hb <;> decide +kernel

theorem encBase_le {b s : Nat} (hb : EncBase b s) : 1 ≤ s ∧ s ≤ 4 := by cases hb <;> decide

/-- The loop multiplies by the base until there is no fractional part. -/
theorem dropLoop_ok {b s : Nat} (hb : EncBase b s) {n : Nat} (ho : n % 2 = 1) (h53 : n < 2 ^ 53) :
    ∀ (k fuel : Nat) (y e : Int), k ≤ fuel → -1074 ≤ y → 0 ≤ y + s * k →
      (k = 0 ∨ y + s * k < s) → F64.gtEpsilon (.fin false n y) = true →
      dropLoop b fuel (.fin false n y) e = .ok (.fin false n (y + s * k), e - k) := by
  have hs := encBase_le hb
  have hl := F64.log2_lt53 (by omega) h53
  intro k
  induction k with
  | zero =>
    intro fuel y e _ _ h2 _ h4
    have hf : F64.hasFract (.fin false n y) = false := by
      have h0 := F64.hasFract_odd (s := false) (e := y) ho
      have h2 : 0 ≤ y := by simpa using h2
      cases hc : F64.hasFract (.fin false n y) with
      | false => rfl
      | true => have := h0.mp hc; omega
    cases fuel <;> simp [dropLoop, hf]
  | succ k ih =>
    intro fuel y e h1 hy h2 h3 h4
    obtain ⟨f, rfl⟩ : ∃ f, fuel = f + 1 := ⟨fuel - 1, by omega⟩
    have e1 : (s : Int) * ((k + 1 : Nat) : Int) = s * k + s := by
      rw [Int.natCast_add, Int.mul_add]; simp
    rw [e1] at h2 h3
    have hk : 0 ≤ (s : Int) * k := Int.mul_nonneg (by omega) (by omega)
    have hneg : y < 0 := by
      rcases h3 with h3 | h3
      · omega
      · omega
    have hf : F64.hasFract (.fin false n y) = true := (F64.hasFract_odd ho).mpr hneg
    rw [dropLoop, h4, hf, ofInt_base hb, F64.mul_two false ho h53 (by omega) (by omega)]
    simp only [Bool.and_self, if_true]
    rw [ih f (y + s) (e - 1) (by omega) (by omega) (by omega) ?_ (gtEps_mono (by omega) h4)]
    · rw [e1]
      have ea : y + (s : Int) + s * k = y + (s * k + s) := by omega
      have eb : e - 1 - (k : Int) = e - ((k + 1 : Nat) : Int) := by omega
      rw [ea, eb]
    · rcases h3 with h3 | h3
      · omega
      · exact Or.inr (by omega)

/-! ### Normalization -/

theorem mul_pow_mod {n r s : Nat} (ho : n % 2 = 1) (h : r < s) : n * 2 ^ r % 2 ^ s ≠ 0 := by
  intro hc
  have h1 : 2 ^ s ∣ n * 2 ^ r := Nat.dvd_of_mod_eq_zero hc
  have h2 : 2 ^ (r + 1) ∣ n * 2 ^ r := Nat.dvd_trans (Nat.pow_dvd_pow 2 h) h1
  rw [Nat.pow_succ, Nat.mul_comm n] at h2
  have := Nat.dvd_of_mul_dvd_mul_left (Nat.two_pow_pos r) h2
  omega

theorem normalizeBits_ok {s : Nat} {m : Nat} (hm : m % 2 ^ s ≠ 0) :
    ∀ (j fuel : Nat) (e : Int), j ≤ fuel → -(2 ^ 31) ≤ e → e + j < 2 ^ 31 →
      normalizeBits s fuel (m * (2 ^ s) ^ j) e = .ok (m, e + j) := by
  intro j
  induction j with
  | zero =>
    intro fuel e _ _ _
    cases fuel with
    | zero => simp [normalizeBits]
    | succ f => simp [normalizeBits, hm]
  | succ j ih =>
    intro fuel e h1 h2 h3
    obtain ⟨f, rfl⟩ : ∃ f, fuel = f + 1 := ⟨fuel - 1, by omega⟩
    rw [normalizeBits, Nat.pow_succ, ← Nat.mul_assoc, Nat.mul_mod_left, if_pos rfl, chkI32,
      if_pos (by omega), Asn1.bind_ok, Nat.mul_div_cancel _ (Nat.two_pow_pos s),
      ih f (e + 1) (by omega) (by omega) (by omega)]
    congr 2
    omega

theorem scaleBits_ok {n : Nat} (ho : n % 2 = 1) : ∀ (r fuel sf : Nat), r ≤ fuel →
    scaleBits fuel (n * 2 ^ r) sf = (n, sf + r) := by
  intro r
  induction r with
  | zero =>
    intro fuel sf _
    cases fuel with
    | zero => simp [scaleBits]
    | succ f => simp [scaleBits, ho]
  | succ r ih =>
    intro fuel sf h
    obtain ⟨f, rfl⟩ : ∃ f, fuel = f + 1 := ⟨fuel - 1, by omega⟩
    rw [scaleBits, Nat.pow_succ, ← Nat.mul_assoc, Nat.mul_mod_left, if_pos rfl,
      Nat.mul_div_cancel _ (by decide), ih f (sf + 1) (by omega)]
    congr 1
    omega

theorem expLen_ok {E : Int} (h : E.natAbs < 2 ^ 31) : expLen E = .ok (expBytes E) := by
  unfold expLen expBytes chkI32
  rw [if_pos (by omega), Asn1.bind_ok]
  have h1 : ((E.natAbs : Int) ≤ 0xff) ↔ E.natAbs ≤ 0xff := by omega
  have h2 : ((E.natAbs : Int) ≤ 0xffff) ↔ E.natAbs ≤ 0xffff := by omega
  have h3 : ((E.natAbs : Int) ≤ 0xffffff) ↔ E.natAbs ≤ 0xffffff := by omega
  simp only [h1, h2, h3]
  rfl

theorem expBytes_range (E : Int) : 1 ≤ expBytes E ∧ expBytes E ≤ 4 := by
  unfold expBytes; split
  · omega
  · split
    · omega
    · split <;> omega

/-! ### Bytes -/

theorem dropZeros64_spec (bs : Bytes) : beNat (dropZeros64 bs) = beNat bs ∧
    (dropZeros64 bs).head? ≠ some 0 ∧ (dropZeros64 bs = [] ↔ beNat bs = 0) := by
  induction bs with
  | nil => simp [dropZeros64]
  | cons b rest ih =>
    rw [dropZeros64]
    by_cases hb : b = 0
    · subst hb
      rw [if_pos rfl, beNat_cons]
      have : (0 : UInt8).toNat = 0 := rfl
      rw [this, Nat.zero_mul, Nat.zero_add]
      exact ih
    · rw [if_neg hb]
      refine ⟨rfl, by simpa using hb, ?_⟩
      simp only [reduceCtorEq, false_iff]
      rw [beNat_cons]
      have h0 : b.toNat ≠ 0 := fun h => hb ((byte_eq0 b).mpr h)
      have : 0 < b.toNat * 256 ^ rest.length :=
        Nat.mul_pos (by omega) (Nat.pow_pos (by omega))
      omega

theorem lead_length {bs : Bytes} (h : bs.head? ≠ some 0) {n : Nat} (hn : beNat bs < 256 ^ n) :
    bs.length ≤ n := by
  cases bs with
  | nil => simp
  | cons b rest =>
    have hb : b.toNat ≠ 0 := by
      intro h0
      have := (byte_eq0 b).mpr h0
      simp [this] at h
    rw [beNat_cons] at hn
    have h1 : 256 ^ rest.length ≤ b.toNat * 256 ^ rest.length :=
      Nat.le_mul_of_pos_left _ (by omega)
    have h2 : 256 ^ rest.length < 256 ^ n := by omega
    have := (Nat.pow_lt_pow_iff_right (by omega : 1 < 256)).mp h2
    rw [List.length_cons]; omega

theorem toBE_drop : ∀ (L n v : Nat), L ≤ n → (toBE n v).drop (n - L) = toBE L v := by
  intro L
  induction L with
  | zero => intro n v _; rw [toBE]; exact List.drop_of_length_le (by simp)
  | succ L ih =>
    intro n v h
    obtain ⟨k, rfl⟩ : ∃ k, n = k + 1 := ⟨n - 1, by omega⟩
    rw [toBE, toBE]
    have e1 : k + 1 - (L + 1) = k - L := by omega
    rw [e1, List.drop_append_of_le_length (by simp), ih k (v / 256) (by omega)]

/-- The exponent octets: the low octets of the two's complement. -/
theorem exp_octets {E : Int} {L : Nat} (h1 : 1 ≤ L) (h4 : L ≤ 4) :
    ((toBEInt 4 E).drop (4 - L)).length = L ∧ InInt L (twos ((toBEInt 4 E).drop (4 - L))) ∧
      ∃ k : Int, twos ((toBEInt 4 E).drop (4 - L)) = E + k * (256 ^ L : Nat) := by
  unfold toBEInt
  rw [toBE_drop L 4 _ h4]
  have hlen := toBE_length L (E % ((2 ^ (8 * 4) : Nat) : Int)).toNat
  have hbe := beNat_toBE L (E % ((2 ^ (8 * 4) : Nat) : Int)).toNat
  generalize hbs : toBE L (E % ((2 ^ (8 * 4) : Nat) : Int)).toNat = bs at hlen hbe ⊢
  refine ⟨hlen, ?_⟩
  have e6 : (2 : Nat) ^ (8 * 4) = 4294967296 := by decide
  rw [e6] at hbe
  have hmod : ∃ k : Int, (beNat bs : Int) = E + k * (256 ^ L : Nat) := by
    have hL : L = 1 ∨ L = 2 ∨ L = 3 ∨ L = 4 := by omega
    rcases hL with rfl | rfl | rfl | rfl
    · refine ⟨-(E / 256), ?_⟩
      have : (256 : Nat) ^ 1 = 256 := by decide
      rw [this] at hbe ⊢
      omega
    · refine ⟨-(E / 65536), ?_⟩
      have : (256 : Nat) ^ 2 = 65536 := by decide
      rw [this] at hbe ⊢
      omega
    · refine ⟨-(E / 16777216), ?_⟩
      have : (256 : Nat) ^ 3 = 16777216 := by decide
      rw [this] at hbe ⊢
      omega
    · refine ⟨-(E / 4294967296), ?_⟩
      have : (256 : Nat) ^ 4 = 4294967296 := by decide
      rw [this] at hbe ⊢
      omega
  have hlt := beNat_lt bs
  have hhalf := pow8_half h1
  obtain ⟨k, hk⟩ := hmod
  unfold InInt
  rw [hlen] at hlt
  have hs : isHighestBitSet bs = true ∨ isHighestBitSet bs = false := by
    cases isHighestBitSet bs <;> simp
  rcases hs with hs | hs
  · have := high_ge hs
    rw [twos_high hs, hlen]
    rw [hlen] at this
    refine ⟨by omega, k - 1, ?_⟩
    rw [hk, Int.sub_mul]; omega
  · have := low_lt hs (by intro h; rw [h] at hlen; simp at hlen; omega)
    rw [twos_low hs]
    rw [hlen] at this
    exact ⟨by omega, k, hk⟩

theorem exp_octets_eq {E : Int} {L : Nat} (h1 : 1 ≤ L) (h4 : L ≤ 4) (h : InInt L E) :
    twos ((toBEInt 4 E).drop (4 - L)) = E := by
  obtain ⟨_, h2, k, h3⟩ := exp_octets (E := E) h1 h4
  have hhalf := pow8_half h1
  unfold InInt at h h2
  rw [h3] at h2 ⊢
  generalize 2 ^ (8 * L - 1) = H at *
  generalize 256 ^ L = M at *
  have hk : k = 0 := by
    rcases Int.lt_trichotomy k 0 with hk | hk | hk
    · have : k * (M : Int) ≤ -1 * M := Int.mul_le_mul_of_nonneg_right (by omega) (by omega)
      omega
    · exact hk
    · have : 1 * (M : Int) ≤ k * M := Int.mul_le_mul_of_nonneg_right (by omega) (by omega)
      omega
  rw [hk]; simp

theorem realFirst_toNat : ∀ (neg : Bool) (b : Fin 3) (r : Fin 4) (L : Fin 4),
    (realFirst neg (if b.val = 0 then 0 else if b.val = 1 then 0x10 else 0x20) r.val (L.val + 1)).toNat =
      128 + (if neg then 64 else 0) + 16 * b.val + 4 * r.val + L.val := by
  decide +kernel

/-- The number of a base in the first octet. -/
def baseIndex (s : Nat) : Nat := if s = 1 then 0 else if s = 3 then 1 else 2

theorem baseIndex_log {b s : Nat} (hb : EncBase b s) : BaseLog (baseIndex s) s := by
  cases hb <;> simp [BaseLog, baseIndex]

theorem encBaseBits_eq {b s : Nat} (hb : EncBase b s) : encBaseBits b =
    (s, if baseIndex s = 0 then 0 else if baseIndex s = 1 then 0x10 else 0x20) := by
  cases hb <;> rfl

theorem encBase_pow {b s : Nat} (hb : EncBase b s) : b = 2 ^ s := by cases hb <;> rfl

/-! ### The content -/

/-- The content written for sign, number, scale factor and exponent. -/
def realOctets (neg : Bool) (s n r : Nat) (E : Int) : Bytes :=
  realFirst neg (if baseIndex s = 0 then 0 else if baseIndex s = 1 then 0x10 else 0x20) r (expBytes E) ::
    ((if expBytes E = 4 then [4] else []) ++ (toBEInt 4 E).drop (4 - expBytes E) ++ dropZeros64 (toBE 8 n))

theorem pieces_ok {b s : Nat} (hb : EncBase b s) {neg : Bool} {n : Nat} {x y e e0 : Int}
    (ho : n % 2 = 1) (h53 : n < 2 ^ 53) (hy : -1074 ≤ y)
    (hd : dropScale (.fin false n x) b e = .ok (.fin false n y, e0))
    (hg : F64.gtEpsilon (.fin false n y) = true) (h64 : n * 2 ^ y.toNat < 2 ^ 64)
    (he0 : -(2 ^ 31) ≤ e0 ∧ e0 < 2 ^ 31) (hE : (e0 + y / s).natAbs < 2 ^ 31) :
    ∃ ps, realBinaryPieces (.fin neg n x) b e = .ok ps ∧
      ps.flatten = realOctets neg s n (y % s).toNat (e0 + y / s) := by
  have hs := encBase_le hb
  have hspos : (0 : Int) < s := by omega
  have hdm := Int.emod_add_mul_ediv y (s : Int)
  have hm0 := Int.emod_nonneg y (show (s : Int) ≠ 0 by omega)
  have hm1 := Int.emod_lt_of_pos y hspos
  -- the number of turns
  obtain ⟨k, j, hk, hkt, hj, hkj⟩ : ∃ k j : Nat, (k : Int) = -(min (y / s) 0) ∧ 0 ≤ y + s * k ∧
      (k = 0 ∨ y + s * k < s) ∧ y + s * k = s * j + y % s ∧ (j : Int) = y / s + k := by
    by_cases hneg : y / s < 0
    · refine ⟨(-(y / s)).toNat, 0, by omega, ?_, Or.inr ?_, ?_, by omega⟩
      all_goals
        have : ((-(y / (s : Int))).toNat : Int) = -(y / s) := by omega
        rw [this, Int.mul_neg]
        omega
    · refine ⟨0, (y / s).toNat, by omega, ?_, Or.inl rfl, ?_, by omega⟩
      · have : 0 ≤ (s : Int) * (y / s) := Int.mul_nonneg (by omega) (by omega)
        simp; omega
      · have : (((y / (s : Int)).toNat : Nat) : Int) = y / s := by omega
        rw [this]; simp; omega
  obtain ⟨hkt2, hkj1, hkj2⟩ : (k = 0 ∨ y + s * k < s) ∧ y + s * k = s * j + y % s ∧
      (j : Int) = y / s + k := ⟨hj, hkj⟩
  have hfuel : k ≤ (e0 + 2 ^ 31).toNat := by omega
  have hloop := dropLoop_ok hb ho h53 k (e0 + 2 ^ 31).toNat y e0 hfuel hy hkt hkt2 hg
  -- the number written
  have hz : n * 2 ^ (y + s * k).toNat = n * 2 ^ (y % s).toNat * (2 ^ s) ^ j := by
    rw [Nat.mul_assoc, ← Nat.pow_mul, ← Nat.pow_add]
    congr 2
    have h1 : ((s * j : Nat) : Int) = s * j := by rw [Int.natCast_mul]
    omega
  have hz64 : n * 2 ^ (y + s * k).toNat < 2 ^ 64 := by
    rcases hkt2 with h0 | h0
    · subst h0; simpa using h64
    · have : 2 ^ (y + s * k).toNat ≤ 2 ^ 3 := Nat.pow_le_pow_right (by omega) (by omega)
      have := Nat.mul_le_mul_left n this
      omega
  have hj64 : j ≤ 64 := by
    rcases Nat.lt_or_ge 64 j with h0 | h0
    · exfalso
      have h1 : 2 ^ 65 ≤ (2 ^ s) ^ j := by
        rw [← Nat.pow_mul]
        refine Nat.pow_le_pow_right (by omega) ?_
        exact Nat.le_trans (by omega) (Nat.le_mul_of_pos_left j (by omega))
      have h2 : 1 ≤ n * 2 ^ (y % s).toNat := Nat.mul_pos (by omega) (Nat.two_pow_pos _)
      have h3 := Nat.mul_le_mul h2 h1
      rw [← hz] at h3
      have : 2 ^ 64 < 1 * 2 ^ 65 := by decide
      omega
    · exact h0
  have hu := F64.toU64_int hkt hz64
  have hne : n * 2 ^ (y % s).toNat * (2 ^ s) ^ j ≠ 0 := by
    have h1 := Nat.mul_pos (show 0 < n by omega) (Nat.two_pow_pos (y % s).toNat)
    have := Nat.mul_pos h1 (Nat.pow_pos (n := j) (Nat.two_pow_pos s))
    omega
  have hnorm := normalizeBits_ok (s := s) (m := n * 2 ^ (y % s).toNat) (mul_pow_mod ho (by omega)) j 64
    (e0 - k) hj64 (by omega) (by omega)
  have hEj : e0 - (k : Int) + (j : Int) = e0 + y / s := by omega
  rw [hEj] at hnorm
  have hsb := scaleBits_ok ho (y % s).toNat 4 0 (by omega)
  have hpos : (!(F64.fin neg n x).isSignPositive) = neg := by cases neg <;> rfl
  have habs : (F64.fin neg n x).abs = .fin false n x := rfl
  have hdf : dropFloatingPoint (.fin neg n x) b e =
      .ok (neg, n * 2 ^ (y % s).toNat * (2 ^ s) ^ j, e0 - k) := by
    unfold dropFloatingPoint
    rw [habs, hd, Asn1.bind_ok]
    simp only
    rw [hloop, Asn1.bind_ok]
    simp only
    rw [hu, hpos, hz]
    rfl
  refine ⟨[[realFirst neg (encBaseBits b).2 (y % s).toNat (expBytes (e0 + y / s))]] ++
      (if expBytes (e0 + y / s) = 4 then [[4]] else []) ++
      [(toBEInt 4 (e0 + y / s)).drop (4 - expBytes (e0 + y / s))] ++ [dropZeros64 (toBE 8 n)], ?_, ?_⟩
  · unfold realBinaryPieces
    rw [hdf, Asn1.bind_ok]
    simp only
    rw [if_neg hne, encBaseBits_eq hb]
    simp only
    rw [hnorm, Asn1.bind_ok]
    simp only
    rw [expLen_ok hE, Asn1.bind_ok, hsb]
    simp only [Nat.zero_add]
    rfl
  · unfold realOctets
    rw [encBaseBits_eq hb]
    by_cases h4 : expBytes (e0 + y / s) = 4
    · simp [h4]
    · simp [h4]

/-- What is written has the fields of a binary encoding, if the exponent takes less than four octets. -/
theorem realOctets_fields {b s : Nat} (hb : EncBase b s) (neg : Bool) {n r : Nat} (E : Int)
    (hn0 : n ≠ 0) (h53 : n < 2 ^ 53) (hr : r < 4) (hE : expBytes E ≤ 3) :
    BinaryFields (realOctets neg s n r E) neg (baseIndex s) r
      ((toBEInt 4 E).drop (4 - expBytes E)) (dropZeros64 (toBE 8 n)) ∧
      beNat (dropZeros64 (toBE 8 n)) = n ∧ (dropZeros64 (toBE 8 n)).head? ≠ some 0 ∧
      (dropZeros64 (toBE 8 n)).length ≤ 7 := by
  have hR := expBytes_range E
  have hlen := (exp_octets (E := E) hR.1 hR.2).1
  obtain ⟨h1, h2, h3⟩ := dropZeros64_spec (toBE 8 n)
  have e1 : (256 : Nat) ^ 8 = 18446744073709551616 := by decide
  have e2 : (256 : Nat) ^ 7 = 72057594037927936 := by decide
  have e3 : (2 : Nat) ^ 53 = 9007199254740992 := by decide
  have hbn : beNat (toBE 8 n) = n := beNat_toBE_of_lt (by rw [e1]; omega)
  rw [hbn] at h1 h3
  have hi : baseIndex s < 3 := by cases hb <;> decide
  have hf := realFirst_toNat neg ⟨baseIndex s, hi⟩ ⟨r, hr⟩ ⟨expBytes E - 1, by omega⟩
  simp only at hf
  have e4 : expBytes E - 1 + 1 = expBytes E := by omega
  rw [e4] at hf
  refine ⟨⟨realFirst neg (if baseIndex s = 0 then 0 else if baseIndex s = 1 then 0x10 else 0x20) r
    (expBytes E), ?_, ?_, by omega, hr, by omega, by omega, ?_⟩, h1, h2,
    lead_length h2 (by rw [h1, e2]; omega)⟩
  · have h4 : ¬ expBytes E = 4 := by omega
    unfold realOctets; rw [if_neg h4]; rfl
  · rw [hf, hlen]
  · rw [ne_eq, h3]; exact hn0

/-! ### Encodings -/

theorem realWrite_binary {lib : FloatLib} {m : F64} {b : Nat} {e : Int} {ps : List Bytes}
    (h : realBinaryPieces m b e = .ok ps) : Encodes (realToBer lib) (.binary m 2 e b) ps.flatten := by
  have hw : Writes (realWrite lib (.binary m 2 e b)) ps.flatten ps.flatten.length := by
    rw [realWrite, if_neg (by decide), if_neg (by decide), h]
    exact ((writes_pieces ps).bind (f := fun _ => (pure ps.flatten.length : Wr Nat))
      (writes_pure _)).congr (by simp) rfl
  refine ⟨hw, ?_, by show tagReal < 2 ^ 32; decide, rfl⟩
  show realContentLen lib (.binary m 2 e b) = _
  unfold realContentLen
  simp only
  rw [show (realWrite lib (.binary m 2 e b)).exec = _ from hw]

theorem realWrite_special {lib : FloatLib} {r : Real} {cs : Bytes}
    (h : (r = .zero ∧ cs = []) ∨ (r = .infinity ∧ cs = [0x40]) ∨ (r = .negInfinity ∧ cs = [0x41]) ∨
      (r = .nan ∧ cs = [0x42])) : Encodes (realToBer lib) r cs := by
  rcases h with ⟨rfl, rfl⟩ | ⟨rfl, rfl⟩ | ⟨rfl, rfl⟩ | ⟨rfl, rfl⟩ <;>
    exact ⟨rfl, rfl, by show tagReal < 2 ^ 32; decide, rfl⟩

theorem realWrite_decimal (lib : FloatLib) (m : F64) (e : Int) (b : Nat) :
    Encodes (realToBer lib) (.binary m 10 e b) (realDecimalText lib m e) := by
  have hw : Writes (realWrite lib (.binary m 10 e b)) (realDecimalText lib m e)
      (realDecimalText lib m e).length := by
    rw [realWrite, if_pos rfl]
    exact ((writes_writeAll _).bind (f := fun _ => (pure (realDecimalText lib m e).length : Wr Nat))
      (writes_pure _)).congr (by simp) rfl
  refine ⟨hw, ?_, by show tagReal < 2 ^ 32; decide, rfl⟩
  show realContentLen lib (.binary m 10 e b) = _
  unfold realContentLen
  simp only
  rw [show (realWrite lib (.binary m 10 e b)).exec = _ from hw]

end Asn1

import Verif.Proofs.Float
import Verif.Proofs.Integer
import Verif.Proofs.CharStrings
/-!
# REAL: decoding
-/
namespace Asn1
open Spec

/-! ### Shifts -/

theorem shlOr_spec {N : Nat} (hN : 2 ≤ N) (x : Int) (b : UInt8) :
    InInt N (shlOr N x b) ∧ ∃ k : Int, shlOr N x b = x * 256 + b.toNat + k * (2 ^ (8 * N) : Nat) := by
  have hb := b.toNat_lt
  unfold shlOr asSigned InInt
  have hh : 2 ^ (8 * N) = 2 * 2 ^ (8 * N - 1) := by rw [← Nat.pow_succ']; congr 1; omega
  have h8 : 2 ^ (8 * N - 1) = 256 * 2 ^ (8 * N - 9) := by
    rw [show (256 : Nat) = 2 ^ 8 from rfl, ← Nat.pow_add]; congr 1; omega
  have hp : 0 < 2 ^ (8 * N - 9) := Nat.two_pow_pos _
  generalize 2 ^ (8 * N - 9) = Q at *
  generalize 2 ^ (8 * N - 1) = H at *
  generalize 2 ^ (8 * N) = M at *
  have h1 : 0 ≤ x * 256 % (M : Int) := Int.emod_nonneg _ (by omega)
  have h2 : x * 256 % (M : Int) < M := Int.emod_lt_of_pos _ (by omega)
  have h3 := Int.emod_add_mul_ediv (x * 256) (M : Int)
  have h4 : ∃ t : Int, x * 256 % (M : Int) = 256 * t := by
    refine ⟨x - 2 * Q * (x * 256 / (M : Int)), ?_⟩
    generalize x * 256 / (M : Int) = d at *
    have : (M : Int) * d = 256 * (2 * Q * d) := by
      have e1 : (M : Int) = 256 * (2 * Q) := by omega
      rw [e1, Int.mul_assoc]
    omega
  obtain ⟨t, ht⟩ := h4
  generalize hr : x * 256 % (M : Int) = r at *
  have hq : (r.toNat : Int) = r := by omega
  split
  · refine ⟨⟨by omega, by omega⟩, -(x * 256 / M), ?_⟩
    rw [hq, Int.neg_mul, Int.mul_comm (x * 256 / (M : Int))]; omega
  · refine ⟨⟨by omega, by omega⟩, -(x * 256 / M) - 1, ?_⟩
    rw [hq, Int.sub_mul, Int.neg_mul, Int.mul_comm (x * 256 / (M : Int))]; omega

theorem shl_fold {N : Nat} (hN : 2 ≤ N) : ∀ (bs : Bytes) (x : Int), InInt N x →
    InInt N (bs.foldl (shlOr N) x) ∧ ∃ k : Int, bs.foldl (shlOr N) x =
      x * (256 ^ bs.length : Nat) + beNat bs + k * (2 ^ (8 * N) : Nat) := by
  intro bs
  induction bs with
  | nil => intro x hx; exact ⟨hx, 0, by simp⟩
  | cons b bs ih =>
    intro x hx
    obtain ⟨h1, k, h2⟩ := shlOr_spec hN x b
    obtain ⟨h3, k', h4⟩ := ih _ h1
    refine ⟨h3, k * (256 ^ bs.length : Nat) + k', ?_⟩
    rw [List.foldl_cons, h4, h2, beNat_cons, List.length_cons, Nat.pow_succ]
    generalize (2 ^ (8 * N) : Nat) = M
    generalize 256 ^ bs.length = L
    have e0 : ((L * 256 : Nat) : Int) = (L : Int) * 256 := by omega
    have e3 : ((b.toNat * L + beNat bs : Nat) : Int) = (b.toNat : Int) * L + beNat bs := by
      rw [Int.natCast_add, Int.natCast_mul]
    rw [e0, e3]
    simp only [Int.add_mul]
    have e1 : x * 256 * (L : Int) = x * ((L : Int) * 256) := by
      rw [Int.mul_assoc, Int.mul_comm 256]
    have e2 : k * (M : Int) * (L : Int) = k * (L : Int) * (M : Int) := by
      rw [Int.mul_assoc, Int.mul_assoc, Int.mul_comm (M : Int)]
    rw [e1, e2]
    omega

theorem pow256_le {m n : Nat} (h : m ≤ n) : 256 ^ m ≤ 256 ^ n := Nat.pow_le_pow_right (by omega) h

/-- The exponent is read in two's complement. -/
theorem realExponent_eq {tag : Nat} {eo : Bytes} {input : Input} (h1 : 1 ≤ eo.length)
    (h4 : eo.length ≤ 4) : realExponent tag eo input = .ok (twos eo) ∧ InInt 4 (twos eo) := by
  cases eo with
  | nil => simp at h1
  | cons b rest =>
    rw [realExponent, if_neg (by omega)]
    have hand : (b &&& 0x80 ≠ 0) ↔ 128 ≤ b.toNat := by
      have := and80_ne b
      rw [← bne_iff_ne, this, decide_eq_true_eq]
    have hx : InInt 4 (if b &&& 0x80 ≠ 0 then -1 else 0) := by
      unfold InInt; split <;> exact ⟨by decide, by decide⟩
    obtain ⟨h2, k, h3⟩ := shl_fold (N := 4) (by omega) (b :: rest) _ hx
    have hlt := beNat_lt (b :: rest)
    have hle := pow256_le h4
    have key : twos (b :: rest) =
        (if b &&& 0x80 ≠ 0 then (-1 : Int) else 0) * (256 ^ (b :: rest).length : Nat) +
          beNat (b :: rest) := by
      rw [twos]
      by_cases hb : 128 ≤ b.toNat
      · rw [if_pos hb, if_pos (hand.mpr hb)]; omega
      · rw [if_neg hb, if_neg (fun h => hb (hand.mp h))]; omega
    have hi : InInt 4 (twos (b :: rest)) := by
      have hs : isHighestBitSet (b :: rest) = true ∨ isHighestBitSet (b :: rest) = false := by
        cases isHighestBitSet (b :: rest) <;> simp
      have e4 : (2 : Nat) ^ (8 * 4 - 1) = 2147483648 := by decide
      have e5 : (256 : Nat) ^ 4 = 4294967296 := by decide
      unfold InInt
      rw [e4]
      rw [e5] at hle
      rcases hs with hs | hs
      · have := high_ge hs
        rw [twos_high hs]
        omega
      · have := low_lt hs (by simp)
        rw [twos_low hs]
        omega
    refine ⟨?_, hi⟩
    rw [h3, ← key]
    congr 1
    unfold InInt at h2 hi
    rw [h3, ← key] at h2
    have e4 : (2 : Nat) ^ (8 * 4 - 1) = 2147483648 := by decide
    have e6 : (2 : Nat) ^ (8 * 4) = 4294967296 := by decide
    rw [e4] at h2 hi
    rw [e6] at h2 ⊢
    omega

theorem mantissa_fold {bs : Bytes} (h : bs.length ≤ 8) :
    bs.foldl (shlOr 8) 0 = signed64 (beNat bs) := by
  obtain ⟨h2, k, h3⟩ := shl_fold (N := 8) (by omega) bs 0 ⟨by decide, by decide⟩
  have hlt := beNat_lt bs
  have hle := pow256_le h
  unfold InInt at h2
  have e4 : (2 : Nat) ^ (8 * 8 - 1) = 9223372036854775808 := by decide
  have e6 : (2 : Nat) ^ (8 * 8) = 18446744073709551616 := by decide
  have e7 : (256 : Nat) ^ 8 = 18446744073709551616 := by decide
  have e8 : (2 : Nat) ^ 63 = 9223372036854775808 := by decide
  have e9 : (2 : Nat) ^ 64 = 18446744073709551616 := by decide
  rw [e4] at h2
  rw [e6] at h3
  rw [e7] at hle
  unfold signed64
  rw [e8, e9]
  rw [h3] at h2 ⊢
  split <;> omega

/-! ### The first octet -/

/-- Sign, base, scale factor and number of exponent octets. -/
theorem first_fields : ∀ f : UInt8, 128 ≤ f.toNat →
    f.toNat = 128 + (if f &&& 0x40 ≠ 0 then 64 else 0) + 16 * ((f >>> 4) &&& 3).toNat +
      4 * ((f >>> 2) &&& 3).toNat + (f &&& 3).toNat ∧ ((f >>> 4) &&& 3).toNat < 4 ∧
      ((f >>> 2) &&& 3).toNat < 4 ∧ (f &&& 3).toNat < 4 := by
  refine forall_byte ?_
  decide +kernel

theorem first_low : ∀ f : UInt8, f.toNat < 128 →
    ((f &&& 0x40 ≠ 0) ↔ 64 ≤ f.toNat) ∧ (f &&& 3).toNat = f.toNat % 4 := by
  refine forall_byte ?_
  decide +kernel

theorem and3_ne4 (f : UInt8) : f &&& 3 ≠ 4 := by
  revert f
  refine forall_byte ?_
  decide +kernel

theorem byte_lit {b : UInt8} {n : Nat} (hn : n < 256) : b = UInt8.ofNat n ↔ b.toNat = n := by
  rw [byte_eq_iff, UInt8.toNat_ofNat_of_lt' hn]

theorem map_pair_ok {x : Except PErr Int} {n eb : Nat} {e : Int} :
    x.map (n, ·) = .ok (eb, e) ↔ x = .ok e ∧ eb = n := by
  cases x with
  | error err => simp [Except.map]
  | ok y =>
    simp only [Except.map, Except.ok.injEq, Prod.mk.injEq]
    constructor
    · rintro ⟨h1, h2⟩; exact ⟨h2, h1.symm⟩
    · rintro ⟨h1, h2⟩; exact ⟨h2.symm, h1⟩

theorem mulI32_ok {a b c : Int} : mulI32 a b = .ok c ↔ c = a * b ∧ -(2 ^ 31) ≤ c ∧ c < 2 ^ 31 := by
  unfold mulI32
  split
  · rename_i h
    simp only [Except.ok.injEq]
    constructor
    · rintro rfl; exact ⟨rfl, h⟩
    · rintro ⟨rfl, _⟩; rfl
  · rename_i h
    simp only [reduceCtorEq, false_iff]
    rintro ⟨rfl, h2⟩; exact h h2

theorem realBase_ok {tag : Nat} {f : UInt8} {e : Int} {input : Input} {eb : Nat} {e' : Int} :
    realBase tag f e input = .ok (eb, e') ↔ ∃ k, BaseLog ((f >>> 4) &&& 3).toNat k ∧ eb = 2 ^ k ∧
      e' = e * k ∧ (k = 1 ∨ (-(2 ^ 31) ≤ e' ∧ e' < 2 ^ 31)) := by
  unfold realBase
  have h0 : (f >>> 4) &&& 3 = 0 ↔ ((f >>> 4) &&& 3).toNat = 0 := byte_lit (n := 0) (by decide)
  have h1 : (f >>> 4) &&& 3 = 1 ↔ ((f >>> 4) &&& 3).toNat = 1 := byte_lit (n := 1) (by decide)
  have h2 : (f >>> 4) &&& 3 = 2 ↔ ((f >>> 4) &&& 3).toNat = 2 := byte_lit (n := 2) (by decide)
  generalize (f >>> 4) &&& 3 = c at *
  generalize c.toNat = b at *
  by_cases hc0 : c = 0
  · have hb := h0.mp hc0
    rw [if_pos hc0]
    have hB : ∀ k, BaseLog b k ↔ k = 1 := by intro k; unfold BaseLog; omega
    simp only [hB]
    constructor
    · intro h
      injection h with h
      injection h with h3 h4
      subst h3 h4
      exact ⟨1, rfl, rfl, by simp, Or.inl rfl⟩
    · rintro ⟨k, rfl, rfl, rfl, _⟩; simp
  · rw [if_neg hc0]
    by_cases hc1 : c = 1
    · have hb := h1.mp hc1
      have hB : ∀ k, BaseLog b k ↔ k = 3 := by intro k; unfold BaseLog; omega
      rw [if_pos hc1, map_pair_ok, mulI32_ok]
      simp only [hB]
      constructor
      · rintro ⟨⟨h3, h4⟩, rfl⟩; exact ⟨3, rfl, rfl, h3, Or.inr h4⟩
      · rintro ⟨k, rfl, rfl, h3, h4⟩; exact ⟨⟨h3, h4.resolve_left (by decide)⟩, rfl⟩
    · rw [if_neg hc1]
      by_cases hc2 : c = 2
      · have hb := h2.mp hc2
        have hB : ∀ k, BaseLog b k ↔ k = 4 := by intro k; unfold BaseLog; omega
        rw [if_pos hc2, map_pair_ok, mulI32_ok]
        simp only [hB]
        constructor
        · rintro ⟨⟨h3, h4⟩, rfl⟩; exact ⟨4, rfl, rfl, h3, Or.inr h4⟩
        · rintro ⟨k, rfl, rfl, h3, h4⟩; exact ⟨⟨h3, h4.resolve_left (by decide)⟩, rfl⟩
      · rw [if_neg hc2]
        simp only [nomErr, reduceCtorEq, false_iff]
        rintro ⟨k, h | h | h, _⟩
        · exact hc0 (h0.mpr h.1)
        · exact hc1 (h1.mpr h.1)
        · exact hc2 (h2.mpr h.1)

theorem signed64_min {n : Nat} (h : n < 2 ^ 64) : signed64 n = -(2 ^ 63) ↔ n = 2 ^ 63 := by
  unfold signed64; split <;> omega

theorem realMantissa_ok {tag : Nat} {f : UInt8} {rem : Bytes} {input : Input} {p : Int} :
    realMantissa tag f rem input = .ok p ↔ rem.length ≤ 8 ∧
      ¬ ((f &&& 0x40 ≠ 0) ∧ beNat rem = 2 ^ 63) ∧
      p = if f &&& 0x40 ≠ 0 then -signed64 (beNat rem) else signed64 (beNat rem) := by
  unfold realMantissa
  by_cases hl : rem.length > 8
  · rw [if_pos hl]; simp [nomErr]; omega
  · rw [if_neg hl]
    have hn : beNat rem < 2 ^ 64 :=
      Nat.lt_of_lt_of_le (beNat_lt rem) (by have := pow256_le (show rem.length ≤ 8 by omega); omega)
    rw [mantissa_fold (by omega)]
    simp only
    by_cases hf : f &&& 0x40 ≠ 0
    · simp only [if_pos hf]
      split
      · rename_i hm
        have := (signed64_min hn).mp hm
        simp [hf, this]
      · rename_i hm
        have : ¬ beNat rem = 2 ^ 63 := fun h => hm ((signed64_min hn).mpr h)
        simp only [Except.ok.injEq]
        constructor
        · rintro rfl; exact ⟨by omega, fun h => this h.2, rfl⟩
        · rintro ⟨_, _, rfl⟩; rfl
    · simp only [if_neg hf, Except.ok.injEq]
      constructor
      · rintro rfl; exact ⟨by omega, fun h => hf h.1, rfl⟩
      · rintro ⟨_, _, rfl⟩; rfl

theorem signed64_abs {n : Nat} (h : n < 2 ^ 64) : (signed64 n).natAbs < 2 ^ 64 := by
  unfold signed64; split <;> omega

theorem realScale_eq (f : UInt8) {p : Int} (h : p.natAbs < 2 ^ 64) :
    realScale f p = (F64.ofInt p).mul (F64.pow2 ((f >>> 2) &&& 3).toNat) := by
  unfold realScale
  split
  · rename_i h0
    rw [h0]
    obtain ⟨n, e, hp⟩ := F64.ofInt_fin h
    have := F64.ofInt_valid p
    rw [hp] at this ⊢
    exact (F64.mul_pow2_zero this).symm
  · rfl

theorem decodeRealBinary_ok {tag : Nat} {f : UInt8} {rem : Bytes} {input : Input} {r : Real}
    (hf : 128 ≤ f.toNat) : decodeRealBinary tag f rem input = .ok r ↔
      ∃ exp mant neg b F k, BinaryFields (f :: rem) neg b F exp mant ∧ BaseLog b k ∧ mant.length ≤ 8 ∧
        InInt 4 (twos exp * k) ∧ ¬ (neg = true ∧ beNat mant = 2 ^ 63) ∧
        r = .binary ((F64.ofInt (if neg then -signed64 (beNat mant) else signed64 (beNat mant))).mul
          (F64.pow2 F)) 2 (twos exp * k) (2 ^ k) := by
  obtain ⟨hff, hb4, hF4, hl4⟩ := first_fields f hf
  have hr : ∀ x : Int, InInt 4 x ↔ -(2 ^ 31) ≤ x ∧ x < 2 ^ 31 := by
    intro x
    unfold InInt
    have e4 : (2 : Nat) ^ (8 * 4 - 1) = 2147483648 := by decide
    rw [e4]
    omega
  unfold decodeRealBinary
  rw [realExpLen.eq_def, if_neg (and3_ne4 f), Asn1.bind_ok]
  simp only
  constructor
  · intro h
    split at h
    · simp [nomErr] at h
    · rename_i hlen
      have hel : (rem.take ((f &&& 3).toNat + 1)).length = (f &&& 3).toNat + 1 := by
        rw [List.length_take]; omega
      obtain ⟨h1, h2⟩ := realExponent_eq (tag := tag) (input := input)
        (eo := rem.take ((f &&& 3).toNat + 1)) (by omega) (by omega)
      rw [h1, Asn1.bind_ok] at h
      obtain ⟨⟨eb, e'⟩, h3, h⟩ := bind_eq_ok.mp h
      obtain ⟨p, h4, h⟩ := bind_eq_ok.mp h
      obtain ⟨k, h5, rfl, rfl, h6⟩ := realBase_ok.mp h3
      obtain ⟨h7, h8, rfl⟩ := realMantissa_ok.mp h4
      refine ⟨rem.take ((f &&& 3).toNat + 1), rem.drop ((f &&& 3).toNat + 1), decide (f &&& 0x40 ≠ 0),
        _, ((f >>> 2) &&& 3).toNat, k, ⟨f, by rw [List.take_append_drop], ?_, hb4, hF4, by omega,
        by omega, ?_⟩, h5, h7, ?_, ?_, ?_⟩
      · rw [hel]
        simp only [decide_eq_true_eq]
        omega
      · intro hc
        have := congrArg List.length hc
        rw [List.length_drop, List.length_nil] at this
        omega
      · rcases h6 with h6 | h6
        · subst h6; rw [Int.ofNat_one, Int.mul_one]; exact h2
        · exact (hr _).mpr h6
      · simpa using h8
      · injection h with h
        rw [← h, realScale_eq]
        · simp only [decide_eq_true_eq]
        · have := signed64_abs (n := beNat (rem.drop ((f &&& 3).toNat + 1)))
            (Nat.lt_of_lt_of_le (beNat_lt _) (by have := pow256_le h7; omega))
          split
          · rwa [Int.natAbs_neg]
          · exact this
  · rintro ⟨exp, mant, neg, b, F, k, ⟨f', hc, hfv, hb, hF, he1, he4, hm⟩, hbk, hml, hei, hp, rfl⟩
    injection hc with hc1 hc2
    subst hc1
    have hml0 : 0 < mant.length := List.length_pos_iff.mpr hm
    have hn : (f &&& 3).toNat + 1 = exp.length := by
      cases neg <;> simp only [Bool.false_eq_true, if_false, if_true] at hfv <;> split at hff <;> omega
    have hbe : ((f >>> 4) &&& 3).toNat = b := by
      cases neg <;> simp only [Bool.false_eq_true, if_false, if_true] at hfv <;> split at hff <;> omega
    have hFe : ((f >>> 2) &&& 3).toNat = F := by
      cases neg <;> simp only [Bool.false_eq_true, if_false, if_true] at hfv <;> split at hff <;> omega
    have hng : (f &&& 0x40 ≠ 0) ↔ neg = true := by
      cases neg <;> simp only [Bool.false_eq_true, if_false, if_true] at hfv <;> split at hff <;>
        rename_i hx <;> simp [hx] <;> omega
    rw [hn, hc2, if_neg (by rw [List.length_append]; omega), List.take_left' rfl, List.drop_left' rfl,
      (realExponent_eq he1 he4).1, Asn1.bind_ok,
      (realBase_ok (tag := tag) (f := f) (input := input)).mpr ⟨k, hbe ▸ hbk, rfl, rfl,
        Or.inr ((hr _).mp hei)⟩, Asn1.bind_ok,
      (realMantissa_ok (tag := tag) (f := f) (input := input)).mpr ⟨hml, by rw [hng]; exact hp, rfl⟩,
      Asn1.bind_ok]
    simp only [hng]
    have := signed64_abs (n := beNat mant)
      (Nat.lt_of_lt_of_le (beNat_lt _) (by have := pow256_le hml; omega))
    rw [realScale_eq, hFe]
    · rfl
    · split
      · rwa [Int.natAbs_neg]
      · exact this

/-! ### Decimal contents -/

theorem parseDigits32_ok : ∀ (s : Bytes) (acc v : Nat), acc < 2 ^ 32 → (parseDigits32 s acc = some v ↔
    (∀ b ∈ s, 48 ≤ b.toNat ∧ b.toNat ≤ 57) ∧ v < 2 ^ 32 ∧
      v = s.foldl (fun a b => a * 10 + (b.toNat - 48)) acc) := by
  intro s
  induction s with
  | nil =>
    intro acc v h
    simp only [parseDigits32, Option.some.injEq, List.not_mem_nil, false_implies, implies_true, true_and,
      List.foldl_nil]
    constructor
    · rintro rfl; exact ⟨h, rfl⟩
    · rintro ⟨_, rfl⟩; rfl
  | cons b rest ih =>
    intro acc v h
    rw [parseDigits32]
    by_cases hb : 48 ≤ b.toNat ∧ b.toNat ≤ 57
    · rw [if_pos hb]
      by_cases hacc : acc * 10 + (b.toNat - 48) < 2 ^ 32
      · rw [if_pos hacc, ih _ _ hacc]
        simp [hb]
      · rw [if_neg hacc]
        simp only [reduceCtorEq, false_iff, List.foldl_cons]
        rintro ⟨_, h1, h2⟩
        have mono : ∀ (l : Bytes) (x : Nat), x ≤ l.foldl (fun a b => a * 10 + (b.toNat - 48)) x := by
          intro l
          induction l with
          | nil => intro x; exact Nat.le_refl _
          | cons c l ih2 => intro x; exact Nat.le_trans (show x ≤ x * 10 + (c.toNat - 48) by omega) (ih2 _)
        have := mono rest (acc * 10 + (b.toNat - 48))
        omega
    · rw [if_neg hb]
      simp only [reduceCtorEq, false_iff]
      rintro ⟨h1, _⟩
      exact hb (h1 b (List.mem_cons_self ..))

theorem parseU32_ok {s : Bytes} {v : Nat} : parseU32 s = some v ↔
    ∃ d, (s = d ∨ s = 43 :: d) ∧ DigitsOf d v ∧ v < 2 ^ 32 := by
  cases s with
  | nil => simp [parseU32, DigitsOf]
  | cons b rest =>
    rw [parseU32]
    by_cases hb : b = 43
    · subst hb
      rw [if_pos rfl]
      by_cases hr : rest = []
      · subst hr
        rw [if_pos rfl]
        simp only [reduceCtorEq, false_iff]
        rintro ⟨d, rfl | h, h1, _⟩
        · have := h1.2.1 43 (List.mem_cons_self ..)
          exact absurd this.1 (by decide)
        · injection h with _ h; exact h1.1 h.symm
      · rw [if_neg hr, parseDigits32_ok _ _ _ (by decide)]
        constructor
        · rintro ⟨h1, h2, h3⟩; exact ⟨rest, Or.inr rfl, ⟨hr, h1, h3⟩, h2⟩
        · rintro ⟨d, rfl | h, h1, h2⟩
          · have := h1.2.1 43 (List.mem_cons_self ..)
            exact absurd this.1 (by decide)
          · injection h with _ h
            subst h
            exact ⟨h1.2.1, h2, h1.2.2⟩
    · rw [if_neg hb, parseDigits32_ok _ _ _ (by decide)]
      constructor
      · rintro ⟨h1, h2, h3⟩; exact ⟨b :: rest, Or.inl rfl, ⟨by simp, h1, h3⟩, h2⟩
      · rintro ⟨d, rfl | h, h1, h2⟩
        · exact ⟨h1.2.1, h2, h1.2.2⟩
        · injection h with h _
          exact absurd h hb

theorem fromUtf8_ascii : ∀ (s : Bytes), (∀ b ∈ s, b.toNat < 0x80) → ∃ t, fromUtf8 s = some t := by
  intro s
  induction s with
  | nil => intro _; exact ⟨[], rfl⟩
  | cons b rest ih =>
    intro h
    obtain ⟨t, ht⟩ := ih fun x hx => h x (List.mem_cons_of_mem _ hx)
    rw [fromUtf8.eq_def]
    simp only
    rw [if_pos (h b (List.mem_cons_self ..)), ht]
    exact ⟨_, rfl⟩

theorem realOfF64_ok {f : F64} {r : Real} : realOfF64 f = .ok r ↔ Real.new f = some r := by
  unfold realOfF64
  cases Real.new f <;> simp

theorem decodeRealDecimal_ok {lib : FloatLib} {tag : Nat} {f : UInt8} {rem : Bytes} {input : Input}
    {r : Real} (hf : f.toNat < 64) : decodeRealDecimal lib tag f rem input = .ok r ↔
      (f.toNat % 4 = 1 ∧ ∃ d v, (rem = d ∨ rem = 43 :: d) ∧ DigitsOf d v ∧ v < 2 ^ 32 ∧
        Real.new (F64.ofInt v) = some r) ∨
      ((f.toNat % 4 = 2 ∨ f.toNat % 4 = 3) ∧ ∃ t v, rem = Text.utf8 t ∧ lib.parse rem = some v ∧
        Real.new v = some r) := by
  have h3 := (first_low f (by omega)).2
  have e1 : f &&& 3 = 1 ↔ f.toNat % 4 = 1 := by rw [← h3]; exact byte_lit (n := 1) (by decide)
  have e2 : f &&& 3 = 2 ↔ f.toNat % 4 = 2 := by rw [← h3]; exact byte_lit (n := 2) (by decide)
  have e3 : f &&& 3 = 3 ↔ f.toNat % 4 = 3 := by rw [← h3]; exact byte_lit (n := 3) (by decide)
  unfold decodeRealDecimal
  simp only [e1, e2, e3]
  cases hu : fromUtf8 rem with
  | none =>
    simp only [nomErr, reduceCtorEq, false_iff]
    rintro (⟨_, d, v, hd, hv, _⟩ | ⟨_, t, v, ht, _⟩)
    · have : ∀ b ∈ rem, b.toNat < 0x80 := by
        intro b hb
        rcases hd with rfl | rfl
        · have := hv.2.1 b hb; omega
        · rcases List.mem_cons.mp hb with rfl | hb
          · decide
          · have := hv.2.1 b hb; omega
      obtain ⟨t, ht⟩ := fromUtf8_ascii rem this
      rw [hu] at ht; simp at ht
    · rw [fromUtf8_iff.mpr ht] at hu; simp at hu
  | some t =>
    simp only
    by_cases h1 : f.toNat % 4 = 1
    · rw [if_pos h1]
      cases hp : parseU32 rem with
      | none =>
        simp only [nomErr, reduceCtorEq, false_iff]
        rintro (⟨_, d, v, hd, hv, hlt, _⟩ | ⟨hc, _⟩)
        · rw [parseU32_ok.mpr ⟨d, hd, hv, hlt⟩] at hp; simp at hp
        · omega
      | some v =>
        simp only
        rw [realOfF64_ok]
        constructor
        · intro h
          obtain ⟨d, hd, hv, hlt⟩ := parseU32_ok.mp hp
          exact Or.inl ⟨h1, d, v, hd, hv, hlt, h⟩
        · rintro (⟨_, d, w, hd, hv, hlt, hr⟩ | ⟨hc, _⟩)
          · have := parseU32_ok.mpr ⟨d, hd, hv, hlt⟩
            rw [hp] at this
            injection this with this
            rw [this]; exact hr
          · omega
    · rw [if_neg h1]
      by_cases h2 : f.toNat % 4 = 2 ∨ f.toNat % 4 = 3
      · rw [if_pos h2]
        cases hp : lib.parse rem with
        | none =>
          simp only [nomErr, reduceCtorEq, false_iff]
          rintro (⟨hc, _⟩ | ⟨_, t, v, _, hv, _⟩)
          · exact h1 hc
          · simp at hv
        | some v =>
          simp only
          rw [realOfF64_ok]
          constructor
          · intro h; exact Or.inr ⟨h2, t, v, fromUtf8_iff.mp hu, rfl, h⟩
          · rintro (⟨hc, _⟩ | ⟨_, t, w, _, hv, hr⟩)
            · exact absurd hc h1
            · injection hv with hv
              rw [hv]; exact hr
      · rw [if_neg h2]
        simp only [nomErr, reduceCtorEq, false_iff]
        rintro (⟨hc, _⟩ | ⟨hc, _⟩)
        · exact h1 hc
        · exact h2 hc

/-! ### All contents -/

theorem decodeReal_ok {lib : FloatLib} {h : Header} {i : Input} {r : Real}
    (hl : h.length = .definite i.data.length) :
    decodeReal lib h i = .ok r ↔ RealContent lib i.data r := by
  unfold decodeReal
  cases hd : i.data with
  | nil =>
    simp only [Except.ok.injEq]
    constructor
    · rintro rfl; exact .zero
    · intro hc
      cases hc with
      | zero => rfl
      | binary h => obtain ⟨f, hc, _⟩ := h; simp at hc
  | cons f rem =>
    simp only
    have h80 : (f &&& 0x80 ≠ 0) ↔ 128 ≤ f.toNat := by
      rw [← bne_iff_ne, and80_ne f, decide_eq_true_eq]
    by_cases h1 : f &&& 0x80 ≠ 0
    · have hf := h80.mp h1
      rw [if_pos h1, decodeRealBinary_ok hf]
      constructor
      · rintro ⟨exp, mant, neg, b, F, k, h2, h3, h4, h5, h6, rfl⟩
        exact .binary h2 h3 h4 h5 h6
      · intro hc
        cases hc with
        | binary h2 h3 h4 h5 h6 => exact ⟨_, _, _, _, _, _, h2, h3, h4, h5, h6, rfl⟩
        | infinity => exact absurd hf (by decide)
        | negInfinity => exact absurd hf (by decide)
        | nan => exact absurd hf (by decide)
        | nr1 h1 => omega
        | nr23 h1 => omega
    · have hf : f.toNat < 128 := by have := mt h80.mpr h1; omega
      rw [if_neg h1]
      have nobin : ∀ {neg b F exp mant}, ¬ BinaryFields (f :: rem) neg b F exp mant := by
        rintro neg b F exp mant ⟨g, hc, hg, _⟩
        injection hc with hc _
        subst hc; omega
      by_cases h2 : f &&& 0x40 ≠ 0
      · rw [if_pos h2]
        have hf64 := (first_low f hf).1.mp h2
        unfold decodeRealSpecial
        rw [hl, hd]
        by_cases h3 : rem = []
        · subst h3
          rw [if_neg (by simp)]
          by_cases e0 : f = 0x40
          · subst e0; rw [if_pos rfl, Except.ok.injEq]
            constructor
            · rintro rfl; exact .infinity
            · intro hc
              cases hc with
              | binary h => exact absurd h nobin
              | infinity => rfl
              | nr1 h1 => exact absurd h1 (by decide)
              | nr23 h1 => exact absurd h1 (by decide)
          · rw [if_neg e0]
            by_cases e1 : f = 0x41
            · subst e1; rw [if_pos rfl, Except.ok.injEq]
              constructor
              · rintro rfl; exact .negInfinity
              · intro hc
                cases hc with
                | binary h => exact absurd h nobin
                | negInfinity => rfl
                | nr1 h1 => exact absurd h1 (by decide)
                | nr23 h1 => exact absurd h1 (by decide)
            · rw [if_neg e1]
              by_cases e2 : f = 0x42
              · subst e2; rw [if_pos rfl, Except.ok.injEq]
                constructor
                · rintro rfl; exact .nan
                · intro hc
                  cases hc with
                  | binary h => exact absurd h nobin
                  | nan => rfl
                  | nr1 h1 => exact absurd h1 (by decide)
                  | nr23 h1 => exact absurd h1 (by decide)
              · rw [if_neg e2]
                simp only [nomErr, reduceCtorEq, false_iff]
                intro hc
                cases hc with
                | binary h => exact absurd h nobin
                | infinity => exact e0 rfl
                | negInfinity => exact e1 rfl
                | nan => exact e2 rfl
                | nr1 h1 => omega
                | nr23 h1 => omega
        · rw [if_pos (by simp [h3])]
          simp only [nomErr, reduceCtorEq, false_iff]
          intro hc
          cases hc with
          | binary h => exact absurd h nobin
          | infinity => exact h3 rfl
          | negInfinity => exact h3 rfl
          | nan => exact h3 rfl
          | nr1 h1 => omega
          | nr23 h1 => omega
      · rw [if_neg h2]
        have hf64 : f.toNat < 64 := by have := mt (first_low f hf).1.mpr h2; omega
        rw [decodeRealDecimal_ok hf64]
        constructor
        · rintro (⟨h3, d, v, h4, h5, h6, h7⟩ | ⟨h3, t, v, h4, h5, h6⟩)
          · exact .nr1 hf64 h3 h4 h5 h6 h7
          · exact .nr23 hf64 h3 ⟨t, h4⟩ h5 h6
        · intro hc
          cases hc with
          | binary h => exact absurd h nobin
          | infinity => exact absurd hf64 (by decide)
          | negInfinity => exact absurd hf64 (by decide)
          | nan => exact absurd hf64 (by decide)
          | nr1 h1 h2 h3 h4 h5 h6 => exact Or.inl ⟨h2, _, _, h3, h4, h5, h6⟩
          | nr23 h1 h2 h3 h4 h5 => obtain ⟨t, ht⟩ := h3; exact Or.inr ⟨h2, t, _, ht, h4, h5⟩

theorem real_contents (lib : FloatLib) :
    Contents (realP lib) (fun constructed cs r => constructed = false ∧ RealContent lib cs r) := by
  intro h i r hh
  show (∃ x, (h.assertPrimitive i >>= fun _ => decodeReal lib h i >>= fun r => i.atEnd >>= fun rem =>
    pure (rem, r)) = .ok (x, r)) ↔ _
  constructor
  · rintro ⟨x, hx⟩
    obtain ⟨u, h1, hx⟩ := bind_eq_ok.mp hx
    obtain ⟨r', h2, hx⟩ := bind_eq_ok.mp hx
    obtain ⟨rem, h3, hx⟩ := bind_eq_ok.mp hx
    injection hx with hx
    injection hx with _ hx
    subst hx
    have hc := assertPrimitive_ok.mp h1
    exact ⟨hc, (decodeReal_ok (hh.2 hc)).mp h2⟩
  · rintro ⟨hc, hr⟩
    have hx := atEnd_eq i
    exact ⟨_, by rw [assertPrimitive_ok (u := ()) |>.mpr hc, Asn1.bind_ok, (decodeReal_ok (hh.2 hc)).mpr hr,
      Asn1.bind_ok, hx, Asn1.bind_ok]; rfl⟩

end Asn1

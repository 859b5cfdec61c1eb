import Verif.Model.Integer
import Verif.Spec.Integer
import Verif.Proofs.Writer
import Verif.Base.Bits
/-!
# INTEGER contents
-/
namespace Asn1
open Spec Wr

theorem ble128 (b : UInt8) : (b ≥ 0x80) ↔ 128 ≤ b.toNat := by
  rw [ge_iff_le, UInt8.le_iff_toNat_le]; rfl

theorem blt128 (b : UInt8) : (b < 0x80) ↔ b.toNat < 128 := by
  rw [UInt8.lt_iff_toNat_lt]; rfl

theorem byte_eq0 (b : UInt8) : b = 0 ↔ b.toNat = 0 := by rw [byte_eq_iff]; rfl
theorem byte_eqff (b : UInt8) : b = 0xff ↔ b.toNat = 255 := by rw [byte_eq_iff]; rfl

theorem checkDerIntBytes_ok (bs : Bytes) : checkDerIntBytes bs = .ok () ↔ MinimalInt bs := by
  match bs with
  | [] => simp [checkDerIntBytes, MinimalInt]
  | [b] => simp [checkDerIntBytes, MinimalInt]
  | a :: b :: rest =>
    simp only [checkDerIntBytes, MinimalInt, byte_eq0, byte_eqff, ble128, blt128]
    split
    · rename_i h; simp [h]
    · split
      · rename_i h; simp [h]
      · rename_i h1 h2; simp; omega

theorem highest_eq (bs : Bytes) : isHighestBitSet bs = true ↔
    ∃ b rest, bs = b :: rest ∧ 128 ≤ b.toNat := by
  cases bs with
  | nil => simp [isHighestBitSet]
  | cons b rest => simp [isHighestBitSet, and80_ne]

theorem pow8 (N : Nat) : 2 ^ (8 * N) = 256 ^ N := by rw [Nat.pow_mul]

theorem pow8_half {N : Nat} (h : 1 ≤ N) : 2 * 2 ^ (8 * N - 1) = 256 ^ N := by
  rw [← pow8, ← Nat.pow_succ']; congr 1; omega

theorem beNat_replicate_zero (n : Nat) (bs : Bytes) :
    beNat (List.replicate n 0 ++ bs) = beNat bs := by
  induction n with
  | zero => simp
  | succ n ih => rw [List.replicate_succ, List.cons_append, beNat_cons]; simpa using ih

theorem beNat_replicate_ff (n : Nat) (bs : Bytes) :
    beNat (List.replicate n 0xff ++ bs) + 256 ^ bs.length = 256 ^ (n + bs.length) + beNat bs := by
  induction n with
  | zero => simp; omega
  | succ n ih =>
    rw [List.replicate_succ, List.cons_append, beNat_cons]
    have e : (0xff : UInt8).toNat = 255 := rfl
    rw [e, List.length_append, List.length_replicate, Nat.add_right_comm n 1, Nat.pow_succ]
    omega

/-- Dropping leading zeros keeps the value; what remains is empty, a single byte, or starts
with a non-zero byte. -/
theorem nonZeroPosition_spec (bs : Bytes) :
    (nonZeroPosition bs = none ∧ beNat bs = 0) ∨
    ∃ k b rest, nonZeroPosition bs = some k ∧ bs.drop k = b :: rest ∧ b.toNat ≠ 0 ∧
      beNat (bs.drop k) = beNat bs := by
  induction bs with
  | nil => left; simp [nonZeroPosition]
  | cons b rest ih =>
    by_cases hb : b = 0
    · subst hb
      rcases ih with ⟨h1, h2⟩ | ⟨k, c, r, h1, h2, h3, h4⟩
      · left; simp [nonZeroPosition, h1, beNat_cons, h2]
      · right
        refine ⟨k + 1, c, r, by simp [nonZeroPosition, h1], by simpa using h2, h3, ?_⟩
        rw [List.drop_succ_cons, h4, beNat_cons]; simp
    · right
      exact ⟨0, b, rest, by simp [nonZeroPosition, hb], by simp, by rwa [byte_eq0] at hb, by simp⟩

theorem beNat_zero_last {bs : Bytes} (h : beNat bs = 0) : beNat (bs.drop (bs.length - 1)) = 0 := by
  have h1 := List.take_append_drop (bs.length - 1) bs
  rw [← h1, beNat_append] at h
  omega

theorem beNat_head_le (b : UInt8) (rest : Bytes) (h : b.toNat ≠ 0) :
    256 ^ rest.length ≤ beNat (b :: rest) := by
  rw [beNat_cons]
  have := Nat.mul_le_mul_right (256 ^ rest.length) (show 1 ≤ b.toNat by omega)
  omega

/-- `trim_slice` on a non-negative content. -/
theorem trimSlice_pos {bs : Bytes} (h : isHighestBitSet bs = false) :
    beNat (trimSlice bs) = beNat bs ∧
    (∀ N, 1 ≤ N → ((trimSlice bs).length ≤ N ↔ beNat bs < 256 ^ N)) := by
  have key : ∀ cs : Bytes, beNat cs = beNat bs → (cs.length ≤ 1 ∨
      ∃ b rest, cs = b :: rest ∧ b.toNat ≠ 0) → ∀ N, 1 ≤ N →
      (cs.length ≤ N ↔ beNat bs < 256 ^ N) := by
    intro cs hv hc N hN
    have hlt := beNat_lt cs
    constructor
    · intro hle
      have : 256 ^ cs.length ≤ 256 ^ N := Nat.pow_le_pow_right (by omega) hle
      omega
    · intro hb
      rcases hc with hc | ⟨b, rest, rfl, hne⟩
      · omega
      · have h1 := beNat_head_le b rest hne
        rw [hv] at h1
        have : rest.length < N := by
          apply (Nat.pow_lt_pow_iff_right (show 1 < 256 by omega)).mp
          omega
        simp; omega
  cases bs with
  | nil => exact ⟨rfl, key _ rfl (by simp [trimSlice])⟩
  | cons b rest =>
    have hlow : b.toNat < 128 := by
      have := mt (highest_eq (b :: rest)).mpr (by simp [h])
      simp at this; exact this
    unfold trimSlice
    by_cases hb : b = 0
    · subst hb
      simp only [ne_eq, not_true_eq_false, false_and, if_false]
      rcases nonZeroPosition_spec (0 :: rest) with ⟨h1, h2⟩ | ⟨k, c, r, h1, h2, h3, h4⟩
      · rw [h1]
        have h0 := beNat_zero_last h2
        refine ⟨by rw [h0, h2], key _ (by rw [h0, h2]) (Or.inl (by simp))⟩
      · rw [h1]
        cases k with
        | zero => simp at h2; exact absurd (congrArg UInt8.toNat h2.1).symm h3
        | succ k => exact ⟨h4, key _ h4 (Or.inr ⟨c, r, h2, h3⟩)⟩
    · have hff : b ≠ 0xff := by rw [ne_eq, byte_eqff]; omega
      simp only [ne_eq, hb, not_false_eq_true, hff, and_self, if_true]
      exact ⟨trivial, key _ rfl (Or.inr ⟨b, rest, rfl, by rwa [byte_eq0] at hb⟩)⟩

theorem twos_low {bs : Bytes} (h : isHighestBitSet bs = false) : twos bs = beNat bs := by
  cases bs with
  | nil => rfl
  | cons b rest =>
    have := mt (highest_eq (b :: rest)).mpr (by simp [h])
    simp at this
    simp [twos, show ¬ 128 ≤ b.toNat by omega]

theorem twos_high {bs : Bytes} (h : isHighestBitSet bs = true) :
    twos bs = (beNat bs : Int) - (256 ^ bs.length : Nat) := by
  obtain ⟨b, rest, rfl, hb⟩ := (highest_eq bs).mp h
  simp [twos, hb]

theorem high_ge {bs : Bytes} (h : isHighestBitSet bs = true) : 256 ^ bs.length ≤ 2 * beNat bs := by
  obtain ⟨b, rest, rfl, hb⟩ := (highest_eq bs).mp h
  rw [beNat_cons, List.length_cons, Nat.pow_succ]
  have := Nat.mul_le_mul_right (256 ^ rest.length) hb
  omega

theorem low_lt {bs : Bytes} (h : isHighestBitSet bs = false) (hne : bs ≠ []) :
    2 * beNat bs < 256 ^ bs.length := by
  cases bs with
  | nil => simp at hne
  | cons b rest =>
    have := mt (highest_eq (b :: rest)).mpr (by simp [h])
    simp at this
    rw [beNat_cons, List.length_cons, Nat.pow_succ]
    have h2 := beNat_lt rest
    have := Nat.mul_le_mul_right (256 ^ rest.length) (show b.toNat ≤ 127 by omega)
    omega

theorem decodeArrayUint_ok {N : Nat} (hN : 1 ≤ N) {bs ar : Bytes} :
    decodeArrayUint N bs = .ok ar ↔ InUint N (twos bs) ∧ ar = toBE N (beNat bs) := by
  unfold decodeArrayUint InUint
  by_cases h : isHighestBitSet bs = true
  · rw [if_pos h, twos_high h]
    have := beNat_lt bs
    simp only [reduceCtorEq, false_iff]
    omega
  · rw [if_neg h]
    have h' : isHighestBitSet bs = false := by simpa using h
    rw [twos_low h']
    obtain ⟨h1, h2⟩ := trimSlice_pos h'
    have h2 := h2 N hN
    have hpad : (trimSlice bs).length ≤ N →
        List.replicate (N - (trimSlice bs).length) 0 ++ trimSlice bs = toBE N (beNat bs) := by
      intro hle
      apply beNat_inj
      · simp; omega
      · rw [beNat_replicate_zero, h1, beNat_toBE_of_lt (h2.mp hle)]
    by_cases hle : (trimSlice bs).length ≤ N
    · rw [if_neg (by omega), hpad hle]
      have h3 := h2.mp hle
      simp only [Except.ok.injEq]
      constructor
      · intro h; exact ⟨⟨by omega, by omega⟩, h.symm⟩
      · intro h; exact h.2.symm
    · rw [if_pos (by omega)]
      have h3 := mt h2.mpr hle
      simp only [reduceCtorEq, false_iff]
      rintro ⟨⟨_, h4⟩, _⟩
      omega

theorem liftErr_ok {α : Type} {input : Input} {r : Except InnerError α} {a : α} :
    liftErr input r = .ok a ↔ r = .ok a := by
  cases r <;> simp [liftErr, nomErr]

theorem assertPrimitive_ok {h : Header} {i : Input} {u : Unit} :
    h.assertPrimitive i = .ok u ↔ h.constructed = false := by
  unfold Header.assertPrimitive nomErr
  cases h.constructed <;> simp

theorem atEnd_eq (i : Input) : i.atEnd = .ok (after i i.data.length) := by
  simp [Input.atEnd, Input.takeFrom, Input.len, after]

/-- Unsigned content decoding, characterized. -/
theorem uintContent_ok {N : Nat} (hN : 1 ≤ N) {h : Header} {i r : Input} {v : Nat} :
    uintContent N h i = .ok (r, v) ↔
      h.constructed = false ∧ InUint N (twos i.data) ∧ (v : Int) = twos i.data ∧
        r = after i i.data.length := by
  unfold uintContent
  rw [atEnd_eq]
  constructor
  · intro hh
    obtain ⟨_, h1, hh⟩ := bind_eq_ok.mp hh
    obtain ⟨ar, h2, hh⟩ := bind_eq_ok.mp hh
    rw [assertPrimitive_ok] at h1
    obtain ⟨h3, h4⟩ := (decodeArrayUint_ok hN).mp (liftErr_ok.mp h2)
    simp at hh
    have hlow : isHighestBitSet i.data = false := by
      rcases hb : isHighestBitSet i.data with _ | _
      · rfl
      · have := beNat_lt i.data
        rw [InUint, twos_high hb] at h3; omega
    refine ⟨h1, h3, ?_, hh.1.symm⟩
    rw [← hh.2, h4, twos_low hlow] 
    rw [InUint, twos_low hlow] at h3
    rw [beNat_toBE_of_lt (by omega)]
  · rintro ⟨h1, h2, h3, h4⟩
    have ha : h.assertPrimitive i = .ok () := assertPrimitive_ok.mpr h1
    have hd := (decodeArrayUint_ok hN (bs := i.data)).mpr ⟨h2, rfl⟩
    have hlow : isHighestBitSet i.data = false := by
      rcases hb : isHighestBitSet i.data with _ | _
      · rfl
      · have := beNat_lt i.data
        rw [InUint, twos_high hb] at h2; omega
    rw [ha, bind_ok, hd]
    simp only [liftErr, bind_ok, pure_ok]
    rw [InUint, twos_low hlow] at h2
    rw [twos_low hlow] at h3
    rw [beNat_toBE_of_lt (by omega), h4]
    have : v = beNat i.data := by omega
    rw [this]

/-- Signed value decoding, characterized: negative contents must fit the width as written. -/
theorem intValue_ok {N : Nat} (hN : 1 ≤ N) {i : Input} {u : Nat} :
    intValue N i = .ok u ↔ InInt N (twos i.data) ∧ asSigned N u = twos i.data ∧ u < 256 ^ N ∧
      (isHighestBitSet i.data = true → i.data.length ≤ N) := by
  have hp := pow8_half hN
  have hp8 := pow8 N
  unfold intValue asSigned InInt
  by_cases hb : isHighestBitSet i.data = true
  · rw [if_pos hb, twos_high hb]
    have h1 := high_ge hb
    have h2 := beNat_lt i.data
    unfold decodeArrayInt
    by_cases hl : i.data.length ≤ N
    · rw [if_neg (by omega)]
      simp only [liftErr, bind_ok, pure_ok, Except.ok.injEq, hl, implies_true, and_true]
      have h3 := beNat_replicate_ff (N - i.data.length) i.data
      rw [show N - i.data.length + i.data.length = N by omega] at h3
      have h4 : 256 ^ i.data.length ≤ 256 ^ N := Nat.pow_le_pow_right (by omega) hl
      rw [hp8]
      generalize beNat (List.replicate (N - i.data.length) 255 ++ i.data) = w at *
      constructor
      · rintro rfl
        refine ⟨by omega, ?_, by omega⟩
        rw [if_neg (by omega)]
        omega
      · rintro ⟨_, h5, h6⟩
        split at h5 <;> omega
    · rw [if_pos (by omega)]
      simp [liftErr, nomErr, hl, hb]
  · have hb' : isHighestBitSet i.data = false := by simpa using hb
    rw [if_neg hb, twos_low hb']
    constructor
    · intro hh
      obtain ⟨ar, h1, hh⟩ := bind_eq_ok.mp hh
      obtain ⟨h2, h3⟩ := (decodeArrayUint_ok hN).mp (liftErr_ok.mp h1)
      rw [InUint, twos_low hb'] at h2
      rw [h3, beNat_toBE_of_lt (by omega)] at hh
      simp only at hh
      split at hh
      · simp [nomErr] at hh
      · simp at hh; subst hh
        refine ⟨by omega, ?_, by omega, by simp [hb']⟩
        rw [if_pos (by omega)]
    · rintro ⟨h1, h2, h3, _⟩
      have hd := (decodeArrayUint_ok hN (bs := i.data)).mpr
        ⟨by rw [InUint, twos_low hb']; omega, rfl⟩
      rw [hd]
      simp only [liftErr, bind_ok]
      rw [beNat_toBE_of_lt (by omega), if_neg (by omega)]
      rw [hp8] at h2
      split at h2
      · simp; omega
      · omega

/-- For a minimal negative content, fitting the width is being in range. -/
theorem minimal_len {N : Nat} (hN : 1 ≤ N) {bs : Bytes} (hm : MinimalInt bs)
    (hb : isHighestBitSet bs = true) (hr : InInt N (twos bs)) : bs.length ≤ N := by
  have hp := pow8_half hN
  rw [InInt, twos_high hb] at hr
  obtain ⟨a, rest, rfl, ha⟩ := (highest_eq bs).mp hb
  cases rest with
  | nil => simpa using hN
  | cons b rest =>
    simp only [MinimalInt] at hm
    have hba := byte_lt a
    have hbb := byte_lt b
    have h2 := beNat_lt rest
    have e : beNat (a :: b :: rest) = (a.toNat * 256 + b.toNat) * 256 ^ rest.length + beNat rest := by
      rw [beNat_cons, beNat_cons, List.length_cons, Nat.pow_succ, Nat.add_mul]
      rw [Nat.mul_comm (256 ^ _) 256, ← Nat.mul_assoc]; omega
    have h3 : (a.toNat * 256 + b.toNat) * 256 ^ rest.length ≤ (255 * 256 + 127) * 256 ^ rest.length :=
      Nat.mul_le_mul_right _ (by omega)
    rw [e] at hr
    simp only [List.length_cons, Nat.pow_succ] at hr ⊢
    by_cases hlt : rest.length + 1 + 1 ≤ N
    · exact hlt
    · exfalso
      have h4 : 256 ^ N ≤ 256 ^ (rest.length + 1) := Nat.pow_le_pow_right (by omega) (by omega)
      rw [Nat.pow_succ] at h4
      omega

/-- Signed content decoding. -/
theorem intContent_ok {N : Nat} (hN : 1 ≤ N) {h : Header} {i r : Input} {v : Int} :
    intContent N h i = .ok (r, v) ↔
      h.constructed = false ∧ InInt N v ∧ v = twos i.data ∧ r = after i i.data.length ∧
      (isHighestBitSet i.data = true → i.data.length ≤ N) := by
  unfold intContent
  rw [atEnd_eq]
  constructor
  · intro hh
    obtain ⟨_, h1, hh⟩ := bind_eq_ok.mp hh
    obtain ⟨u, h2, hh⟩ := bind_eq_ok.mp hh
    rw [assertPrimitive_ok] at h1
    obtain ⟨h3, h4, h5, h6⟩ := (intValue_ok hN).mp h2
    simp at hh
    refine ⟨h1, ?_, ?_, hh.1.symm, h6⟩
    · rw [← hh.2, h4]; exact h3
    · rw [← hh.2, h4]
  · rintro ⟨h1, h2, h3, h4, h5⟩
    have ha : h.assertPrimitive i = .ok () := assertPrimitive_ok.mpr h1
    have hp := pow8_half hN
    have hp8 := pow8 N
    rw [h3] at h2
    have hv := (intValue_ok hN (i := i)
      (u := (if 0 ≤ v then v else v + (256 ^ N : Nat)).toNat)).mpr ⟨h2, ?_, ?_, h5⟩
    · rw [ha, bind_ok, hv]
      simp only [bind_ok, pure_ok, h4, h3]
      obtain ⟨_, e, _⟩ := (intValue_ok hN).mp hv
      rw [← h3] at e ⊢; rw [e]
    · rw [← h3] at h2 ⊢
      unfold InInt at h2
      unfold asSigned
      rw [hp8]
      split <;> split <;> omega
    · rw [← h3] at h2
      unfold InInt at h2
      split <;> omega

theorem checkDerIntInput_ok {i : Input} {u : Unit} : checkDerIntInput i = .ok u ↔ MinimalInt i.data := by
  rw [← checkDerIntBytes_ok]
  unfold checkDerIntInput nomErr
  cases checkDerIntBytes i.data <;> simp

/-! ### Encoding -/

theorem dropZeros_spec (bs : Bytes) (hne : bs ≠ []) (hl : isHighestBitSet bs = false) :
    MinimalInt (dropZeros bs) ∧ beNat (dropZeros bs) = beNat bs ∧
    isHighestBitSet (dropZeros bs) = false ∧ (dropZeros bs).length ≤ bs.length := by
  fun_induction dropZeros bs with
  | case1 a b rest hc ih =>
    have hlow : isHighestBitSet (b :: rest) = false := by
      rcases h : isHighestBitSet (b :: rest) with _ | _
      · rfl
      · obtain ⟨c, r, e, hc'⟩ := (highest_eq _).mp h
        simp at e
        have := (blt128 b).mp hc.2
        rw [e.1] at this; omega
    obtain ⟨h1, h2, h3, h4⟩ := ih (by simp) hlow
    refine ⟨h1, ?_, h3, by simp at h4 ⊢; omega⟩
    rw [h2, beNat_cons (b := a), hc.1]; simp
  | case2 a b rest hc =>
    refine ⟨?_, rfl, hl, by simp⟩
    rw [byte_eq0, blt128] at hc
    refine ⟨hc, ?_⟩
    rintro ⟨ha, _⟩
    have := mt (highest_eq (a :: b :: rest)).mpr (by simp [hl])
    simp at this; omega
  | case3 bs hb =>
    match bs, hb with
    | [b], _ => exact ⟨trivial, rfl, hl, by simp⟩
    | [], _ => simp at hne
    | a :: b :: rest, hb => exact absurd rfl (hb a b rest)

theorem dropFFs_spec (bs : Bytes) (hne : bs ≠ []) (hh : isHighestBitSet bs = true) :
    MinimalInt (dropFFs bs) ∧ twos (dropFFs bs) = twos bs ∧
    isHighestBitSet (dropFFs bs) = true ∧ (dropFFs bs).length ≤ bs.length := by
  fun_induction dropFFs bs with
  | case1 a b rest hc ih =>
    have hhi : isHighestBitSet (b :: rest) = true :=
      (highest_eq _).mpr ⟨b, rest, rfl, (ble128 b).mp hc.2⟩
    obtain ⟨h1, h2, h3, h4⟩ := ih (by simp) hhi
    refine ⟨h1, ?_, h3, by simp at h4 ⊢; omega⟩
    rw [h2, twos_high hhi, twos_high hh, beNat_cons (b := a)]
    have := (byte_eqff a).mp hc.1
    rw [this]
    simp only [List.length_cons, Nat.pow_succ]
    omega
  | case2 a b rest hc =>
    refine ⟨⟨?_, ?_⟩, rfl, hh, by simp⟩
    · rintro ⟨ha, _⟩
      obtain ⟨c, r, e, hc'⟩ := (highest_eq _).mp hh
      simp at e
      rw [e.1] at ha; omega
    · rwa [byte_eqff, ble128] at hc
  | case3 bs hb =>
    match bs, hb with
    | [b], _ => exact ⟨trivial, rfl, hh, by simp⟩
    | [], _ => simp at hne
    | a :: b :: rest, hb => exact absurd rfl (hb a b rest)

theorem highest_toBE {N : Nat} (hN : 1 ≤ N) {v : Nat} (hv : v < 256 ^ N) :
    isHighestBitSet (toBE N v) = true ↔ 256 ^ N ≤ 2 * v := by
  have e := beNat_toBE_of_lt hv
  have hne : toBE N v ≠ [] := by
    intro h; have := toBE_length N v; rw [h] at this; simp at this; omega
  constructor
  · intro h
    have := high_ge h
    rwa [toBE_length, e] at this
  · intro h
    rcases hb : isHighestBitSet (toBE N v) with _ | _
    · have := low_lt hb hne
      rw [toBE_length, e] at this; omega
    · rfl

/-- The `Integer` made from an unsigned machine integer. -/
theorem fromUint_spec {N : Nat} (hN : 1 ≤ N) {v : Nat} (hv : v < 256 ^ N) :
    ∃ d, Integer.fromUint N v = some ⟨d⟩ ∧ MinimalInt d ∧ twos d = v ∧ d.length ≤ N + 1 := by
  have e := beNat_toBE_of_lt hv
  have hne : toBE N v ≠ [] := by
    intro h; have := toBE_length N v; rw [h] at this; simp at this; omega
  unfold Integer.fromUint Integer.fromConstArray
  by_cases hb : isHighestBitSet (toBE N v) = true
  · rw [if_pos hb]
    refine ⟨_, rfl, ?_, ?_, by simp⟩
    · obtain ⟨b, rest, e, hb⟩ := (highest_eq _).mp hb
      rw [e]
      refine ⟨by omega, ?_⟩
      rintro ⟨h, _⟩; simp at h
    · simp [twos, beNat_cons, e]
  · rw [if_neg hb, if_neg hne]
    have hb' : isHighestBitSet (toBE N v) = false := by simpa using hb
    obtain ⟨h1, h2, h3, h4⟩ := dropZeros_spec _ hne hb'
    refine ⟨_, rfl, h1, ?_, by rw [toBE_length] at h4; omega⟩
    rw [twos_low h3, h2, e]

/-- The `Integer` made from a signed machine integer. -/
theorem fromInt_spec {N : Nat} (hN : 1 ≤ N) {v : Int} (hv : InInt N v) :
    ∃ d, Integer.fromInt N v = some ⟨d⟩ ∧ MinimalInt d ∧ twos d = v ∧ d.length ≤ N := by
  have hp := pow8_half hN
  have hp8 := pow8 N
  unfold InInt at hv
  unfold Integer.fromInt toBEInt
  rw [hp8]
  by_cases hpos : v ≥ 0
  · rw [if_pos hpos]
    have hm : (v % (256 ^ N : Nat)).toNat = v.toNat := by
      rw [Int.emod_eq_of_lt hpos (by omega)]
    rw [hm]
    have hlt : v.toNat < 256 ^ N := by omega
    have hb : isHighestBitSet (toBE N v.toNat) = false := by
      rcases hb : isHighestBitSet (toBE N v.toNat) with _ | _
      · rfl
      · have := (highest_toBE hN hlt).mp hb; omega
    have hne : toBE N v.toNat ≠ [] := by
      intro h; have := toBE_length N v.toNat; rw [h] at this; simp at this; omega
    unfold Integer.fromConstArray
    rw [if_neg (by simp [hb]), if_neg hne]
    obtain ⟨h1, h2, h3, h4⟩ := dropZeros_spec _ hne hb
    refine ⟨_, rfl, h1, ?_, by rw [toBE_length] at h4; omega⟩
    rw [twos_low h3, h2, beNat_toBE_of_lt hlt]; omega
  · rw [if_neg hpos]
    have hm : (v % (256 ^ N : Nat)) = v + (256 ^ N : Nat) := by
      rw [← Int.add_emod_right, Int.emod_eq_of_lt (by omega) (by omega)]
    rw [hm]
    have hlt : (v + (256 ^ N : Nat)).toNat < 256 ^ N := by omega
    have hb := (highest_toBE hN hlt).mpr (by omega)
    have hne : toBE N (v + (256 ^ N : Nat)).toNat ≠ [] := by
      intro h; rw [h] at hb; simp [isHighestBitSet] at hb
    unfold Integer.fromConstArrayNegative
    rw [if_neg hne]
    obtain ⟨h1, h2, h3, h4⟩ := dropFFs_spec _ hne hb
    refine ⟨_, rfl, h1, ?_, by rw [toBE_length] at h4; omega⟩
    rw [h2, twos_high hb, beNat_toBE_of_lt hlt, toBE_length]; omega

/-- Minimal contents with the same value are equal. -/
theorem minimal_unique {x y : Bytes} (hx : MinimalInt x) (hy : MinimalInt y)
    (h : twos x = twos y) : x = y := by
  have hxne : x ≠ [] := by rintro rfl; exact hx
  have hyne : y ≠ [] := by rintro rfl; exact hy
  -- the length is determined by the value
  have key : ∀ {a b : Bytes}, MinimalInt a → MinimalInt b → a ≠ [] → b ≠ [] → twos a = twos b →
      a.length < b.length → False := by
    intro a b ha hb hane hbne hv hl
    have hN : 1 ≤ a.length := by cases a <;> simp at hane ⊢
    have hp := pow8_half hN
    -- b has at least two bytes
    match b, hb with
    | [c], _ => rw [List.length_singleton] at hl; omega
    | c :: d :: rest, hb =>
      simp only [MinimalInt] at hb
      have hbc := byte_lt c
      have hbd := byte_lt d
      have h2 := beNat_lt rest
      have hpow : 256 ^ a.length ≤ 256 ^ (rest.length + 1) :=
        Nat.pow_le_pow_right (by omega) (by simp at hl; omega)
      have hea := beNat_lt a
      have e : beNat (c :: d :: rest)
          = (c.toNat * 256 + d.toNat) * 256 ^ rest.length + beNat rest := by
        rw [beNat_cons, beNat_cons, List.length_cons, Nat.pow_succ, Nat.add_mul]
        rw [Nat.mul_comm (256 ^ _) 256, ← Nat.mul_assoc]; omega
      rw [Nat.pow_succ] at hpow
      have hlow : ∀ k, k ≤ c.toNat * 256 + d.toNat →
          k * 256 ^ rest.length ≤ (c.toNat * 256 + d.toNat) * 256 ^ rest.length :=
        fun k hk => Nat.mul_le_mul_right _ hk
      have hupp : ∀ k, c.toNat * 256 + d.toNat ≤ k →
          (c.toNat * 256 + d.toNat) * 256 ^ rest.length ≤ k * 256 ^ rest.length :=
        fun k hk => Nat.mul_le_mul_right _ hk
      have hsa : 2 * twos a < (256 ^ a.length : Nat) ∧ -(256 ^ a.length : Nat) ≤ 2 * twos a := by
        rcases hba : isHighestBitSet a with _ | _
        · rw [twos_low hba]; have := low_lt hba hane; omega
        · rw [twos_high hba]; have := high_ge hba; omega
      rcases hbb : isHighestBitSet (c :: d :: rest) with _ | _
      · have hc128 : c.toNat < 128 := by
          have := mt (highest_eq (c :: d :: rest)).mpr (by simp [hbb])
          simpa using this
        rw [twos_low hbb, e] at hv
        have := hlow 128 (by omega)
        omega
      · have hc128 : 128 ≤ c.toNat := by
          obtain ⟨_, _, e, h⟩ := (highest_eq _).mp hbb
          simp at e; rw [e.1]; exact h
        rw [twos_high hbb, e] at hv
        simp only [List.length_cons, Nat.pow_succ] at hv
        have := hupp (255 * 256 + 127) (by omega)
        omega
  have hlen : x.length = y.length := by
    rcases Nat.lt_trichotomy x.length y.length with h1 | h1 | h1
    · exact (key hx hy hxne hyne h h1).elim
    · exact h1
    · exact (key hy hx hyne hxne h.symm h1).elim
  apply beNat_inj hlen
  have hx' := beNat_lt x
  have hy' := beNat_lt y
  rw [hlen] at hx'
  rcases h1 : isHighestBitSet x with _ | _ <;> rcases h2 : isHighestBitSet y with _ | _
  · rw [twos_low h1, twos_low h2] at h; omega
  · rw [twos_low h1, twos_high h2] at h; omega
  · rw [twos_high h1, twos_low h2] at h; rw [hlen] at h; omega
  · rw [twos_high h1, twos_high h2, hlen] at h; omega

end Asn1

import Verif.Proofs.Writer
import Verif.Proofs.Header
/-!
# The header encoder writes minimal identifier and length octets
-/
namespace Asn1
open Spec Wr

/-- The identifier octets the encoder writes. -/
def identOctets (c : Class) (p : Bool) (t : Nat) : Bytes := (writeTagGeneric c p t).exec.1
/-- The length octets the encoder writes. -/
def lenOctets (l : Length) : Bytes := (writeLength l).exec.1

theorem ident0_toNat (c : Class) (p : Bool) (low : Nat) (h : low < 32) :
    ((UInt8.ofNat c.toNat <<< 6) ||| (if p then 0x20 else 0) ||| UInt8.ofNat low).toNat
      = identByte c p low := by
  have : ∀ low : Fin 32, ((UInt8.ofNat c.toNat <<< 6) ||| (if p then 0x20 else 0) |||
      UInt8.ofNat low.val).toNat = identByte c p low.val := by
    cases c <;> cases p <;> decide +kernel
  exact this ⟨low, h⟩

theorem and7f_ofNat (v : Nat) : (UInt8.ofNat (v &&& 0x7f)).toNat = v % 128 := by
  rw [ofNat_toNat_mod]
  have : v &&& 0x7f = v % 128 := Nat.and_two_pow_sub_one_eq_mod v 7
  omega

theorem tagBuf_spec (idx val : Nat) (buf : Bytes) (h1 : 1 ≤ idx) (hv : val < 128 ^ (idx - 1)) :
    ∃ hi, tagBuf idx val buf = .ok (hi ++ buf) ∧ (∀ b ∈ hi, 128 ≤ b.toNat) ∧
      base128 hi = val ∧ hi.length ≤ idx - 1 ∧ (hi = [] ∨ 128 ^ (hi.length - 1) ≤ val) := by
  induction idx generalizing val buf with
  | zero => omega
  | succ idx ih =>
    unfold tagBuf
    by_cases h0 : val > 0
    · rw [if_pos h0]
      have hidx : idx ≠ 0 := by
        rintro rfl; simp at hv; omega
      rw [if_neg hidx]
      have hsh : val >>> 7 = val / 128 := Nat.shiftRight_eq_div_pow val 7
      have hv' : val / 128 < 128 ^ (idx - 1) := by
        rw [Nat.div_lt_iff_lt_mul (by omega)]
        have : 128 ^ (idx + 1 - 1) = 128 ^ (idx - 1) * 128 := by
          rw [← Nat.pow_succ]; congr 1; omega
        omega
      obtain ⟨hi, e, g1, g2, g3, g4⟩ := ih (val / 128)
        ((UInt8.ofNat (val &&& 0x7f) ||| 0x80) :: buf) (by omega) hv'
      have hb : (UInt8.ofNat (val &&& 0x7f) ||| 0x80).toNat = val % 128 + 128 := by
        rw [or80_toNat _ (by rw [and7f_ofNat]; omega), and7f_ofNat]
      refine ⟨hi ++ [UInt8.ofNat (val &&& 0x7f) ||| 0x80], ?_, ?_, ?_, ?_, ?_⟩
      · rw [hsh, e]; simp
      · intro b hb'
        simp only [List.mem_append, List.mem_singleton] at hb'
        rcases hb' with h | rfl
        · exact g1 b h
        · omega
      · rw [base128_concat, g2, hb]; omega
      · simp; omega
      · right
        simp only [List.length_append, List.length_singleton, Nat.add_sub_cancel]
        rcases g4 with rfl | h
        · simp; omega
        · by_cases hn : hi.length = 0
          · simp [hn]; omega
          · have : 128 ^ hi.length = 128 ^ (hi.length - 1) * 128 := by
              rw [← Nat.pow_succ]; congr 1; omega
            rw [this]; omega
    · rw [if_neg h0]
      exact ⟨[], rfl, by simp, by simp [base128]; omega, by simp, Or.inl rfl⟩

/-- Everything about the identifier octets written by the encoder. -/
theorem writeTag_spec (c : Class) (p : Bool) (t : Nat) (ht : t < 2 ^ 32) :
    Writes (writeTagGeneric c p t) (identOctets c p t) (identOctets c p t).length ∧
    ((t < 31 ∧ ∃ b : UInt8, identOctets c p t = [b] ∧ b.toNat = identByte c p t) ∨
     (31 ≤ t ∧ ∃ (b : UInt8) (hi : Bytes) (last : UInt8), identOctets c p t = b :: (hi ++ [last]) ∧
        b.toNat = identByte c p 31 ∧ (∀ x ∈ hi, 128 ≤ x.toNat) ∧ last.toNat < 128 ∧
        base128 (hi ++ [last]) = t ∧ (hi = [] ∨ 128 ^ hi.length ≤ t))) := by
  by_cases h : t < 31
  · have hw : Writes (writeTagGeneric c p t)
        [UInt8.ofNat c.toNat <<< 6 ||| (if p then 0x20 else 0) ||| UInt8.ofNat t] 1 := by
      unfold writeTagGeneric
      simp only [if_pos h]
      exact (writes_writeAll _).bind (writes_pure 1)
    have he : identOctets c p t = _ := congrArg Prod.fst hw
    rw [he]
    exact ⟨hw, Or.inl ⟨h, _, rfl, ident0_toNat c p t (by omega)⟩⟩
  · have hsh : t >>> 7 = t / 128 := Nat.shiftRight_eq_div_pow t 7
    obtain ⟨hi, e, g1, g2, g3, g4⟩ := tagBuf_spec 7 (t >>> 7) [UInt8.ofNat (t &&& 0x7f)]
      (by omega) (by rw [hsh]; omega)
    have hw : Writes (writeTagGeneric c p t)
        ((UInt8.ofNat c.toNat <<< 6 ||| (if p then 0x20 else 0) ||| 0x1f) ::
          (hi ++ [UInt8.ofNat (t &&& 0x7f)]))
        (1 + (hi ++ [UInt8.ofNat (t &&& 0x7f)]).length) := by
      unfold writeTagGeneric
      simp only [if_neg h, e]
      simp only [Writes, exec_bind, exec_writeAll, exec_pure]
      simp
    have he : identOctets c p t = _ := congrArg Prod.fst hw
    rw [he]
    refine ⟨?_, Or.inr ⟨by omega, _, hi, _, rfl, ?_, g1, ?_, ?_, ?_⟩⟩
    · exact hw.congr rfl (by simp; omega)
    · exact ident0_toNat c p 31 (by omega)
    · rw [and7f_ofNat]; omega
    · rw [base128_concat, g2, hsh, and7f_ofNat]; omega
    · rcases g4 with rfl | g4
      · exact Or.inl rfl
      · by_cases hn : hi = []
        · exact Or.inl hn
        · right
          have hl : 1 ≤ hi.length := by
            cases hi with
            | nil => exact absurd rfl hn
            | cons _ _ => simp
          have : 128 ^ hi.length = 128 ^ (hi.length - 1) * 128 := by
            rw [← Nat.pow_succ]; congr 1; omega
          rw [hsh] at g4
          rw [this]; omega

theorem identOctets_ident (c : Class) (p : Bool) {t : Nat} (ht : t < 2 ^ 32) :
    Ident c p t (identOctets c p t) := by
  rcases (writeTag_spec c p t ht).2 with ⟨h, b, e, hb⟩ | ⟨h, b, hi, last, e, hb, h1, h2, h3, h4⟩
  · rw [e]; exact .low b h hb
  · rw [e]
    refine .high b _ hb ⟨hi, last, rfl, h1, h2⟩ ?_ ?_
    · rcases h4 with rfl | h4
      · simp
      · simp only [List.length_append, List.length_singleton]
        have : hi.length < 5 := by
          by_cases hlt : hi.length < 5
          · exact hlt
          · exfalso
            have : 128 ^ 5 ≤ 128 ^ hi.length := Nat.pow_le_pow_right (by omega) (by omega)
            omega
        omega
    · rw [h3, Nat.mod_eq_of_lt ht]

/-- No accepted identifier octets for the same tag are shorter. -/
theorem identOctets_minimal {c : Class} {p : Bool} {t : Nat} (ht : t < 2 ^ 32) {id : Bytes}
    (h : Ident c p t id) : (identOctets c p t).length ≤ id.length := by
  rcases (writeTag_spec c p t ht).2 with ⟨_, b, e, _⟩ | ⟨hge, b, hi, last, e, _, _, _, _, h4⟩
  · rw [e]; cases h <;> simp
  · rw [e]
    cases h with
    | low b' hlt _ => omega
    | high b' bs hb hg hl htag =>
      simp only [List.length_cons, List.length_append, List.length_nil]
      rcases h4 with rfl | h4
      · obtain ⟨init, last', rfl, _⟩ := hg; simp
      · have h1 : t ≤ base128 bs := by rw [htag]; exact Nat.mod_le _ _
        have h2 := base128_lt bs
        have h3 : 128 ^ hi.length < 128 ^ bs.length := by omega
        have := (Nat.pow_lt_pow_iff_right (by omega : 1 < 128)).mp h3
        omega

theorem dropWhile_zero (bs : Bytes) :
    beNat (bs.dropWhile (· == 0)) = beNat bs ∧
    (beNat bs ≠ 0 → ∃ x xs, bs.dropWhile (· == 0) = x :: xs ∧ x.toNat ≠ 0) := by
  induction bs with
  | nil => simp
  | cons b bs ih =>
    rw [List.dropWhile_cons]
    by_cases hb : b = 0
    · subst hb
      have : beNat (0 :: bs) = beNat bs := by rw [beNat_cons]; simp
      simp only [beq_self_eq_true, if_true, this]
      exact ih
    · have : (b == 0) = false := by simpa using hb
      simp only [this, Bool.false_eq_true, if_false]
      refine ⟨trivial, fun _ => ⟨b, bs, rfl, ?_⟩⟩
      intro h; apply hb; rw [byte_eq_iff, h]; rfl

theorem or80_ofNat (n : Nat) (h : n ≤ 8) : (0x80 ||| UInt8.ofNat n).toNat = 128 + n := by
  have : ∀ n : Fin 9, (0x80 ||| UInt8.ofNat n.val).toNat = 128 + n.val := by decide +kernel
  exact this ⟨n, by omega⟩

/-- Everything about the length octets written by the encoder. -/
theorem writeLength_spec (l : Length) (hl : ∀ n, l = .definite n → n < 2 ^ 64) :
    Writes (writeLength l) (lenOctets l) (lenOctets l).length ∧
    ((l = .indefinite ∧ ∃ b : UInt8, lenOctets l = [b] ∧ b.toNat = 128) ∨
     ∃ n, l = .definite n ∧
      ((n < 128 ∧ ∃ b : UInt8, lenOctets l = [b] ∧ b.toNat = n) ∨
       (128 ≤ n ∧ ∃ (b : UInt8) (x : UInt8) (xs : Bytes), lenOctets l = b :: x :: xs ∧
          b.toNat = 128 + (xs.length + 1) ∧
          x.toNat ≠ 0 ∧ xs.length + 1 ≤ 8 ∧ beNat (x :: xs) = n))) := by
  cases l with
  | indefinite =>
    have hw : Writes (writeLength .indefinite) [0x80] 1 :=
      (writes_writeAll _).bind (writes_pure 1)
    have he : lenOctets .indefinite = _ := congrArg Prod.fst hw
    rw [he]
    exact ⟨hw, Or.inl ⟨rfl, _, rfl, rfl⟩⟩
  | definite n =>
    have hn : n < 2 ^ 64 := hl n rfl
    by_cases h : n ≤ 127
    · have hw : Writes (writeLength (.definite n)) [UInt8.ofNat n] 1 := by
        unfold writeLength
        simp only [if_pos h]
        exact (writes_writeAll _).bind (writes_pure 1)
      have he : lenOctets (.definite n) = _ := congrArg Prod.fst hw
      rw [he]
      refine ⟨hw, Or.inr ⟨n, rfl, Or.inl ⟨by omega, _, rfl, ?_⟩⟩⟩
      rw [ofNat_toNat_mod]; omega
    · have hbe : beNat (toBE 8 n) = n := beNat_toBE_of_lt (by omega)
      obtain ⟨d1, d2⟩ := dropWhile_zero (toBE 8 n)
      rw [hbe] at d1 d2
      obtain ⟨x, xs, hx, hx0⟩ := d2 (by omega)
      have hle : (x :: xs).length ≤ 8 := by
        rw [← hx]
        have := (List.dropWhile_suffix (l := toBE 8 n) (· == 0)).length_le
        simpa using this
      have hw : Writes (writeLength (.definite n))
          ((0x80 ||| UInt8.ofNat (x :: xs).length) :: x :: xs) (1 + (x :: xs).length) := by
        unfold writeLength
        simp only [if_neg h, hx, List.isEmpty_cons, Bool.false_eq_true, if_false]
        simp only [Writes, exec_bind, exec_writeAll, exec_pure]
        simp
      have he : lenOctets (.definite n) = _ := congrArg Prod.fst hw
      rw [he]
      refine ⟨?_, Or.inr ⟨n, rfl, Or.inr ⟨by omega, _, x, xs, rfl, ?_, hx0, hle, ?_⟩⟩⟩
      · exact hw.congr rfl (by simp; omega)
      · rw [or80_ofNat _ hle]; rfl
      · rw [← hx]; exact d1

theorem lenOctets_len {p : Bool} {l : Length} (hl : ∀ n, l = .definite n → n < 2 ^ 64)
    (hp : l = .indefinite → p = true) : Len p l (lenOctets l) := by
  rcases (writeLength_spec l hl).2 with ⟨h, b, e, hb⟩ | ⟨n, h, ⟨hn, b, e, hb⟩ |
    ⟨hn, b, x, xs, e, hb, hx, hle, hv⟩⟩
  · rw [e]; exact .indefinite b hb (hp h) h
  · rw [e]; exact .short b (by omega) (by rw [h, hb])
  · rw [e]
    refine .long b _ (by simpa using hb) (by simp) (by simp; omega) ?_ ?_
    · rw [hv]; exact hl n h
    · rw [h, hv]

/-- No accepted length octets for the same length are shorter. -/
theorem lenOctets_minimal {p : Bool} {l : Length} (hl : ∀ n, l = .definite n → n < 2 ^ 64)
    {len : Bytes} (h : Len p l len) : (lenOctets l).length ≤ len.length := by
  rcases (writeLength_spec l hl).2 with ⟨_, b, e, hb⟩ | ⟨n, hn', ⟨hn, b, e, hb⟩ |
    ⟨hn, b, x, xs, e, hb, hx, hle, hv⟩⟩
  · rw [e]; cases h <;> simp
  · rw [e]; cases h <;> simp
  · rw [e]
    subst hn'
    cases h with
    | short b' hb' hl' => simp at hl'; omega
    | indefinite b' hb' hc' hl' => simp at hl'
    | long b' bs hb' h0 h1 hv' hl' =>
      simp at hl'
      simp only [List.length_cons]
      have h2 := beNat_lt bs
      have h3 : 256 ^ xs.length ≤ beNat (x :: xs) := by
        rw [beNat_cons]
        have : 1 * 256 ^ xs.length ≤ x.toNat * 256 ^ xs.length :=
          Nat.mul_le_mul_right _ (by omega)
        omega
      have := (Nat.pow_lt_pow_iff_right (by omega : 1 < 256)).mp
        (by omega : 256 ^ xs.length < 256 ^ bs.length)
      omega

end Asn1

import Verif.Model.Text
/-!
# Facts about UTF-8, UTF-16 and UCS-4
-/
namespace Asn1

theorem char_range (c : Char) : c.toNat < 0xd800 ∨ (0xdfff < c.toNat ∧ c.toNat < 0x110000) :=
  c.valid

theorem toNat_charOfNat {n : Nat} (h : n < 0xd800 ∨ (0xdfff < n ∧ n < 0x110000)) :
    (Char.ofNat n).toNat = n := by
  have : n.isValidChar := h
  simp [Char.ofNat, this, Char.toNat, Char.ofNatAux, UInt32.toNat]

theorem ofNat_byte {n : Nat} (h : n < 256) : (UInt8.ofNat n).toNat = n := by
  simp [UInt8.toNat_ofNat', Nat.mod_eq_of_lt h]

theorem byte_eq {b : UInt8} {n : Nat} (h : b.toNat = n) : b = UInt8.ofNat n := by
  rw [← h]; simp

theorem utf8_nil : Text.utf8 [] = [] := rfl
theorem utf8_cons (c : Char) (s : Text) : Text.utf8 (c :: s) = String.utf8EncodeChar c ++ Text.utf8 s :=
  rfl
theorem utf8_append (s t : Text) : Text.utf8 (s ++ t) = Text.utf8 s ++ Text.utf8 t := by
  simp [Text.utf8]

theorem fromUtf8_char (c : Char) (r : Bytes) :
    fromUtf8 (String.utf8EncodeChar c ++ r) = (fromUtf8 r).map (c :: ·) := by
  have hc := char_range c
  have hn : c.val.toNat = c.toNat := rfl
  have back : ∀ n, n = c.toNat → Char.ofNat n = c := fun n h => by rw [h, Char.ofNat_toNat]
  unfold String.utf8EncodeChar
  simp only [hn]
  generalize hm : c.toNat = n at *
  by_cases h1 : n ≤ 0x7f
  · have h2 : (UInt8.ofNat n).toNat = n := ofNat_byte (by omega)
    rw [if_pos h1, List.singleton_append, fromUtf8.eq_def]; simp only; rw [h2, if_pos (by omega), back n rfl]
  · rw [if_neg h1]
    by_cases h2 : n ≤ 0x7ff
    · have e0 : (UInt8.ofNat (n / 64 % 32 + 0xc0)).toNat = n / 64 + 0xc0 := by
        rw [ofNat_byte (by omega)]; omega
      have e1 : (UInt8.ofNat (n % 64 + 0x80)).toNat = n % 64 + 0x80 := ofNat_byte (by omega)
      rw [if_pos h2, List.cons_append, List.cons_append, List.nil_append, fromUtf8, e0,
        if_neg (by omega), if_pos (by omega)]
      simp only [isCont, e1, utf8Two, e0]
      rw [if_pos (decide_eq_true (by omega)), back _ (by omega)]
    · rw [if_neg h2]
      by_cases h3 : n ≤ 0xffff
      · have e0 : (UInt8.ofNat (n / 4096 % 16 + 0xe0)).toNat = n / 4096 + 0xe0 := by
          rw [ofNat_byte (by omega)]; omega
        have e1 : (UInt8.ofNat (n / 64 % 64 + 0x80)).toNat = n / 64 % 64 + 0x80 :=
          ofNat_byte (by omega)
        have e2 : (UInt8.ofNat (n % 64 + 0x80)).toNat = n % 64 + 0x80 := ofNat_byte (by omega)
        rw [if_pos h3, List.cons_append, List.cons_append, List.cons_append, List.nil_append, fromUtf8,
          e0, if_neg (by omega), if_neg (by omega), if_pos (by omega)]
        simp only [second3, isCont, e1, e2, utf8Three, e0]
        rw [if_pos (by simp; omega), back _ (by omega)]
      · have e0 : (UInt8.ofNat (n / 262144 % 8 + 0xf0)).toNat = n / 262144 + 0xf0 := by
          rw [ofNat_byte (by omega)]; omega
        have e1 : (UInt8.ofNat (n / 4096 % 64 + 0x80)).toNat = n / 4096 % 64 + 0x80 :=
          ofNat_byte (by omega)
        have e2 : (UInt8.ofNat (n / 64 % 64 + 0x80)).toNat = n / 64 % 64 + 0x80 :=
          ofNat_byte (by omega)
        have e3 : (UInt8.ofNat (n % 64 + 0x80)).toNat = n % 64 + 0x80 := ofNat_byte (by omega)
        rw [if_neg h3, List.cons_append, List.cons_append, List.cons_append, List.cons_append,
          List.nil_append, fromUtf8, e0, if_neg (by omega), if_neg (by omega), if_neg (by omega),
          if_pos (by omega)]
        simp only [second4, isCont, e1, e2, e3, utf8Four, e0]
        rw [if_pos (by simp; omega), back _ (by omega)]

theorem fromUtf8_utf8 (s : Text) : fromUtf8 (Text.utf8 s) = some s := by
  induction s with
  | nil => rfl
  | cons c s ih => rw [utf8_cons, fromUtf8_char, ih]; rfl

theorem utf8_one {b : UInt8} (h : b.toNat < 0x80) :
    String.utf8EncodeChar (Char.ofNat b.toNat) = [b] := by
  have e : (Char.ofNat b.toNat).val.toNat = b.toNat := toNat_charOfNat (by omega)
  unfold String.utf8EncodeChar
  simp only [e]
  rw [if_pos (by omega)]; simp

theorem utf8_two {b0 b1 : UInt8} (h0 : 0xc2 ≤ b0.toNat ∧ b0.toNat ≤ 0xdf) (h1 : isCont b1 = true) :
    String.utf8EncodeChar (utf8Two b0 b1) = [b0, b1] := by
  have h1 := of_decide_eq_true h1
  have e : (utf8Two b0 b1).val.toNat = b0.toNat % 32 * 64 + b1.toNat % 64 :=
    toNat_charOfNat (by omega)
  unfold String.utf8EncodeChar
  simp only [e]
  rw [if_neg (by omega), if_pos (by omega), ← byte_eq (b := b0) (by omega),
    ← byte_eq (b := b1) (by omega)]

theorem utf8_three {b0 b1 b2 : UInt8} (h0 : 0xe0 ≤ b0.toNat ∧ b0.toNat ≤ 0xef)
    (h1 : (second3 b0 b1 && isCont b2) = true) :
    String.utf8EncodeChar (utf8Three b0 b1 b2) = [b0, b1, b2] := by
  simp [second3, isCont] at h1
  have e : (utf8Three b0 b1 b2).val.toNat =
      b0.toNat % 16 * 4096 + b1.toNat % 64 * 64 + b2.toNat % 64 := toNat_charOfNat (by omega)
  unfold String.utf8EncodeChar
  simp only [e]
  rw [if_neg (by omega), if_neg (by omega), if_pos (by omega), ← byte_eq (b := b0) (by omega),
    ← byte_eq (b := b1) (by omega), ← byte_eq (b := b2) (by omega)]

theorem utf8_four {b0 b1 b2 b3 : UInt8} (h0 : 0xf0 ≤ b0.toNat ∧ b0.toNat ≤ 0xf4)
    (h1 : (second4 b0 b1 && isCont b2 && isCont b3) = true) :
    String.utf8EncodeChar (utf8Four b0 b1 b2 b3) = [b0, b1, b2, b3] := by
  simp [second4, isCont] at h1
  have e : (utf8Four b0 b1 b2 b3).val.toNat =
      b0.toNat % 8 * 262144 + b1.toNat % 64 * 4096 + b2.toNat % 64 * 64 + b3.toNat % 64 :=
    toNat_charOfNat (by omega)
  unfold String.utf8EncodeChar
  simp only [e]
  rw [if_neg (by omega), if_neg (by omega), if_neg (by omega), ← byte_eq (b := b0) (by omega),
    ← byte_eq (b := b1) (by omega), ← byte_eq (b := b2) (by omega), ← byte_eq (b := b3) (by omega)]

theorem utf8_fromUtf8 (bs : Bytes) : ∀ s, fromUtf8 bs = some s → Text.utf8 s = bs := by
  induction bs using fromUtf8.induct with
  | case1 => intro s h; simp [fromUtf8] at h; subst h; rfl
  | case2 b0 r0 h0 ih =>
    intro s h
    rw [fromUtf8.eq_def] at h; simp only at h; rw [if_pos h0] at h
    obtain ⟨t, h1, rfl⟩ := Option.map_eq_some_iff.mp h
    rw [utf8_cons, utf8_one h0, ih t h1]; rfl
  | case3 b0 h0 h1 b1 r1 h2 ih =>
    intro s h
    rw [fromUtf8, if_neg h0, if_pos h1] at h
    simp only [h2, if_true] at h
    obtain ⟨t, h3, rfl⟩ := Option.map_eq_some_iff.mp h
    rw [utf8_cons, utf8_two h1 h2, ih t h3]; rfl
  | case6 b0 h0 h1 h2 b1 b2 r2 h3 ih =>
    intro s h
    rw [fromUtf8, if_neg h0, if_neg h1, if_pos h2] at h
    simp only [h3, if_true] at h
    obtain ⟨t, h4, rfl⟩ := Option.map_eq_some_iff.mp h
    rw [utf8_cons, utf8_three h2 h3, ih t h4]; rfl
  | case9 b0 h0 h1 h2 h3 b1 b2 b3 r3 h4 ih =>
    intro s h
    rw [fromUtf8, if_neg h0, if_neg h1, if_neg h2, if_pos h3] at h
    simp only [h4, if_true] at h
    obtain ⟨t, h5, rfl⟩ := Option.map_eq_some_iff.mp h
    rw [utf8_cons, utf8_four h3 h4, ih t h5]; rfl
  | case4 b0 h0 h1 b1 r1 h2 =>
    intro s h
    rw [fromUtf8, if_neg h0, if_pos h1] at h
    simp [h2] at h
  | case5 b0 h0 h1 =>
    intro s h
    rw [fromUtf8, if_neg h0, if_pos h1] at h
    simp at h
  | case7 b0 h0 h1 h2 b1 b2 r2 h3 =>
    intro s h
    rw [fromUtf8, if_neg h0, if_neg h1, if_pos h2] at h
    simp only [h3, Bool.false_eq_true, if_false, reduceCtorEq] at h
  | case8 b0 r0 h0 h1 h2 h3 =>
    intro s h
    rw [fromUtf8.eq_def] at h; simp only at h; rw [if_neg h0, if_neg h1, if_pos h2] at h
    simp at h
  | case10 b0 h0 h1 h2 h3 b1 b2 b3 r3 h4 =>
    intro s h
    rw [fromUtf8, if_neg h0, if_neg h1, if_neg h2, if_pos h3] at h
    simp only [h4, Bool.false_eq_true, if_false, reduceCtorEq] at h
  | case11 b0 r0 h0 h1 h2 h3 h4 =>
    intro s h
    rw [fromUtf8.eq_def] at h; simp only at h; rw [if_neg h0, if_neg h1, if_neg h2, if_pos h3] at h
    simp at h
  | case12 b0 r0 h0 h1 h2 h3 =>
    intro s h
    rw [fromUtf8.eq_def] at h; simp only at h; rw [if_neg h0, if_neg h1, if_neg h2, if_neg h3] at h
    simp at h

/-- `from_utf8` succeeds exactly on the UTF-8 of a text, with that text. -/
theorem fromUtf8_iff {bs : Bytes} {s : Text} : fromUtf8 bs = some s ↔ bs = Text.utf8 s :=
  ⟨fun h => (utf8_fromUtf8 bs s h).symm, fun h => h ▸ fromUtf8_utf8 s⟩

theorem utf8_inj {s t : Text} (h : Text.utf8 s = Text.utf8 t) : s = t := by
  have := fromUtf8_utf8 s
  rw [h, fromUtf8_utf8] at this
  injection this with this; exact this.symm

theorem utf8_char_length (c : Char) :
    1 ≤ (String.utf8EncodeChar c).length ∧ (String.utf8EncodeChar c).length ≤ 4 ∧
    ((String.utf8EncodeChar c).length = 1 ↔ c.toNat < 0x80) := by
  have hn : c.val.toNat = c.toNat := rfl
  unfold String.utf8EncodeChar
  simp only [hn]
  split
  · simp; omega
  · split
    · simp; omega
    · split <;> simp <;> omega

/-- Bytes below 0x80 in UTF-8 are the characters themselves, and a text of ASCII characters has one
byte per character. -/
theorem utf8_ascii {s : Text} (h : ∀ c ∈ s, c.toNat < 0x80) :
    Text.utf8 s = s.map fun c => UInt8.ofNat c.toNat := by
  induction s with
  | nil => rfl
  | cons c s ih =>
    have hc : c.toNat < 0x80 := h c List.mem_cons_self
    have hn : c.val.toNat = c.toNat := rfl
    rw [utf8_cons, ih fun c hc => h c (List.mem_cons_of_mem _ hc)]
    unfold String.utf8EncodeChar
    simp only [hn]
    rw [if_pos (by omega)]; rfl

/-- The texts whose UTF-8 bytes all satisfy a predicate that implies ASCII. -/
theorem utf8_all {f : UInt8 → Bool} (hf : ∀ b, f b = true → b.toNat < 0x80) {s : Text} :
    (Text.utf8 s).all f = true ↔ ∀ c ∈ s, c.toNat < 0x80 ∧ f (UInt8.ofNat c.toNat) = true := by
  induction s with
  | nil => simp [utf8_nil]
  | cons c s ih =>
    rw [utf8_cons, List.all_append, Bool.and_eq_true, ih, List.forall_mem_cons]
    have hn : c.val.toNat = c.toNat := rfl
    have : (String.utf8EncodeChar c).all f = true ↔
        c.toNat < 0x80 ∧ f (UInt8.ofNat c.toNat) = true := by
      have key : ∀ {n : Nat} {l : Bytes}, 0x80 ≤ n → n < 256 → ¬ (UInt8.ofNat n :: l).all f = true := by
        intro n l h1 h2 h
        rw [List.all_cons, Bool.and_eq_true] at h
        have := hf _ h.1
        rw [ofNat_byte h2] at this; omega
      unfold String.utf8EncodeChar
      simp only [hn]
      by_cases h1 : c.toNat ≤ 0x7f
      · rw [if_pos h1]; simp; omega
      · rw [if_neg h1]
        constructor
        · intro h
          exfalso
          split at h
          · exact key (by omega) (by omega) h
          · split at h <;> exact key (by omega) (by omega) h
        · rintro ⟨h, _⟩; omega
    rw [this]

/-- Every list of ASCII bytes is the UTF-8 of a text. -/
theorem ascii_utf8 {bs : Bytes} (h : ∀ b ∈ bs, b.toNat < 0x80) :
    bs = Text.utf8 (bs.map fun b => Char.ofNat b.toNat) := by
  induction bs with
  | nil => rfl
  | cons b bs ih =>
    rw [List.map_cons, utf8_cons, utf8_one (h b List.mem_cons_self),
      ← ih fun b hb => h b (List.mem_cons_of_mem _ hb)]; rfl

/-! ### UTF-16 -/

theorem utf16_nil : Text.utf16 [] = [] := rfl
theorem utf16_cons (c : Char) (s : Text) : Text.utf16 (c :: s) = utf16Char c ++ Text.utf16 s := rfl
theorem utf16_append (s t : Text) : Text.utf16 (s ++ t) = Text.utf16 s ++ Text.utf16 t := by
  simp [Text.utf16]

theorem fromUtf16_char (c : Char) (r : List Nat) :
    fromUtf16 (utf16Char c ++ r) = (fromUtf16 r).map (c :: ·) := by
  have hc := char_range c
  have back : ∀ n, n = c.toNat → Char.ofNat n = c := fun n h => by rw [h, Char.ofNat_toNat]
  unfold utf16Char
  generalize hm : c.toNat = n at *
  by_cases h1 : n < 0x10000
  · rw [if_pos h1, List.singleton_append, fromUtf16.eq_def]; simp only; rw [if_pos (by omega), back n rfl]
  · rw [if_neg h1, List.cons_append, List.singleton_append, fromUtf16, if_neg (by omega),
      if_pos (by omega)]
    rw [if_pos (by omega), back _ (by omega)]

theorem fromUtf16_utf16 (s : Text) : fromUtf16 (Text.utf16 s) = some s := by
  induction s with
  | nil => rfl
  | cons c s ih => rw [utf16_cons, fromUtf16_char, ih]; rfl

theorem utf16_fromUtf16 (us : List Nat) :
    ∀ s, (∀ u ∈ us, u < 0x10000) → fromUtf16 us = some s → Text.utf16 s = us := by
  induction us using fromUtf16.induct with
  | case1 => intro s _ h; simp [fromUtf16] at h; subst h; rfl
  | case2 u us h0 ih =>
    intro s hb h
    have hu := hb u List.mem_cons_self
    rw [fromUtf16.eq_def] at h; simp only at h; rw [if_pos h0] at h
    obtain ⟨t, h1, rfl⟩ := Option.map_eq_some_iff.mp h
    rw [utf16_cons, ih t (fun v hv => hb v (List.mem_cons_of_mem _ hv)) h1, utf16Char,
      toNat_charOfNat (by omega), if_pos hu]; rfl
  | case3 u h0 h1 v vs h2 ih =>
    intro s hb h
    rw [fromUtf16, if_neg h0, if_pos h1] at h
    simp only [h2, and_self, if_true] at h
    obtain ⟨t, h3, rfl⟩ := Option.map_eq_some_iff.mp h
    rw [utf16_cons, ih t (fun v hv => hb v (List.mem_cons_of_mem _ (List.mem_cons_of_mem _ hv))) h3,
      utf16Char, toNat_charOfNat (by omega), if_neg (by omega)]
    have e1 : 0xd800 + (0x10000 + (u - 0xd800) * 0x400 + (v - 0xdc00) - 0x10000) / 0x400 = u := by omega
    have e2 : 0xdc00 + (0x10000 + (u - 0xd800) * 0x400 + (v - 0xdc00) - 0x10000) % 0x400 = v := by omega
    rw [e1, e2]; rfl
  | case4 u h0 h1 v vs h2 =>
    intro s hb h
    rw [fromUtf16, if_neg h0, if_pos h1] at h
    simp only [h2, if_false, reduceCtorEq] at h
  | case5 u h0 h1 =>
    intro s hb h
    rw [fromUtf16, if_neg h0, if_pos h1] at h
    simp at h
  | case6 u us h0 h1 =>
    intro s hb h
    rw [fromUtf16.eq_def] at h; simp only at h; rw [if_neg h0, if_neg h1] at h
    simp at h

/-- `from_utf16` succeeds exactly on the UTF-16 of a text, with that text. -/
theorem fromUtf16_iff {us : List Nat} (hb : ∀ u ∈ us, u < 0x10000) {s : Text} :
    fromUtf16 us = some s ↔ us = Text.utf16 s :=
  ⟨fun h => (utf16_fromUtf16 us s hb h).symm, fun h => h ▸ fromUtf16_utf16 s⟩

theorem utf16_lt (s : Text) : ∀ u ∈ Text.utf16 s, u < 0x10000 := by
  intro u hu
  obtain ⟨c, _, h⟩ := List.mem_flatMap.mp hu
  have := char_range c
  unfold utf16Char at h
  split at h <;> simp at h <;> omega

/-! ### UCS-4 -/

theorem charFromU32_iff {n : Nat} {c : Char} : charFromU32 n = some c ↔ n = c.toNat := by
  unfold charFromU32
  constructor
  · intro h
    split at h <;> simp at h
    rw [← h, toNat_charOfNat (by assumption)]
  · rintro rfl
    rw [if_pos (char_range c), Char.ofNat_toNat]

end Asn1

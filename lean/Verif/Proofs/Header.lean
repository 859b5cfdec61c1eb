import Verif.Proofs.Input
import Verif.Base.Bits
/-!
# The header parser accepts exactly the grammar of `Spec.Ident` and `Spec.Len`
-/
namespace Asn1
open Spec

theorem base128_foldl (bs : Bytes) (a : Nat) :
    bs.foldl (fun a b => a * 128 + b.toNat % 128) a = a * 128 ^ bs.length + base128 bs := by
  induction bs generalizing a with
  | nil => simp [base128]
  | cons b bs ih =>
    simp only [List.foldl_cons, List.length_cons, base128]
    rw [ih, ih (0 * 128 + b.toNat % 128)]
    simp only [Nat.add_mul, Nat.pow_succ, Nat.zero_mul, Nat.zero_add]
    rw [Nat.mul_assoc a, Nat.mul_comm 128, Nat.add_assoc]

theorem base128_cons (b : UInt8) (bs : Bytes) :
    base128 (b :: bs) = b.toNat % 128 * 128 ^ bs.length + base128 bs := by
  have := base128_foldl bs (0 * 128 + b.toNat % 128)
  simp only [base128, List.foldl_cons] at *
  rw [this]; simp

theorem base128_append (xs ys : Bytes) :
    base128 (xs ++ ys) = base128 xs * 128 ^ ys.length + base128 ys := by
  simp only [base128, List.foldl_append]
  exact base128_foldl ys _

theorem base128_concat (xs : Bytes) (b : UInt8) :
    base128 (xs ++ [b]) = base128 xs * 128 + b.toNat % 128 := by
  rw [base128_append]; simp [base128]

theorem base128_lt (bs : Bytes) : base128 bs < 128 ^ bs.length := by
  induction bs with
  | nil => simp [base128]
  | cons b bs ih =>
    rw [base128_cons, List.length_cons, Nat.pow_succ, Nat.mul_comm (128 ^ _)]
    have hb : b.toNat % 128 < 128 := Nat.mod_lt _ (by omega)
    have := Nat.mul_le_mul_right (128 ^ bs.length) (Nat.succ_le_of_lt hb)
    rw [Nat.succ_mul] at this; omega

/-- Result of the tag loop on its own. -/
theorem tagLoop_ok {input : Input} {fuel : Nat} {rem : Input} {c cnt : Nat}
    (hc : c < 2 ^ 32) (hf : rem.data.length < fuel) {r : Input} {c' cnt' : Nat} :
    tagLoop input fuel rem c cnt = .ok (r, c', cnt') ↔
      ∃ bs, IsGroup bs ∧ rem.data = bs ++ r.data ∧ r = after rem bs.length ∧
        cnt' = cnt + bs.length ∧ cnt' ≤ 6 ∧ c' = (c * 128 ^ bs.length + base128 bs) % 2 ^ 32 := by
  induction fuel generalizing rem c cnt with
  | zero => omega
  | succ fuel ih =>
    unfold tagLoop
    cases hb : beU8 rem with
    | error e =>
      obtain ⟨h1, _⟩ := beU8_err.mp hb
      simp only [nomErr, reduceCtorEq, false_iff]
      rintro ⟨bs, ⟨init, last, rfl, _⟩, h2, _⟩
      simp [h1] at h2
    | ok v =>
      obtain ⟨r1, b⟩ := v
      obtain ⟨h1, h2⟩ := beU8_ok.mp hb
      have hl1 : r1.data.length < fuel := by rw [h1] at hf; simp at hf; omega
      have hcc : c * 128 % 2 ^ 32 + (b &&& 127).toNat = (c * 128 + b.toNat % 128) % 2 ^ 32 := by
        rw [and7f_toNat]; omega
      simp only [hcc]
      by_cases hcnt : cnt > 5
      · simp only [if_pos hcnt, nomErr, reduceCtorEq, false_iff]
        rintro ⟨bs, ⟨init, last, rfl, _⟩, h3, _, h4, h5, _⟩
        simp at h4; omega
      · rw [if_neg hcnt]
        by_cases hb80 : b &&& 0x80 = 0
        · rw [if_pos hb80]
          have hbl := (and80_eq b).mp hb80
          constructor
          · intro h
            simp only [Except.ok.injEq, Prod.mk.injEq] at h
            obtain ⟨rfl, rfl, rfl⟩ := h
            refine ⟨[b], ⟨[], b, rfl, by simp, hbl⟩, by simp [h1], by simpa using h2, by simp,
              by omega, ?_⟩
            simp [base128]
          · rintro ⟨bs, ⟨init, last, rfl, hi, hla⟩, h3, h4, rfl, h5, rfl⟩
            cases init with
            | nil =>
              simp [h1] at h3
              obtain ⟨rfl, h3⟩ := h3
              simp at h4
              simp [h2, h4, base128]
            | cons x xs =>
              simp [h1] at h3
              obtain ⟨rfl, h3⟩ := h3
              have := hi b (by simp)
              omega
        · rw [if_neg hb80]
          have hbl : 128 ≤ b.toNat := by have := mt (and80_eq b).mpr hb80; omega
          rw [ih (Nat.mod_lt _ (by omega)) hl1]
          constructor
          · rintro ⟨bs, ⟨init, last, rfl, hi, hla⟩, h3, h4, h5, h6, h7⟩
            refine ⟨b :: (init ++ [last]), ⟨b :: init, last, by simp, ?_, hla⟩, ?_, ?_, ?_, h6, ?_⟩
            · simpa using ⟨hbl, hi⟩
            · simp [h1, h3]
            · simp [h4, h2]; congr 1; omega
            · simp at h5 ⊢; omega
            · rw [h7, base128_cons, ← Nat.mod_add_mod, Nat.mod_mul_mod, Nat.mod_add_mod]
              congr 1
              simp only [List.length_cons, Nat.pow_succ, Nat.add_mul]
              rw [Nat.mul_assoc, Nat.mul_comm 128, Nat.add_assoc]
          · rintro ⟨bs, ⟨init, last, rfl, hi, hla⟩, h3, h4, h5, h6, h7⟩
            cases init with
            | nil =>
              simp [h1] at h3
              obtain ⟨rfl, h3⟩ := h3
              omega
            | cons x xs =>
              simp [h1] at h3
              obtain ⟨rfl, h3⟩ := h3
              refine ⟨xs ++ [last], ⟨xs, last, rfl, fun y hy => hi y (by simp [hy]), hla⟩,
                by simpa using h3, ?_, ?_, h6, ?_⟩
              · rw [h4, h2]; simp; congr 1; omega
              · simp at h5 ⊢; omega
              · rw [h7, List.cons_append, base128_cons, ← Nat.mod_add_mod _ _ (base128 (xs ++ [last])),
                  Nat.mod_mul_mod, Nat.mod_add_mod]
                congr 1
                simp only [List.length_cons, Nat.pow_succ, Nat.add_mul]
                rw [Nat.mul_assoc, Nat.mul_comm 128, Nat.add_assoc]

theorem tagLoop_err {input : Input} {fuel : Nat} {rem : Input} {c cnt : Nat} {e : PErr}
    (hf : rem.data.length < fuel) (h : tagLoop input fuel rem c cnt = .error e) :
    e = .error input .invalidTag := by
  induction fuel generalizing rem c cnt with
  | zero => omega
  | succ fuel ih =>
    unfold tagLoop at h
    cases hb : beU8 rem with
    | error e' => rw [hb] at h; simp [nomErr] at h; exact h.symm
    | ok v =>
      obtain ⟨r1, b⟩ := v
      obtain ⟨h1, h2⟩ := beU8_ok.mp hb
      have hl1 : r1.data.length < fuel := by rw [h1] at hf; simp at hf; omega
      rw [hb] at h
      simp only at h
      split at h
      · simp [nomErr] at h; exact h.symm
      · split at h
        · simp at h
        · exact ih hl1 h

/-- The bytes to integer conversion accepts exactly the numbers below `2^64`. -/
theorem bytesToU64_eq (bs : Bytes) (u : Nat) (hu : u < 2 ^ 64) :
    bytesToU64 bs u =
      if u * 256 ^ bs.length + beNat bs < 2 ^ 64 then some (u * 256 ^ bs.length + beNat bs)
      else none := by
  induction bs generalizing u with
  | nil => simp [bytesToU64, hu]
  | cons b bs ih =>
    have hb := byte_lt b
    have e : u * 256 ^ (b :: bs).length + beNat (b :: bs)
        = (u * 256 + b.toNat) * 256 ^ bs.length + beNat bs := by
      rw [beNat_cons, List.length_cons, Nat.pow_succ, Nat.add_mul, Nat.mul_comm (256 ^ _),
        Nat.mul_assoc, Nat.add_assoc]
    rw [bytesToU64, e]
    split
    · rename_i h56
      rw [if_neg]
      have h0 : 1 ≤ 256 ^ bs.length := Nat.one_le_pow _ _ (by omega)
      have : (u * 256 + b.toNat) * 1 ≤ (u * 256 + b.toNat) * 256 ^ bs.length :=
        Nat.mul_le_mul_left _ h0
      omega
    · exact ih _ (by omega)

theorem bytesToU64_zero (bs : Bytes) :
    bytesToU64 bs 0 = if beNat bs < 2 ^ 64 then some (beNat bs) else none := by
  have := bytesToU64_eq bs 0 (by omega)
  simpa using this

/-- The length octets, first byte included. -/
theorem parseLength_ok {input rem r : Input} {c : Bool} {b : UInt8} {l : Length} :
    parseLength input c b rem = .ok (r, l) ↔
      ∃ ls, Len c l (b :: ls) ∧ rem.data = ls ++ r.data ∧ r = after rem ls.length := by
  have hbl := byte_lt b
  have e128 : (128 : UInt8).toNat = 128 := rfl
  have e255 : (255 : UInt8).toNat = 255 := rfl
  unfold parseLength
  constructor
  · intro h
    split at h
    · rename_i hb
      split at h
      · simp [nomErr] at h
      · rename_i hc
        simp at h hc
        obtain ⟨rfl, rfl⟩ := h
        exact ⟨[], .indefinite b (by simp [hb]) hc rfl, by simp, by simp⟩
    · split at h
      · rename_i hb
        have := (and80_eq b).mp hb
        simp at h; obtain ⟨rfl, rfl⟩ := h
        exact ⟨[], .short b this rfl, by simp, by simp⟩
      · rename_i h1 h2
        have := mt (and80_eq b).mpr h2
        rw [byte_eq_iff, e128] at h1
        split at h
        · simp [nomErr] at h
        · rename_i h3
          rw [byte_eq_iff, e255] at h3
          obtain ⟨⟨r1, lb⟩, h4, h5⟩ := bind_eq_ok.mp h
          rw [takeS_eq, and7f_toNat] at h4
          split at h4 <;> simp at h4
          rename_i hle
          obtain ⟨rfl, rfl⟩ := h4
          simp only [first_data, bytesToU64_zero] at h5
          split at h5
          · rename_i l' heq
            split at heq
            · simp at heq h5
              obtain ⟨rfl, rfl⟩ := h5
              subst heq
              have hlen : (List.take (b.toNat % 128) rem.data).length = b.toNat % 128 := by
                simp; omega
              refine ⟨rem.data.take (b.toNat % 128), .long b _ ?_ ?_ ?_ ?_ rfl, ?_, ?_⟩
              · omega
              · omega
              · omega
              · assumption
              · simp
              · rw [hlen]
            · simp at heq
          · simp [nomErr] at h5
  · rintro ⟨ls, h1, h2, h3⟩
    generalize hbs : b :: ls = bs at h1
    cases h1 with
    | short b' hb hl =>
      simp at hbs
      obtain ⟨rfl, rfl⟩ := hbs
      rw [if_neg (by rw [byte_eq_iff, e128]; omega), if_pos ((and80_eq b).mpr hb)]
      simp [h3, hl]
    | indefinite b' hb hc hl =>
      simp at hbs
      obtain ⟨rfl, rfl⟩ := hbs
      rw [if_pos (by rw [byte_eq_iff, e128]; omega)]
      simp [hc, h3, hl]
    | long b' bs' hb h0 h1 hv hl =>
      simp at hbs
      obtain ⟨rfl, rfl⟩ := hbs
      rw [if_neg (by rw [byte_eq_iff, e128]; omega),
        if_neg (by rw [and80_eq]; omega), if_neg (by rw [byte_eq_iff, e255]; omega)]
      refine bind_eq_ok.mpr ⟨(after rem ls.length, first rem ls.length), ?_, ?_⟩
      · have : (b &&& 127).toNat = ls.length := by rw [and7f_toNat]; omega
        rw [takeS_eq, this, if_pos (by simp [h2])]
      · have : (first rem ls.length).data = ls := by simp [h2]
        simp only [this, bytesToU64_zero, hv, if_true]
        simp [h3, hl]

theorem parseLength_err {input rem : Input} {c : Bool} {b : UInt8} {e : PErr}
    (h : parseLength input c b rem = .error e) :
    e = .error input .indefiniteLengthUnexpected ∨ e = .error input .invalidLength ∨
    (128 < b.toNat ∧ b.toNat < 255 ∧ rem.data.length < b.toNat - 128 ∧
      e = .incomplete (b.toNat - 128 - rem.data.length)) := by
  have hbl := byte_lt b
  have e128 : (128 : UInt8).toNat = 128 := rfl
  have e255 : (255 : UInt8).toNat = 255 := rfl
  unfold parseLength at h
  split at h
  · split at h
    · simp [nomErr] at h; simp [h]
    · simp at h
  · split at h
    · simp at h
    · rename_i h1 h2
      have := mt (and80_eq b).mpr h2
      rw [byte_eq_iff, e128] at h1
      split at h
      · simp [nomErr] at h; simp [h]
      · rename_i h3
        rw [byte_eq_iff, e255] at h3
        rcases bind_eq_err.mp h with h4 | ⟨⟨r1, lb⟩, h4, h5⟩
        · rw [takeS_eq, and7f_toNat] at h4
          split at h4 <;> simp at h4
          refine Or.inr (Or.inr ⟨by omega, by omega, by omega, ?_⟩)
          rw [← h4]; simp only [PErr.incomplete.injEq]; omega
        · simp only at h5
          split at h5
          · simp at h5
          · simp [nomErr] at h5; simp [h5]

theorem Class.tryFrom_eq (b : UInt8) {c : Class} :
    Class.tryFrom (b >>> 6) = some c ↔ b.toNat / 64 = classBits c := by
  revert b; refine forall_byte ?_; cases c <;> decide +kernel

theorem Class.tryFrom_ne (b : UInt8) : Class.tryFrom (b >>> 6) ≠ none := by
  revert b; refine forall_byte ?_; decide +kernel

/-- Arithmetic reading of the first identifier octet. -/
theorem identByte_iff (b : UInt8) (c : Class) (p : Bool) (low : Nat) (hlow : low < 32) :
    b.toNat = identByte c p low ↔
      Class.tryFrom (b >>> 6) = some c ∧ ((b &&& 0x20) != 0) = p ∧ b.toNat % 32 = low := by
  have hb := byte_lt b
  rw [Class.tryFrom_eq, and20_ne]
  unfold identByte
  have hc : classBits c < 4 := by cases c <;> decide
  cases p <;> simp <;> omega

/-- First half of `parse_header`: the identifier octets. -/
theorem ident_ok {input rem : Input} {b0 : UInt8} {rem' : Input} {tag cnt : Nat}
    (h0 : beU8 input = .ok (rem, b0)) :
    parseTag input b0 rem = .ok (rem', tag, cnt) ↔
    ∃ c p ident, Ident c p tag ident ∧ Class.tryFrom (b0 >>> 6) = some c ∧
      ((b0 &&& 0x20) != 0) = p ∧
      input.data = ident ++ rem'.data ∧ rem' = after input ident.length ∧ cnt = ident.length := by
  obtain ⟨hd, hr⟩ := beU8_ok.mp h0
  obtain ⟨c, hc⟩ := Option.ne_none_iff_exists'.mp (Class.tryFrom_ne b0)
  have hb := byte_lt b0
  unfold parseTag
  simp only
  split
  · rename_i h1f
    have h31 : b0.toNat % 32 = 31 := by
      rw [← and1f_toNat, h1f]; rfl
    rw [tagLoop_ok (by omega) (by omega)]
    constructor
    · rintro ⟨bs, h1, h2, h3, h4, h5, h6⟩
      simp at h6
      refine ⟨c, _, b0 :: bs,
        .high b0 bs ?_ h1 (by omega) h6, hc, rfl, ?_, ?_, ?_⟩
      · exact (identByte_iff b0 c _ 31 (by omega)).mpr ⟨hc, rfl, h31⟩
      · simp [hd, h2]
      · rw [h3, hr]; simp; congr 1; omega
      · simp; omega
    · rintro ⟨c', p, ident, h1, h2, h3, h4, h5, h6⟩
      cases h1 with
      | low b ht hbe =>
        have hbb : b = b0 := by
          have := h4; rw [hd] at this; simp at this; exact this.1.symm
        subst hbb
        have := ((identByte_iff b c' p tag (by omega)).mp hbe).2.2
        omega
      | high b bs hbe hg hl ht =>
        have := h4; rw [hd] at this; simp at this
        obtain ⟨rfl, hd'⟩ := this
        refine ⟨bs, hg, hd', ?_, ?_, ?_, ?_⟩
        · rw [h5, hr]; simp; congr 1; omega
        · simp at h6; omega
        · simp at h6; omega
        · simp [ht]
  · rename_i h1f
    have h31 : b0.toNat % 32 ≠ 31 := by
      intro h; apply h1f; rw [byte_eq_iff, and1f_toNat, h]; rfl
    simp only [Except.ok.injEq, Prod.mk.injEq]
    constructor
    · rintro ⟨rfl, rfl, rfl⟩
      rw [and1f_toNat]
      refine ⟨c, _, [b0], .low b0 (by omega) ?_, hc, rfl, ?_, ?_, rfl⟩
      · exact (identByte_iff b0 c _ _ (by omega)).mpr ⟨hc, rfl, rfl⟩
      · simp [hd]
      · simpa using hr
    · rintro ⟨c', p, ident, h1, h2, h3, h4, h5, h6⟩
      cases h1 with
      | low b ht hbe =>
        have := h4; rw [hd] at this; simp at this
        obtain ⟨rfl, hd'⟩ := this
        refine ⟨by simpa [hr] using h5.symm, ?_, by simpa using h6.symm⟩
        rw [and1f_toNat]
        exact ((identByte_iff b0 c' p tag (by omega)).mp hbe).2.2
      | high b bs hbe hg hl ht =>
        have := h4; rw [hd] at this; simp at this
        obtain ⟨rfl, hd'⟩ := this
        exact absurd ((identByte_iff b0 c' p 31 (by omega)).mp hbe).2.2 h31

/-- The header parser accepts exactly the specified identifier and length octets. -/
theorem parseHeader_ok {input r : Input} {h : Header} :
    parseHeader input = .ok (r, h) ↔
      ∃ ident len, Ident h.cls h.constructed h.tag ident ∧ Len h.constructed h.length len ∧
        input.data = ident ++ len ++ r.data ∧ r = after input (ident.length + len.length) ∧
        h.rawTag = some ident ∧
        h.rawHeader = some (first input (ident.length + len.length)) := by
  unfold parseHeader
  constructor
  · intro hp
    obtain ⟨⟨rem, b0⟩, h0, hp⟩ := bind_eq_ok.mp hp
    simp only at hp
    split at hp
    · simp at hp
    rename_i c hc
    obtain ⟨⟨rem1, tag, cnt⟩, h1, hp⟩ := bind_eq_ok.mp hp
    obtain ⟨c', p, ident, hi, hc', hcons, hd, hr, hcnt⟩ := (ident_ok h0).mp h1
    rw [hc] at hc'; simp at hc'; subst hc'
    simp only at hp
    split at hp
    · simp at hp
    obtain ⟨⟨rem2, lb⟩, h2, hp⟩ := bind_eq_ok.mp hp
    obtain ⟨⟨rem3, len⟩, h3, hp⟩ := bind_eq_ok.mp hp
    simp only at hp h3
    obtain ⟨hd2, hr2⟩ := beU8_ok.mp h2
    obtain ⟨ls, hl, hd3, hr3⟩ := parseLength_ok.mp h3
    split at hp
    · simp at hp
    have hst : rem3.start - input.start = ident.length + (lb :: ls).length := by
      rw [hr3, hr2, hr]; simp; omega
    rw [hst, take_eq] at hp
    split at hp
    · simp at hp
      obtain ⟨rfl, rfl⟩ := hp
      refine ⟨ident, lb :: ls, ?_, ?_, ?_, ?_, ?_, ?_⟩
      · simp only [hcons]; exact hi
      · exact hl
      · rw [hd, hd2, hd3]; simp
      · rw [hr3, hr2, hr]; simp; congr 1; omega
      · simp [hcnt, hd]
      · simp
    · simp at hp
  · rintro ⟨ident, len, hi, hl, hd, hr, ht, hh⟩
    obtain ⟨lb, ls, rfl⟩ : ∃ lb ls, len = lb :: ls := by cases hl <;> exact ⟨_, _, rfl⟩
    obtain ⟨b0, bs, rfl⟩ : ∃ b bs, ident = b :: bs := by cases hi <;> exact ⟨_, _, rfl⟩
    have h0 : beU8 input = .ok (after input 1, b0) := by
      refine beU8_ok.mpr ⟨by simp [hd], rfl⟩
    have hb : Class.tryFrom (b0 >>> 6) = some h.cls ∧ ((b0 &&& 0x20) != 0) = h.constructed := by
      generalize he : b0 :: bs = id at hi
      cases hi with
      | low b ht hbe =>
        simp at he; obtain ⟨rfl, _⟩ := he
        have := (identByte_iff b0 _ _ _ (by omega)).mp hbe
        exact ⟨this.1, this.2.1⟩
      | high b bs hbe hg hl' ht' =>
        simp at he; obtain ⟨rfl, _⟩ := he
        have := (identByte_iff b0 _ _ _ (by omega)).mp hbe
        exact ⟨this.1, this.2.1⟩
    have h1 := (ident_ok (rem' := after input (b0 :: bs).length) (tag := h.tag)
      (cnt := (b0 :: bs).length) h0).mpr
      ⟨_, _, _, hi, hb.1, hb.2, by simp [hd], rfl, rfl⟩
    refine bind_eq_ok.mpr ⟨_, h0, ?_⟩
    simp only [hb.1]
    refine bind_eq_ok.mpr ⟨_, h1, ?_⟩
    simp only
    rw [if_neg (by simp [hd])]
    refine bind_eq_ok.mpr ⟨(after input ((b0 :: bs).length + 1), lb), ?_, ?_⟩
    · refine beU8_ok.mpr ⟨by simp [hd], by simp⟩
    refine bind_eq_ok.mpr ⟨(r, h.length), ?_, ?_⟩
    · rw [hb.2]
      refine parseLength_ok.mpr ⟨ls, hl, by simp [hd], ?_⟩
      rw [hr]; simp; congr 1; omega
    simp only
    have hst : r.start - input.start = (b0 :: bs).length + (lb :: ls).length := by
      rw [hr]; simp
    rw [if_neg (by rw [hr]; simp), hst, take_eq, if_pos (by simp [hd]; omega)]
    simp only [bind_ok, pure_ok, hb.2]
    obtain ⟨hcls, hcon, htag, hlen, hrt, hrh⟩ := h
    simp at ht hh ⊢
    simp [ht, hh, hd]

/-- Outcomes of the header parser other than success. -/
theorem parseHeader_err {input : Input} {e : PErr} (h : parseHeader input = .error e) :
    (∃ ie, e = .error input ie ∧
      (ie = .invalidTag ∨ ie = .invalidLength ∨ ie = .indefiniteLengthUnexpected)) ∨
    (∃ n, e = .incomplete n ∧ 0 < n ∧
      ∀ y, y.length < n → parseHeader (extend input y) = .error (.incomplete (n - y.length))) := by
  have hfull := h
  unfold parseHeader at h
  rcases bind_eq_err.mp h with h1 | ⟨⟨rem, b0⟩, h0, h⟩
  · obtain ⟨h2, rfl⟩ := beU8_err.mp h1
    refine Or.inr ⟨1, rfl, by omega, fun y hy => ?_⟩
    have : y = [] := by cases y <;> simp at hy ⊢
    subst this
    have : extend input [] = input := by simp [extend]
    rw [this]; exact hfull
  simp only at h
  obtain ⟨c, hc⟩ := Option.ne_none_iff_exists'.mp (Class.tryFrom_ne b0)
  rw [hc] at h
  simp only at h
  rcases bind_eq_err.mp h with h1 | ⟨⟨rem1, tag, cnt⟩, h1, h⟩
  · left
    unfold parseTag at h1
    simp only at h1
    split at h1
    · exact ⟨_, tagLoop_err (by omega) h1, by simp⟩
    · simp at h1
  obtain ⟨c', p, ident, hi, hc', hcons, hd, hr, hcnt⟩ := (ident_ok h0).mp h1
  have hext : ∀ y, beU8 (extend input y) = .ok (extend rem y, b0) :=
    fun y => good_beU8.ext _ _ _ y h0
  have hext1 := fun y => (ident_ok (rem' := extend rem1 y) (tag := tag) (cnt := cnt)
    (hext y)).mpr ⟨c', p, ident, hi, hc', hcons, by simp [hd],
      by rw [hr, after_extend (by simp [hd])], hcnt⟩
  simp only at h
  rw [if_neg (by simp [hcnt, hd])] at h
  have hcnt' : ∀ y, ¬ cnt > (extend input y).data.length := by
    intro y; simp [hcnt, hd]
  rcases bind_eq_err.mp h with h2 | ⟨⟨rem2, lb⟩, h2, h⟩
  · obtain ⟨h3, rfl⟩ := beU8_err.mp h2
    refine Or.inr ⟨1, rfl, by omega, fun y hy => ?_⟩
    have : y = [] := by cases y <;> simp at hy ⊢
    subst this
    have : extend input [] = input := by simp [extend]
    rw [this]; exact hfull
  have hext2 := fun y => good_beU8.ext _ _ _ y h2
  simp only at h
  rcases bind_eq_err.mp h with h3 | ⟨⟨rem3, len⟩, h3, h⟩
  · rcases parseLength_err h3 with rfl | rfl | ⟨hb1, hb2, hb3, rfl⟩
    · exact Or.inl ⟨_, rfl, by simp⟩
    · exact Or.inl ⟨_, rfl, by simp⟩
    · refine Or.inr ⟨_, rfl, by omega, fun y hy => ?_⟩
      unfold parseHeader
      rw [hext y]
      simp only [bind_ok, hc]
      rw [hext1 y]
      simp only [bind_ok]
      rw [if_neg (hcnt' y), hext2 y]
      simp only [bind_ok]
      have : parseLength (extend input y) (b0 &&& 32 != 0) lb (extend rem2 y)
          = .error (.incomplete (lb.toNat - 128 - rem2.data.length - y.length)) := by
        have e128 : (128 : UInt8).toNat = 128 := rfl
        have e255 : (255 : UInt8).toNat = 255 := rfl
        unfold parseLength
        rw [if_neg (by rw [byte_eq_iff, e128]; omega),
          if_neg (by rw [and80_eq]; omega), if_neg (by rw [byte_eq_iff, e255]; omega)]
        rw [takeS_eq, and7f_toNat, if_neg (by simp; omega)]
        simp; omega
      rw [this]; rfl
  · exfalso
    obtain ⟨hd2, hr2⟩ := beU8_ok.mp h2
    obtain ⟨ls, hl, hd3, hr3⟩ := parseLength_ok.mp h3
    simp only at h
    have hst : rem3.start - input.start = ident.length + (lb :: ls).length := by
      rw [hr3, hr2, hr]; simp; omega
    rw [if_neg (by rw [hr3, hr2, hr]; simp), hst, take_eq,
      if_pos (by rw [hd, hd2, hd3]; simp)] at h
    simp at h

theorem good_parseHeader : Good parseHeader where
  adv i r a h := by
    obtain ⟨id, l, _, _, h1, h2, _⟩ := parseHeader_ok.mp h
    exact ⟨_, by simp [h1], h2⟩
  ext i r a y h := by
    obtain ⟨id, l, h3, h4, h1, h2, h5, h6⟩ := parseHeader_ok.mp h
    have hle : id.length + l.length ≤ i.data.length := by simp [h1]
    refine parseHeader_ok.mpr ⟨id, l, h3, h4, by simp [h1], ?_, h5, ?_⟩
    · rw [h2, after_extend hle]
    · rw [h6, first_extend hle]
  inc i n h := by
    rcases parseHeader_err h with ⟨ie, h1, _⟩ | ⟨n', h1, h2⟩
    · simp at h1
    · simp at h1; subst h1; exact h2
  noPanic i h := by
    rcases parseHeader_err h with ⟨ie, h1, _⟩ | ⟨n', h1, h2⟩ <;> simp at h1
  noDiverge i h := by
    rcases parseHeader_err h with ⟨ie, h1, _⟩ | ⟨n', h1, h2⟩ <;> simp at h1

end Asn1

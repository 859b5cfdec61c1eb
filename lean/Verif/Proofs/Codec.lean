import Verif.Model.Typed
import Verif.Spec.Codec
import Verif.Props.Generic
/-!
# Encoding and decoding values, generically
-/
namespace Asn1
open Spec Wr

/-- Class, constructed flag and tag number really written by an encoder. -/
def EncoderKind.info (e : EncoderKind) (i : Class × Bool × Nat) : Class × Bool × Nat :=
  match e with
  | .generic => i
  | .constructed => (i.1, true, i.2.2)
  | .constructedIndefinite => (i.1, true, i.2.2)
  | .primitive t => (.universal, false, t)

/-- A definite-length encoding with minimal header. -/
def full (c : Class) (p : Bool) (tag : Nat) (cs : Bytes) : Bytes :=
  identOctets c p tag ++ lenOctets (.definite cs.length) ++ cs

/-- The encoder of `v` writes the content `cs`, announces its length, and its header writer
agrees with the announced class, flag and tag. -/
structure Encodes {α : Type} (t : ToBer α) (v : α) (cs : Bytes) : Prop where
  content : Writes (t.writeContent v) cs cs.length
  len : t.contentLen v = .definite cs.length
  tag : (t.tagInfo v).2.2 < 2 ^ 32
  enc : t.encoder.info (t.tagInfo v) = t.tagInfo v

/-- The complete encoding of a value with content `cs`. -/
def ToBer.fullOf {α : Type} (t : ToBer α) (v : α) (cs : Bytes) : Bytes :=
  full (t.tagInfo v).1 (t.tagInfo v).2.1 (t.tagInfo v).2.2 cs

variable {α : Type}

theorem writeTagInfo_eq (e : EncoderKind) (c : Class) (b : Bool) (tag : Nat) :
    e.writeTagInfo c b tag
      = writeTagGeneric (e.info (c, b, tag)).1 (e.info (c, b, tag)).2.1 (e.info (c, b, tag)).2.2 := by
  cases e <;> rfl

theorem Encodes.header {t : ToBer α} {v : α} {cs : Bytes} (h : Encodes t v cs)
    (hs : cs.length < 2 ^ 64) :
    Writes (t.writeHeader v)
      (identOctets (t.tagInfo v).1 (t.tagInfo v).2.1 (t.tagInfo v).2.2
        ++ lenOctets (.definite cs.length))
      (identOctets (t.tagInfo v).1 (t.tagInfo v).2.1 (t.tagInfo v).2.2
        ++ lenOctets (.definite cs.length)).length := by
  have h1 := (writeTag_spec (t.tagInfo v).1 (t.tagInfo v).2.1 (t.tagInfo v).2.2 h.tag).1
  have h2 := (writeLength_spec (.definite cs.length) (by intro n hn; simp at hn; omega)).1
  unfold ToBer.writeHeader
  simp only [h.len, writeTagInfo_eq]
  have he := h.enc
  rcases ht : t.tagInfo v with ⟨c, b, g⟩
  rw [ht] at he h1
  simp only [he] at h1 ⊢
  have := h1.bind (f := fun n1 => writeLength (.definite cs.length) >>= fun n2 => pure (n1 + n2))
    (h2.bind (writes_pure _))
  exact this.congr (by simp) (by simp)

theorem Encodes.encode {t : ToBer α} {v : α} {cs : Bytes} (h : Encodes t v cs)
    (hs : cs.length < 2 ^ 64) :
    Writes (t.encode v) (t.fullOf v cs) (t.fullOf v cs).length := by
  have := (h.header hs).bind (f := fun n1 => t.writeContent v >>= fun n2 => pure (n1 + n2))
    (h.content.bind (writes_pure _))
  exact this.congr (by simp [ToBer.fullOf, full]) (by simp [ToBer.fullOf, full]; omega)

theorem Encodes.toVec {t : ToBer α} {v : α} {cs : Bytes} (h : Encodes t v cs)
    (hs : cs.length < 2 ^ 64) : t.toVec v = .ok (t.fullOf v cs) := by
  unfold ToBer.toVec
  have := h.encode hs
  unfold Writes at this
  rw [this]

/-- Header of a full encoding. -/
theorem parseHeader_full (i : Input) (c : Class) (p : Bool) (tag : Nat) (cs rest : Bytes)
    (ht : tag < 2 ^ 32) (hs : cs.length < 2 ^ 64) (hd : i.data = full c p tag cs ++ rest) :
    parseHeader i = .ok (after i ((full c p tag cs).length - cs.length),
      ⟨c, p, tag, .definite cs.length, some (identOctets c p tag),
        some (first i ((full c p tag cs).length - cs.length))⟩) := by
  have e : (full c p tag cs).length - cs.length
      = (identOctets c p tag).length + (lenOctets (.definite cs.length)).length := by
    simp only [full, List.length_append]; omega
  rw [e]
  refine parseHeader_ok.mpr ⟨_, _, identOctets_ident c p ht,
    lenOctets_len (by intro n hn; simp at hn; omega) (by simp), ?_, rfl, rfl, rfl⟩
  simp only [after_data]
  rw [hd, full]
  simp only [List.append_assoc]
  rw [← List.append_assoc (identOctets c p tag), ← List.append_assoc (identOctets c p tag)]
  congr 1
  · rw [List.drop_left' (by simp)]

theorem full_length_le (c : Class) (p : Bool) (tag : Nat) (cs : Bytes) :
    cs.length ≤ (full c p tag cs).length := by simp [full]; omega

theorem full_content (i : Input) (c : Class) (p : Bool) (tag : Nat) (cs rest : Bytes)
    (hd : i.data = full c p tag cs ++ rest) :
    (after i ((full c p tag cs).length - cs.length)).data = cs ++ rest := by
  have e : (full c p tag cs).length - cs.length
      = (identOctets c p tag ++ lenOctets (.definite cs.length)).length := by
    simp only [full, List.length_append]; omega
  rw [after_data, hd, e, full, List.append_assoc, List.drop_left' rfl]

/-- Reading back a full encoding as a generic object. -/
theorem parseDerAny_full (i : Input) (c : Class) (p : Bool) (tag : Nat) (cs rest : Bytes)
    (ht : tag < 2 ^ 32) (hs : cs.length < 2 ^ 64) (hd : i.data = full c p tag cs ++ rest) :
    parseDerAny i = .ok (after i (full c p tag cs).length,
      ⟨⟨c, p, tag, .definite cs.length, some (identOctets c p tag),
        some (first i ((full c p tag cs).length - cs.length))⟩,
       first (after i ((full c p tag cs).length - cs.length)) cs.length⟩) := by
  refine parseDerAny_ok.mpr ⟨_, cs.length, parseHeader_full i c p tag cs rest ht hs hd, rfl,
    ?_, ?_, rfl⟩
  · rw [full_content i c p tag cs rest hd]; simp
  · have := full_length_le c p tag cs
    rw [after_after]; congr 1; omega

theorem parseBerAny_full (i : Input) (c : Class) (p : Bool) (tag : Nat) (cs rest : Bytes)
    (ht : tag < 2 ^ 32) (hs : cs.length < 2 ^ 64) (hd : i.data = full c p tag cs ++ rest) :
    parseBerAny i = .ok (after i (full c p tag cs).length,
      ⟨⟨c, p, tag, .definite cs.length, some (identOctets c p tag),
        some (first i ((full c p tag cs).length - cs.length))⟩,
       first (after i ((full c p tag cs).length - cs.length)) cs.length⟩) :=
  C11_der_subset_ber_any _ _ _ (parseDerAny_full i c p tag cs rest ht hs hd)

/-- `parse_ber` in terms of the generic parser. -/
theorem parseBer_of_any {p : Parser α} {i r x : Input} {a : Any} {v : α}
    (h : parseBerAny i = .ok (r, a)) (hacc : p.acceptTag a.header.tag = true)
    (hc : p.content a.header a.data = .ok (x, v)) : p.parseBer i = .ok (r, v) := by
  obtain ⟨r1, h1, h2⟩ := parseBerAny_ok.mp h
  unfold Parser.parseBer
  rw [h1]
  simp only [bind_ok, hacc, Bool.not_true, Bool.false_eq_true, if_false]
  rw [h2]; simp only [bind_ok]
  rw [hc]; rfl

theorem tagIs_iff {t tag : Nat} : tagIs t tag = true ↔ tag = t := by
  simp [tagIs]

theorem parseBer_ok {p : Parser α} {i r : Input} {v : α} :
    p.parseBer i = .ok (r, v) ↔ ∃ a x, parseBerAny i = .ok (r, a) ∧
      p.acceptTag a.header.tag = true ∧ p.content a.header a.data = .ok (x, v) := by
  constructor
  · intro h
    unfold Parser.parseBer at h
    obtain ⟨⟨r1, hd⟩, h1, h⟩ := bind_eq_ok.mp h
    simp only at h
    split at h
    · simp [nomErr] at h
    · rename_i hacc
      obtain ⟨⟨r2, data⟩, h2, h⟩ := bind_eq_ok.mp h
      obtain ⟨⟨x, obj⟩, h3, h⟩ := bind_eq_ok.mp h
      simp at h
      refine ⟨⟨hd, data⟩, x, parseBerAny_ok.mpr ⟨r1, h1, ?_⟩, by simpa using hacc, ?_⟩
      · rw [← h.1]; exact h2
      · rw [← h.2]; exact h3
  · rintro ⟨a, x, h1, h2, h3⟩
    exact parseBer_of_any h1 h2 h3

theorem parseDer_ok {p : Parser α} {i r : Input} {v : α} :
    p.parseDer i = .ok (r, v) ↔ ∃ a x, parseDerAny i = .ok (r, a) ∧
      p.acceptTag a.header.tag = true ∧ p.content a.header a.data = .ok (x, v) := by
  constructor
  · intro h
    unfold Parser.parseDer at h
    obtain ⟨⟨r1, hd⟩, h1, h⟩ := bind_eq_ok.mp h
    obtain ⟨n, h2, h⟩ := bind_eq_ok.mp h
    obtain ⟨hp, hl⟩ := parseHeaderDer_ok.mp h1
    have hn : hd.length = .definite n := by
      unfold definiteInner nomErr at h2
      split at h2
      · rename_i m hm; simp at h2; rw [hm, h2]
      · simp at h2
    simp only at h
    split at h
    · simp [nomErr] at h
    · rename_i hacc
      obtain ⟨⟨r2, data⟩, h3, h⟩ := bind_eq_ok.mp h
      obtain ⟨⟨x, obj⟩, h4, h⟩ := bind_eq_ok.mp h
      simp at h
      rw [takeS_eq] at h3
      split at h3
      · rename_i hle
        simp at h3
        refine ⟨⟨hd, data⟩, x, parseDerAny_ok.mpr ⟨r1, n, hp, hn, hle, ?_, h3.2.symm⟩,
          by simpa using hacc, ?_⟩
        · rw [← h.1]; exact h3.1.symm
        · rw [← h.2]; exact h4
      · simp at h3
  · rintro ⟨a, x, h1, h2, h3⟩
    obtain ⟨r1, n, hp, hl, hle, hr, hd⟩ := parseDerAny_ok.mp h1
    have hpd : parseHeaderDer i = .ok (r1, a.header) :=
      parseHeaderDer_ok.mpr ⟨hp, by rw [hl]; rfl⟩
    unfold Parser.parseDer
    rw [hpd]
    simp only [bind_ok, definiteInner, hl, h2, Bool.not_true, Bool.false_eq_true, if_false]
    rw [takeS_eq, if_pos hle]
    simp only [bind_ok]
    rw [← hd, h3, ← hr]; rfl

theorem wrapBerParser_ok {f : Input → PRes α} {bytes rem : Bytes} {v : α} :
    wrapBerParser f bytes = .ok (rem, v) ↔
      ∃ r, f (Input.fromSlice bytes) = .ok (r, v) ∧ r.data = rem := by
  unfold wrapBerParser
  split
  · rename_i r a h
    constructor
    · intro h'; simp at h'; exact ⟨r, by rw [h, h'.2], h'.1⟩
    · rintro ⟨r', h', e⟩
      rw [h] at h'; simp at h'
      rw [← e, h'.1, h'.2]
  · rename_i e h
    simp [h]

theorem bindS_eq_ok {β : Type} {x : Except SErr α} {f : α → Except SErr β} {b : β} :
    x >>= f = .ok b ↔ ∃ a, x = .ok a ∧ f a = .ok b := by
  cases x <;> simp [Bind.bind, Except.bind]

theorem tryFromAny_ok {p : Parser α} {a : Any} {v : α} :
    tryFromAny p a = .ok v ↔ p.acceptTag a.header.tag = true ∧
      ∃ x, p.content a.header a.data = .ok (x, v) := by
  unfold tryFromAny
  cases hacc : p.acceptTag a.header.tag with
  | false => simp
  | true =>
    simp only [Bool.not_true, Bool.false_eq_true, if_false, true_and]
    split
    · rename_i x obj h
      rw [h]; simp
    · rename_i e h
      rw [h]; simp

theorem fromBer_ok {p : Parser α} {bytes rem : Bytes} {v : α} :
    fromBer p bytes = .ok (rem, v) ↔ ∃ r a x, parseBerAny (Input.fromSlice bytes) = .ok (r, a) ∧
      r.data = rem ∧ p.acceptTag a.header.tag = true ∧ p.content a.header a.data = .ok (x, v) := by
  unfold fromBer
  rw [bindS_eq_ok]
  constructor
  · rintro ⟨⟨i, a⟩, h1, h2⟩
    obtain ⟨w, h3, h4⟩ := bindS_eq_ok.mp h2
    obtain ⟨r, h5, h6⟩ := wrapBerParser_ok.mp h1
    obtain ⟨h7, x, h8⟩ := tryFromAny_ok.mp h3
    simp [pure, Except.pure] at h4
    exact ⟨r, a, x, h5, by rw [h6, h4.1], h7, by rw [← h4.2]; exact h8⟩
  · rintro ⟨r, a, x, h1, h2, h3, h4⟩
    refine ⟨(rem, a), wrapBerParser_ok.mpr ⟨r, h1, h2⟩, bindS_eq_ok.mpr ⟨v, ?_, rfl⟩⟩
    exact tryFromAny_ok.mpr ⟨h3, x, h4⟩

theorem fromDer_ok {p : Parser α} {check : Any → Except SErr Unit} {bytes rem : Bytes} {v : α} :
    fromDer p check bytes = .ok (rem, v) ↔ ∃ r a x,
      parseDerAny (Input.fromSlice bytes) = .ok (r, a) ∧ r.data = rem ∧ check a = .ok () ∧
      p.acceptTag a.header.tag = true ∧ p.content a.header a.data = .ok (x, v) := by
  unfold fromDer
  rw [bindS_eq_ok]
  constructor
  · rintro ⟨⟨i, a⟩, h1, h2⟩
    obtain ⟨_, h0, h2⟩ := bindS_eq_ok.mp h2
    obtain ⟨w, h3, h4⟩ := bindS_eq_ok.mp h2
    obtain ⟨r, h5, h6⟩ := wrapBerParser_ok.mp h1
    obtain ⟨h7, x, h8⟩ := tryFromAny_ok.mp h3
    simp [pure, Except.pure] at h4
    exact ⟨r, a, x, h5, by rw [h6, h4.1], h0, h7, by rw [← h4.2]; exact h8⟩
  · rintro ⟨r, a, x, h1, h2, h0, h3, h4⟩
    refine ⟨(rem, a), wrapBerParser_ok.mpr ⟨r, h1, h2⟩, bindS_eq_ok.mpr ⟨(), h0, ?_⟩⟩
    exact bindS_eq_ok.mpr ⟨v, tryFromAny_ok.mpr ⟨h3, x, h4⟩, rfl⟩

/-- Round-trip through `parse_der`. -/
theorem parseDer_roundtrip {p : Parser α} {t : ToBer α} {v : α} {cs : Bytes}
    (he : Encodes t v cs) (hs : cs.length < 2 ^ 64)
    (hacc : p.acceptTag (t.tagInfo v).2.2 = true)
    (hd : Decodes p (t.tagInfo v).2.1 cs v) (i : Input) (rest : Bytes)
    (hi : i.data = t.fullOf v cs ++ rest) :
    p.parseDer i = .ok (after i (t.fullOf v cs).length, v) := by
  have h := parseDerAny_full i _ _ _ cs rest he.tag hs hi
  obtain ⟨x, hx⟩ := hd ⟨(t.tagInfo v).1, (t.tagInfo v).2.1, (t.tagInfo v).2.2,
    .definite cs.length, some (identOctets (t.tagInfo v).1 (t.tagInfo v).2.1 (t.tagInfo v).2.2),
    some (first i ((t.fullOf v cs).length - cs.length))⟩
    (first (after i ((t.fullOf v cs).length - cs.length)) cs.length) rfl rfl (by
      rw [first_data]
      have := full_content i _ _ _ cs rest hi
      rw [ToBer.fullOf, this]; simp)
  exact parseDer_ok.mpr ⟨_, x, h, hacc, hx⟩

/-- Round-trip through `parse_ber`. -/
theorem parseBer_roundtrip {p : Parser α} {t : ToBer α} {v : α} {cs : Bytes}
    (he : Encodes t v cs) (hs : cs.length < 2 ^ 64)
    (hacc : p.acceptTag (t.tagInfo v).2.2 = true)
    (hd : Decodes p (t.tagInfo v).2.1 cs v) (i : Input) (rest : Bytes)
    (hi : i.data = t.fullOf v cs ++ rest) :
    p.parseBer i = .ok (after i (t.fullOf v cs).length, v) := by
  have h := parseDer_roundtrip he hs hacc hd i rest hi
  obtain ⟨a, x, h1, h2, h3⟩ := parseDer_ok.mp h
  exact parseBer_ok.mpr ⟨a, x, C11_der_subset_ber_any _ _ _ h1, h2, h3⟩

/-- Round-trip through `from_ber`. -/
theorem fromBer_roundtrip {p : Parser α} {t : ToBer α} {v : α} {cs : Bytes}
    (he : Encodes t v cs) (hs : cs.length < 2 ^ 64)
    (hacc : p.acceptTag (t.tagInfo v).2.2 = true)
    (hd : Decodes p (t.tagInfo v).2.1 cs v) (rest : Bytes) :
    fromBer p (t.fullOf v cs ++ rest) = .ok (rest, v) := by
  have h := parseBer_roundtrip he hs hacc hd (Input.fromSlice (t.fullOf v cs ++ rest)) rest rfl
  obtain ⟨a, x, h1, h2, h3⟩ := parseBer_ok.mp h
  refine fromBer_ok.mpr ⟨_, a, x, h1, ?_, h2, h3⟩
  simp [Input.fromSlice]

/-- Round-trip through `from_der`; `check` must accept the contents. -/
theorem fromDer_roundtrip {p : Parser α} {check : Any → Except SErr Unit} {t : ToBer α} {v : α}
    {cs : Bytes} (he : Encodes t v cs) (hs : cs.length < 2 ^ 64)
    (hacc : p.acceptTag (t.tagInfo v).2.2 = true)
    (hd : Decodes p (t.tagInfo v).2.1 cs v)
    (hc : ∀ a : Any, a.header.constructed = (t.tagInfo v).2.1 →
      a.header.length = .definite cs.length → a.data.data = cs → check a = .ok ())
    (rest : Bytes) :
    fromDer p check (t.fullOf v cs ++ rest) = .ok (rest, v) := by
  let i := Input.fromSlice (t.fullOf v cs ++ rest)
  have h := parseDerAny_full i _ _ _ cs rest he.tag hs rfl
  have hdat : (first (after i ((t.fullOf v cs).length - cs.length)) cs.length).data = cs := by
    rw [first_data]
    have := full_content i _ _ _ cs rest rfl
    rw [ToBer.fullOf, this]; simp
  obtain ⟨x, hx⟩ := hd ⟨(t.tagInfo v).1, (t.tagInfo v).2.1, (t.tagInfo v).2.2,
    .definite cs.length, some (identOctets (t.tagInfo v).1 (t.tagInfo v).2.1 (t.tagInfo v).2.2),
    some (first i ((t.fullOf v cs).length - cs.length))⟩
    (first (after i ((t.fullOf v cs).length - cs.length)) cs.length) rfl rfl hdat
  refine fromDer_ok.mpr ⟨_, _, x, h, ?_, hc _ rfl rfl hdat, hacc, hx⟩
  simp [i, Input.fromSlice, ToBer.fullOf]

/-! ### Objects returned by the generic parsers -/

theorem berAny_definite {i r : Input} {a : Any} (h : parseBerAny i = .ok (r, a)) {n : Nat}
    (hl : a.header.length = .definite n) : a.data.data.length = n := by
  obtain ⟨r1, hp, hc⟩ := parseBerAny_ok.mp h
  rw [show MAX_RECURSION = 49 + 1 from rfl] at hc
  have := berContent_ok.mp hc
  rw [hl] at this
  obtain ⟨h1, h2, h3⟩ := this
  rw [h3, first_data, List.length_take]; omega

theorem berAny_primitive {i r : Input} {a : Any} (h : parseBerAny i = .ok (r, a))
    (hc : a.header.constructed = false) : a.header.length = .definite a.data.data.length := by
  cases hl : a.header.length with
  | definite n => rw [berAny_definite h hl]
  | indefinite =>
    obtain ⟨r1, hp, hc'⟩ := parseBerAny_ok.mp h
    rw [show MAX_RECURSION = 49 + 1 from rfl] at hc'
    have := berContent_ok.mp hc'
    rw [hl] at this
    rw [hc] at this
    simp at this

theorem derAny_definite {i r : Input} {a : Any} (h : parseDerAny i = .ok (r, a)) :
    a.header.length = .definite a.data.data.length := (C10_der_definite i).1 r a h

/-- A header asking for as many bytes as there are. -/
theorem derContent_all {h : Header} {i : Input} (hl : h.length = .definite i.data.length) :
    derContent h i = .ok (after i i.data.length, first i i.data.length) := by
  rw [derContent, hl]
  simp [takeS_eq]

theorem first_all (i : Input) : (first i i.data.length).data = i.data := by simp [first]

/-! ### Lengths -/

theorem tagLengthLoop_spec (fuel val sz k : Nat) (hf : k ≤ fuel) (hk : 1 ≤ k)
    (h1 : val < 128 ^ k) (h2 : k = 1 ∨ 128 ^ (k - 1) ≤ val) :
    tagLengthLoop fuel val sz = sz + k := by
  induction k generalizing fuel val sz with
  | zero => omega
  | succ k ih =>
    cases fuel with
    | zero => omega
    | succ fuel =>
      rw [tagLengthLoop]
      by_cases hv : val ≤ 127
      · rw [if_pos hv]
        rcases h2 with h2 | h2
        · omega
        · cases k with
          | zero => rfl
          | succ k =>
            have : 128 ^ 1 ≤ 128 ^ (k + 1) := Nat.pow_le_pow_right (by decide) (by omega)
            simp at h2 this; omega
      · rw [if_neg hv]
        have hk1 : 1 ≤ k := by
          cases k with
          | zero => simp at h1; omega
          | succ k => omega
        have e : val >>> 7 = val / 128 := by rw [Nat.shiftRight_eq_div_pow]
        rw [e, ih fuel (val / 128) (sz + 1) (by omega) hk1]
        · omega
        · rw [Nat.pow_succ] at h1
          exact Nat.div_lt_of_lt_mul (by omega)
        · rcases h2 with h2 | h2
          · omega
          · by_cases h : k = 1
            · exact .inl h
            · refine .inr ((Nat.le_div_iff_mul_le (by decide)).mpr ?_)
              rw [← Nat.pow_succ]
              have : k - 1 + 1 = k + 1 - 1 := by omega
              rw [Nat.succ_eq_add_one, this]; exact h2

theorem berTagLength_eq (c : Class) (p : Bool) {t : Nat} (ht : t < 2 ^ 32) :
    berTagLength t = (identOctets c p t).length := by
  rcases (writeTag_spec c p t ht).2 with ⟨h, b, e, _⟩ | ⟨h, b, hi, last, e, _, h1, h2, h3, h4⟩
  · rw [e, berTagLength, if_pos (by omega)]; rfl
  · rw [e, berTagLength, if_neg (by omega)]
    have hlt : t < 128 ^ (hi.length + 1) := by
      rw [← h3]
      have := base128_lt (hi ++ [last])
      simpa using this
    rw [tagLengthLoop_spec t t 1 (hi.length + 1)]
    · simp; omega
    · rcases h4 with rfl | h4
      · simp; omega
      · have : hi.length < 128 ^ hi.length := Nat.lt_pow_self (by decide)
        omega
    · omega
    · exact hlt
    · rcases h4 with rfl | h4
      · exact .inl rfl
      · exact .inr (by simpa using h4)

theorem lenOctets_size {n : Nat} (h : n < 2 ^ 24) :
    berLengthLength (.definite n) = .ok (lenOctets (.definite n)).length := by
  rcases (writeLength_spec (.definite n) (by intro m hm; simp at hm; omega)).2 with
    ⟨h', _⟩ | ⟨m, hm, ⟨hn, b, e, hb⟩ | ⟨hn, b, x, xs, e, hb, hx, hle, hv⟩⟩
  · simp at h'
  · simp at hm; subst hm
    rw [e, berLengthLength]; simp; omega
  · simp at hm; subst hm
    have h1 := beNat_lt (x :: xs)
    have h2 : 256 ^ xs.length ≤ beNat (x :: xs) := by
      rw [beNat_cons]
      have := Nat.mul_le_mul_right (256 ^ xs.length) (show 1 ≤ x.toNat by omega)
      omega
    rw [hv] at h1 h2
    rw [e, berLengthLength, List.length_cons, List.length_cons]
    rw [List.length_cons] at h1
    have hx2 : xs.length < 3 := by
      apply Nat.lt_of_not_le
      intro hge
      have : 256 ^ 3 ≤ 256 ^ xs.length := Nat.pow_le_pow_right (by decide) hge
      omega
    have hc : xs.length = 0 ∨ xs.length = 1 ∨ xs.length = 2 := by omega
    rcases hc with hc | hc | hc <;> rw [hc] at h1 h2 ⊢
    · rw [if_neg (by omega), if_pos (by omega)]
    · rw [if_neg (by omega), if_neg (by omega), if_pos (by omega)]
    · rw [if_neg (by omega), if_neg (by omega), if_neg (by omega), if_pos (by omega)]

/-- Announced total length, for contents shorter than 2^24 bytes. -/
theorem Encodes.totalLen {t : ToBer α} {v : α} {cs : Bytes} (h : Encodes t v cs)
    (hs : cs.length < 2 ^ 24) : t.totalLen v = .definite (t.fullOf v cs).length := by
  unfold ToBer.totalLen berTotalLength berHeaderLength
  rw [h.len, lenOctets_size hs, berTagLength_eq (t.tagInfo v).1 (t.tagInfo v).2.1 h.tag]
  simp [Bind.bind, Except.bind, pure, Except.pure, Length.addNat, ToBer.fullOf, full,
    Nat.add_comm]
  exact (Nat.add_assoc _ _ _).symm

end Asn1

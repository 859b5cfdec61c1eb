import Verif.Proofs.CharStrings
/-!
# Character strings (C44, C45, C46, C71)
-/
namespace Asn1
open Spec Wr

/-! ### Restricted strings -/

/-- **C44** The exact set of objects that the four decoders of a restricted string (and of
UTF8String) accept, with the text returned: objects with the tag of the type, whose bytes (in
primitive form, and for BER in segments) are the UTF-8 of the text, when all characters belong to the
alphabet. For the restricted strings the alphabet is within ASCII, so that there is one byte per
character.
Missing: the alphabets are those of the code, which differ from X.680 (`C44_deviations`). -/
theorem C44_strings_accept_partial {k : StrKind} {tag : Nat} {A : Char → Bool} (hk : StringType k tag A)
    (i r : Input) (bytes rem : Bytes) (s : Text) :
    ((strBer k).parseBer i = .ok (r, s) ↔ ∃ a, parseBerAny i = .ok (r, a) ∧ a.header.tag = tag ∧
      StringBytes a.header.constructed a.data.data (Text.utf8 s) ∧ ∀ c ∈ s, A c = true) ∧
    ((strDer k).parseDer i = .ok (r, s) ↔ ∃ a, parseDerAny i = .ok (r, a) ∧ a.header.tag = tag ∧
      a.header.constructed = false ∧ a.data.data = Text.utf8 s ∧ ∀ c ∈ s, A c = true) ∧
    (fromBer (strBer k) bytes = .ok (rem, s) ↔
      ∃ r a, parseBerAny (Input.fromSlice bytes) = .ok (r, a) ∧ r.data = rem ∧ a.header.tag = tag ∧
      StringBytes a.header.constructed a.data.data (Text.utf8 s) ∧ ∀ c ∈ s, A c = true) ∧
    (fromDer (strBer k) strCheck bytes = .ok (rem, s) ↔
      ∃ r a, parseDerAny (Input.fromSlice bytes) = .ok (r, a) ∧ r.data = rem ∧ a.header.tag = tag ∧
      a.header.constructed = false ∧ a.data.data = Text.utf8 s ∧ ∀ c ∈ s, A c = true) := by
  have ht := hk.tag_eq
  subst ht
  refine ⟨accepts_ber (str_acc k).1 (str_contents hk) i r s,
    accepts_der (str_acc k).2 (strDer_contents hk) i r s,
    accepts_fromBer (str_acc k).1 (str_contents hk) bytes rem s, ?_⟩
  rw [accepts_fromDer (str_acc k).1 (str_contents hk) strCheck_ok bytes rem s]
  simp only [StringBytes, true_and, Bool.false_eq_true, false_and, or_false]
  constructor <;> rintro ⟨r, a, h1, h2, h3, h4, h5, h6⟩ <;> exact ⟨r, a, h1, h2, h3, h4, h5.symm, h6⟩

/-- The example of X.690 8.23.5.4: the VisibleString "Jones" in primitive form, in two segments, and
with an indefinite length; `*` is no PrintableString. -/
example :
    (strBer visibleStringK).parseBer (Input.fromSlice [0x1a, 5, 0x4a, 0x6f, 0x6e, 0x65, 0x73]) =
      .ok (⟨[], 7, 7⟩, ['J', 'o', 'n', 'e', 's']) ∧
    (strBer visibleStringK).parseBer
      (Input.fromSlice [0x3a, 9, 4, 3, 0x4a, 0x6f, 0x6e, 4, 2, 0x65, 0x73]) =
      .ok (⟨[], 11, 11⟩, ['J', 'o', 'n', 'e', 's']) ∧
    (strBer visibleStringK).parseBer
      (Input.fromSlice [0x3a, 0x80, 4, 3, 0x4a, 0x6f, 0x6e, 4, 2, 0x65, 0x73, 0, 0]) =
      .ok (⟨[], 13, 13⟩, ['J', 'o', 'n', 'e', 's']) ∧
    (strDer visibleStringK).parseDer
      (Input.fromSlice [0x3a, 9, 4, 3, 0x4a, 0x6f, 0x6e, 4, 2, 0x65, 0x73]) =
      nomErr ⟨[4, 3, 0x4a, 0x6f, 0x6e, 4, 2, 0x65, 0x73], 2, 11⟩ .constructUnexpected ∧
    (strBer printableStringK).parseBer (Input.fromSlice [0x13, 1, 0x2a]) =
      nomErr ⟨[], 3, 3⟩ .stringInvalidCharset := by decide +kernel

/-- An accepted restricted string holds one byte per character. -/
theorem C44_ascii {k : StrKind} {tag : Nat} {A : Char → Bool} (hk : StringType k tag A)
    (ht : tag ≠ 12) (s : Text) (hs : ∀ c ∈ s, A c = true) :
    Text.utf8 s = s.map fun c => UInt8.ofNat c.toNat := by
  refine utf8_ascii fun c hc => ?_
  have := hs c hc
  have hv : ∀ c, visibleChar c = true → c.toNat < 0x80 := fun c h => by
    have := of_decide_eq_true h; omega
  have ha : ∀ c, asciiChar c = true → c.toNat < 0x80 := fun c h => by
    have := of_decide_eq_true h; omega
  cases hk with
  | utf8 => exact absurd rfl ht
  | numeric => exact numericChar_lt this
  | printable => exact printableChar_lt this
  | teletex => exact hv c this
  | videotex => exact hv c this
  | visible => exact hv c this
  | ia5 => exact ha c this
  | graphic => exact ha c this
  | general => exact ha c this
  | objectDescriptor => exact ha c this

/-- A case. -/
example : Text.utf8 ['A', 'b', '3'] = [0x41, 0x62, 0x33] := by decide +kernel

/-- **C44** Every text over the alphabet of its type encodes, and decodes to the same text through the
four APIs.
Missing: texts out of the alphabet, which the constructors accept (`C44_out_of_alphabet`). -/
theorem C44_strings_roundtrip_partial {k : StrKind} {tag : Nat} {A : Char → Bool} (hk : StringType k tag A)
    (s : Text) (hs : ∀ c ∈ s, A c = true) (hl : (Text.utf8 s).length < 2 ^ 64) :
    ParseBerBack (strToBer tag) (strBer k) s s ∧ FromBerBack (strToBer tag) (strBer k) s s ∧
    ParseDerBack (strToBer tag) (strDer k) s s ∧
    FromDerBack (strToBer tag) (strBer k) strCheck s s := by
  have he := str_encodes hk.tag_lt.1 s
  have hb := decodes_of (str_contents hk) (constructed := false) ⟨.inl ⟨rfl, rfl⟩, hs⟩
  have hd := decodes_of (strDer_contents hk) (constructed := false) ⟨rfl, rfl, hs⟩
  have hB : (strBer k).acceptTag tag = true := ((str_acc k).1 _).mpr hk.tag_eq.symm
  have hD : (strDer k).acceptTag tag = true := ((str_acc k).2 _).mpr hk.tag_eq.symm
  have h1 := back_ber (p := strBer k) he hl hB hb
  exact ⟨h1.1, h1.2, back_der he hl hD hd,
    back_fromDer he hl hB hb fun a h _ _ => (strCheck_ok a).mpr h⟩

example : (strToBer 22).toVec ['a', '@', 'b'] = .ok [0x16, 3, 0x61, 0x40, 0x62] ∧
    (strToBer 12).toVec ['é', '€'] = .ok [0x0c, 5, 0xc3, 0xa9, 0xe2, 0x82, 0xac] := by decide +kernel

/-- **C44** Deviation: the constructors do not test the alphabet. Every text with a character outside
of it is encoded, and the encoding is refused by the four decoders of the type. -/
theorem C44_out_of_alphabet {k : StrKind} {tag : Nat} {A : Char → Bool} (hk : StringType k tag A)
    (s : Text) (hs : ∃ c ∈ s, A c = false) (hl : (Text.utf8 s).length < 2 ^ 64) :
    ∃ bs, (strToBer tag).toVec s = .ok bs ∧ ∀ (i : Input) (rest : Bytes), i.data = bs ++ rest →
      (∀ x, (strBer k).parseBer i ≠ .ok x) ∧ (∀ x, (strDer k).parseDer i ≠ .ok x) := by
  have he := str_encodes hk.tag_lt.1 s
  obtain ⟨c, hc, hA⟩ := hs
  refine ⟨_, he.toVec hl, fun i rest hi => ?_⟩
  have hp := parseBerAny_full i _ _ _ (Text.utf8 s) rest he.tag hl hi
  have hq := parseDerAny_full i _ _ _ (Text.utf8 s) rest he.tag hl hi
  have hdata := full_content i _ _ _ (Text.utf8 s) rest hi
  constructor
  · rintro ⟨r, t⟩ h
    obtain ⟨a, h1, _, h3, h4⟩ := (C44_strings_accept_partial hk i r [] [] t).1.mp h
    rw [hp] at h1
    simp only [Except.ok.injEq, Prod.mk.injEq] at h1
    obtain ⟨_, rfl⟩ := h1
    rcases h3 with ⟨_, h5⟩ | ⟨h5, _⟩
    · rw [first_data, hdata, List.take_left' rfl] at h5
      rw [h4 c (utf8_inj h5 ▸ hc)] at hA
      exact absurd hA (by decide)
    · exact absurd h5 (by simp [strToBer])
  · rintro ⟨r, t⟩ h
    obtain ⟨a, h1, _, _, h5, h4⟩ := (C44_strings_accept_partial hk i r [] [] t).2.1.mp h
    rw [hq] at h1
    simp only [Except.ok.injEq, Prod.mk.injEq] at h1
    obtain ⟨_, rfl⟩ := h1
    rw [first_data, hdata, List.take_left' rfl] at h5
    rw [h4 c (utf8_inj h5 ▸ hc)] at hA
    exact absurd hA (by decide)

/-- A case: `PrintableString::new("*")`. -/
example : (strToBer 19).toVec ['*'] = .ok [0x13, 1, 0x2a] ∧ printableChar '*' = false := by
  decide +kernel

/-- **C44** Deviations from X.680: DEL is accepted in VisibleString, a control character in
GraphicString and ObjectDescriptor, and the characters above ASCII that X.680 allows in TeletexString
and GeneralString are refused (0xe9). -/
theorem C44_deviations :
    (strDer visibleStringK).parseDer (Input.fromSlice [0x1a, 1, 0x7f]) =
      .ok (⟨[], 3, 3⟩, [Char.ofNat 0x7f]) ∧
    (strDer graphicStringK).parseDer (Input.fromSlice [0x19, 1, 0x07]) =
      .ok (⟨[], 3, 3⟩, [Char.ofNat 7]) ∧
    (strDer objectDescriptorK).parseDer (Input.fromSlice [0x07, 1, 0x07]) =
      .ok (⟨[], 3, 3⟩, [Char.ofNat 7]) ∧
    (strDer teletexStringK).parseDer (Input.fromSlice [0x14, 1, 0xe9]) =
      nomErr ⟨[], 3, 3⟩ .stringInvalidCharset ∧
    (strDer generalStringK).parseDer (Input.fromSlice [0x1b, 1, 0xe9]) =
      nomErr ⟨[], 3, 3⟩ .stringInvalidCharset := by decide +kernel

/-! ### `&str` and `String` -/

/-- **C44** What `&str` and `String` accept: UTF8String objects whose bytes are the UTF-8 of the text;
`&str` only in primitive form. In DER, and for `from_der`, both accept the same. -/
theorem C44_str_accepts (i r : Input) (s : Text) :
    (refStrBer.parseBer i = .ok (r, s) ↔ ∃ a, parseBerAny i = .ok (r, a) ∧ a.header.tag = 12 ∧
      a.header.constructed = false ∧ a.data.data = Text.utf8 s) ∧
    (stringBer.parseBer i = .ok (r, s) ↔ ∃ a, parseBerAny i = .ok (r, a) ∧ a.header.tag = 12 ∧
      StringBytes a.header.constructed a.data.data (Text.utf8 s)) ∧
    (refStrDer.parseDer i = .ok (r, s) ↔ ∃ a, parseDerAny i = .ok (r, a) ∧ a.header.tag = 12 ∧
      a.header.constructed = false ∧ a.data.data = Text.utf8 s) :=
  ⟨accepts_ber (fun _ => tagIs_iff) refStr_contents i r s,
   accepts_ber (fun _ => tagIs_iff) string_contents i r s,
   accepts_der (fun _ => tagIs_iff) refStrDer_contents i r s⟩

/-- A case: a string in two segments, accepted by `String` and refused by `&str`. -/
example : stringBer.parseBer (Input.fromSlice [0x2c, 6, 4, 1, 0xc3, 4, 1, 0xa9]) = .ok (⟨[], 8, 8⟩, ['é']) ∧
    (refStrBer.parseBer (Input.fromSlice [0x2c, 6, 4, 1, 0xc3, 4, 1, 0xa9])).isOk = false := by decide +kernel

/-- **C44** Every text encodes as UTF8String and decodes to the same text, as `&str` and `String`,
through the four APIs. -/
theorem C44_str_roundtrip (s : Text) (hl : (Text.utf8 s).length < 2 ^ 64) :
    ParseBerBack (strToBer 12) refStrBer s s ∧ FromBerBack (strToBer 12) refStrBer s s ∧
    ParseDerBack (strToBer 12) refStrDer s s ∧ FromDerBack (strToBer 12) refStrBer strCheck s s ∧
    ParseBerBack (strToBer 12) stringBer s s ∧ FromBerBack (strToBer 12) stringBer s s ∧
    FromDerBack (strToBer 12) stringBer strCheck s s := by
  have he := str_encodes (tag := 12) (by decide) s
  have hb := decodes_of refStr_contents (constructed := false) (cs := Text.utf8 s) ⟨rfl, rfl⟩
  have hd := decodes_of refStrDer_contents (constructed := false) (cs := Text.utf8 s) ⟨rfl, rfl⟩
  have hs := decodes_of string_contents (constructed := false) (cs := Text.utf8 s) (v := s)
    (.inl ⟨rfl, rfl⟩)
  have h1 := back_ber (p := refStrBer) he hl rfl hb
  have h2 := back_ber (p := stringBer) he hl rfl hs
  exact ⟨h1.1, h1.2, back_der he hl rfl hd,
    back_fromDer he hl rfl hb fun a h _ _ => (strCheck_ok a).mpr h, h2.1, h2.2,
    back_fromDer he hl rfl hs fun a h _ _ => (strCheck_ok a).mpr h⟩

/-- A case. -/
example : (strToBer 12).toVec ['é'] = .ok [12, 2, 0xc3, 0xa9] ∧ (Text.utf8 ['é']).length = 2 := by decide +kernel

/-! ### BMPString -/

/-- **C45** The exact set of objects that the four decoders of BMPString accept, with the text. -/
theorem C45_bmpstring_accepts (i r : Input) (bytes rem : Bytes) (s : Text) :
    (bmpBer.parseBer i = .ok (r, s) ↔ ∃ a, parseBerAny i = .ok (r, a) ∧ a.header.tag = 30 ∧
      (a.header.constructed = false → a.data.data ≠ []) ∧ BmpText a.data.data s) ∧
    (bmpDer.parseDer i = .ok (r, s) ↔ ∃ a, parseDerAny i = .ok (r, a) ∧ a.header.tag = 30 ∧
      a.header.constructed = false ∧ a.data.data ≠ [] ∧ BmpText a.data.data s) ∧
    (fromBer bmpBer bytes = .ok (rem, s) ↔ ∃ r a, parseBerAny (Input.fromSlice bytes) = .ok (r, a) ∧
      r.data = rem ∧ a.header.tag = 30 ∧
      (a.header.constructed = false → a.data.data ≠ []) ∧ BmpText a.data.data s) ∧
    (fromDer bmpBer strCheck bytes = .ok (rem, s) ↔
      ∃ r a, parseDerAny (Input.fromSlice bytes) = .ok (r, a) ∧ r.data = rem ∧ a.header.tag = 30 ∧
      a.header.constructed = false ∧ a.data.data ≠ [] ∧ BmpText a.data.data s) := by
  refine ⟨accepts_ber (fun _ => tagIs_iff) bmp_contents i r s,
    accepts_der (fun _ => tagIs_iff) bmpDer_contents i r s,
    accepts_fromBer (fun _ => tagIs_iff) bmp_contents bytes rem s, ?_⟩
  rw [accepts_fromDer (fun _ => tagIs_iff) bmp_contents strCheck_ok bytes rem s]
  simp only [forall_const]

theorem utf16be_ne_nil {s : Text} (hne : s ≠ []) : utf16be s ≠ [] := by
  cases s with
  | nil => exact absurd rfl hne
  | cons c s =>
    show (if c.toNat ≤ 0xffff then _ else _) ++ utf16be s ≠ []
    split <;> simp [be16]

/-- **C45** (partial) Every non-empty text encodes as BMPString and decodes to the same text, through
the four APIs, including the characters above U+FFFF (as surrogates). Missing: the empty text, whose
encoding no decoder accepts (`C45_empty_deviation`). -/
theorem C45_bmpstring_roundtrip_partial (s : Text) (hne : s ≠ []) (hl : (utf16be s).length < 2 ^ 64) :
    ParseBerBack bmpToBer bmpBer s s ∧ FromBerBack bmpToBer bmpBer s s ∧
    ParseDerBack bmpToBer bmpDer s s ∧ FromDerBack bmpToBer bmpBer strCheck s s := by
  have he := bmp_encodes s
  have hne' := utf16be_ne_nil hne
  have hb := decodes_of bmp_contents (constructed := false) (cs := utf16be s) (v := s)
    ⟨fun _ => hne', .inl rfl⟩
  have hd := decodes_of bmpDer_contents (constructed := false) (cs := utf16be s) (v := s)
    ⟨rfl, hne', .inl rfl⟩
  have h1 := back_ber (p := bmpBer) he hl rfl hb
  exact ⟨h1.1, h1.2, back_der he hl rfl hd,
    back_fromDer he hl rfl hb fun a h _ _ => (strCheck_ok a).mpr h⟩

/-- A case: `U+1F600` is a pair of surrogates. -/
example : bmpToBer.toVec ['U', Char.ofNat 0x1f600] = .ok [0x1e, 6, 0, 0x55, 0xd8, 0x3d, 0xde, 0x00] ∧
    bmpDer.parseDer (Input.fromSlice [0x1e, 6, 0, 0x55, 0xd8, 0x3d, 0xde, 0x00]) =
      .ok (⟨[], 8, 8⟩, ['U', Char.ofNat 0x1f600]) := by decide +kernel

/-- **C45** Deviation: the encoding of the empty text is refused by the four decoders. -/
theorem C45_empty_deviation :
    bmpToBer.toVec [] = .ok [0x1e, 0] ∧
    bmpBer.parseBer (Input.fromSlice [0x1e, 0]) = nomErr ⟨[], 2, 2⟩ .invalidLength ∧
    bmpDer.parseDer (Input.fromSlice [0x1e, 0]) = nomErr ⟨[], 2, 2⟩ .invalidLength ∧
    fromBer bmpBer [0x1e, 0] = .error (.error .invalidLength) ∧
    fromDer bmpBer strCheck [0x1e, 0] = .error (.error .invalidLength) := by decide +kernel

/-- **C45** Other deviations from X.690: an odd last byte is read as a character (although
`test_valid_charset` refuses such contents); the segments of a constructed string are not joined, their
headers are returned as text. -/
theorem C45_deviations :
    bmpDer.parseDer (Input.fromSlice [0x1e, 3, 0, 0x55, 0x41]) = .ok (⟨[], 5, 5⟩, ['U', 'A']) ∧
    bmpTestValidCharset [0, 0x55, 0x41] = .error .stringInvalidCharset ∧
    bmpBer.parseBer (Input.fromSlice [0x3e, 4, 4, 2, 0, 0x55]) =
      .ok (⟨[], 6, 6⟩, [Char.ofNat 0x402, 'U']) := by decide +kernel

/-- **C45** `BmpString::test_valid_charset` accepts exactly the UTF-16BE of texts. -/
theorem C45_test_valid_charset (bs : Bytes) :
    bmpTestValidCharset bs = .ok () ↔ ∃ s, bs = utf16be s := by
  have hlen : ∀ s, (utf16be s).length % 2 = 0 := fun s => by
    rw [← unitBytes_utf16, unitBytes_length]; omega
  unfold bmpTestValidCharset
  by_cases h : bs.length % 2 = 0
  · rw [if_neg (by simp [h])]
    have key : ∀ s, fromUtf16 (units16 bs) = some s ↔ bs = utf16be s := by
      intro s
      rw [fromUtf16_iff (units16_lt bs), units16_eq bs _ (utf16_lt s), unitBytes_utf16]
      constructor
      · rintro (h1 | ⟨us', a, _, h2⟩)
        · exact h1
        · rw [h2, List.length_append, unitBytes_length, List.length_singleton] at h; omega
      · exact .inl
    cases hu : fromUtf16 (units16 bs) with
    | none =>
      simp only [reduceCtorEq, false_iff]
      rintro ⟨s, hs⟩
      rw [(key s).mpr hs] at hu; exact absurd hu (by simp)
    | some s => simp only [true_iff]; exact ⟨s, (key s).mp hu⟩
  · rw [if_pos h]
    simp only [reduceCtorEq, false_iff]
    rintro ⟨s, rfl⟩
    exact h (hlen s)

/-! ### UniversalString -/

/-- **C46** The exact set of objects that the four decoders of UniversalString accept, with the
text. -/
theorem C46_universalstring_accepts (i r : Input) (bytes rem : Bytes) (s : Text) :
    (univBer.parseBer i = .ok (r, s) ↔ ∃ a, parseBerAny i = .ok (r, a) ∧ a.header.tag = 28 ∧
      (a.header.constructed = false → a.data.data ≠ []) ∧ a.data.data = ucs4 s) ∧
    (univDer.parseDer i = .ok (r, s) ↔ ∃ a, parseDerAny i = .ok (r, a) ∧ a.header.tag = 28 ∧
      a.header.constructed = false ∧ a.data.data ≠ [] ∧ a.data.data = ucs4 s) ∧
    (fromBer univBer bytes = .ok (rem, s) ↔ ∃ r a, parseBerAny (Input.fromSlice bytes) = .ok (r, a) ∧
      r.data = rem ∧ a.header.tag = 28 ∧
      (a.header.constructed = false → a.data.data ≠ []) ∧ a.data.data = ucs4 s) ∧
    (fromDer univBer strCheck bytes = .ok (rem, s) ↔
      ∃ r a, parseDerAny (Input.fromSlice bytes) = .ok (r, a) ∧ r.data = rem ∧ a.header.tag = 28 ∧
      a.header.constructed = false ∧ a.data.data ≠ [] ∧ a.data.data = ucs4 s) := by
  refine ⟨accepts_ber (fun _ => tagIs_iff) univ_contents i r s,
    accepts_der (fun _ => tagIs_iff) univDer_contents i r s,
    accepts_fromBer (fun _ => tagIs_iff) univ_contents bytes rem s, ?_⟩
  rw [accepts_fromDer (fun _ => tagIs_iff) univ_contents strCheck_ok bytes rem s]
  simp only [forall_const]

theorem ucs4_ne_nil {s : Text} (h : s ≠ []) : ucs4 s ≠ [] := by
  intro hn
  have := ucs4_length s
  rw [hn, List.length_nil] at this
  cases s with
  | nil => exact h rfl
  | cons c s => rw [List.length_cons] at this; omega

/-- **C46** (partial) Every non-empty ASCII text encodes as UniversalString and decodes to the same
text, through the four APIs. Missing: the empty text, and the texts with a character above ASCII, whose
encodings no decoder accepts (`C46_empty_deviation`, `C46_length_deviation`). -/
theorem C46_universalstring_roundtrip_partial (s : Text) (hne : s ≠ [])
    (ha : ∀ c ∈ s, c.toNat < 0x80) (hl : (ucs4 s).length < 2 ^ 64) :
    ParseBerBack univToBer univBer s s ∧ FromBerBack univToBer univBer s s ∧
    ParseDerBack univToBer univDer s s ∧ FromDerBack univToBer univBer strCheck s s := by
  have he := univ_encodes ha
  have hb := decodes_of univ_contents (constructed := false) (cs := ucs4 s) (v := s)
    ⟨fun _ => ucs4_ne_nil hne, rfl⟩
  have hd := decodes_of univDer_contents (constructed := false) (cs := ucs4 s) (v := s)
    ⟨rfl, ucs4_ne_nil hne, rfl⟩
  have h1 := back_ber (p := univBer) he hl rfl hb
  exact ⟨h1.1, h1.2, back_der he hl rfl hd,
    back_fromDer he hl rfl hb fun a h _ _ => (strCheck_ok a).mpr h⟩

example : univToBer.toVec ['U', 's'] = .ok [0x1c, 8, 0, 0, 0, 0x55, 0, 0, 0, 0x73] := by decide +kernel

/-- **C46** Deviation: the encoding of the empty text is refused by the four decoders. -/
theorem C46_empty_deviation :
    univToBer.toVec [] = .ok [0x1c, 0] ∧
    univBer.parseBer (Input.fromSlice [0x1c, 0]) = nomErr ⟨[], 2, 2⟩ .invalidLength ∧
    univDer.parseDer (Input.fromSlice [0x1c, 0]) = nomErr ⟨[], 2, 2⟩ .invalidLength ∧
    fromBer univBer [0x1c, 0] = .error (.error .invalidLength) ∧
    fromDer univBer strCheck [0x1c, 0] = .error (.error .invalidLength) := by decide +kernel

/-- **C46** Deviation: for every text with a character above ASCII, the length announced and returned is
larger than the number of content bytes written, and the encoding is refused by the four decoders. -/
theorem C46_length_deviation (s : Text) (hs : ∃ c ∈ s, 0x80 ≤ c.toNat)
    (hl : (Text.utf8 s).length * 4 < 2 ^ 64) :
    ∃ n bs, univToBer.contentLen s = .definite n ∧
      (univToBer.writeContent s).exec = (ucs4 s, .ok n) ∧ (ucs4 s).length < n ∧
      univToBer.toVec s = .ok bs ∧ ∀ x y, univBer.parseBer (Input.fromSlice bs) ≠ .ok x ∧
        univDer.parseDer (Input.fromSlice bs) ≠ .ok x ∧ fromBer univBer bs ≠ .ok y ∧
        fromDer univBer strCheck bs ≠ .ok y := by
  have hlt : (ucs4 s).length < Text.byteLen s * 4 := by
    rw [ucs4_length]
    have h1 := byteLen_ge s
    have h2 : Text.byteLen s ≠ s.length := by
      intro h
      obtain ⟨c, hc, h3⟩ := hs
      have := byteLen_ascii.mpr h c hc
      omega
    omega
  let pad : Bytes := List.replicate (Text.byteLen s * 4 - (ucs4 s).length) 0
  have hpl : (ucs4 s ++ pad).length = Text.byteLen s * 4 := by
    simp only [pad, List.length_append, List.length_replicate]; omega
  let t' : ToBer Text :=
    { univToBer with writeContent := fun _ => Wr.writeAll (ucs4 s ++ pad) >>= fun _ =>
        (pure (ucs4 s ++ pad).length : Wr Nat) }
  have he : Encodes t' s (ucs4 s ++ pad) :=
    ⟨(Writes.bind (f := fun _ => (pure (ucs4 s ++ pad).length : Wr Nat))
        (writes_writeAll (ucs4 s ++ pad)) (writes_pure _)).congr (by simp) rfl,
      by show Length.definite _ = _; rw [hpl], (by decide : (28 : Nat) < 2 ^ 32), rfl⟩
  have hpl' : (ucs4 s ++ pad).length < 2 ^ 64 := by rw [hpl]; exact hl
  have hh : Writes (univToBer.writeHeader s) _ _ := he.header hpl'
  have hw := hh.bind (f := fun n1 => univToBer.writeContent s >>= fun n2 => (pure (n1 + n2) : Wr Nat))
    ((univ_writes s).bind (writes_pure _))
  have hw : Writes (univToBer.encode s) (identOctets .universal false 28 ++
    lenOctets (.definite (ucs4 s ++ pad).length) ++ (ucs4 s ++ [])) _ := hw
  generalize hbs : identOctets .universal false 28 ++
    lenOctets (.definite (ucs4 s ++ pad).length) ++ (ucs4 s ++ []) = bs at hw
  have htv : univToBer.toVec s = .ok bs := by
    unfold ToBer.toVec
    unfold Writes at hw
    rw [hw]
  refine ⟨_, bs, rfl, univ_writes s, hlt, htv, ?_⟩
  · have key : ∀ r a, parseBerAny (Input.fromSlice bs) ≠ .ok (r, a) := by
      intro r a h1
      obtain ⟨e, h0, h2, h3, h4⟩ := parseBerAny_local h1
      simp only [Input.fromSlice, ← hbs, List.append_nil] at h2
      have hfull : full .universal false 28 (ucs4 s ++ pad) = (e ++ r.data) ++ pad := by
        rw [← h2]
        simp [full]
      have h5 := h4 (Input.fromSlice (e ++ (r.data ++ pad))) (r.data ++ pad) rfl
      rw [parseBerAny_full (Input.fromSlice (e ++ (r.data ++ pad))) .universal false 28
        (ucs4 s ++ pad) [] (by decide) hpl' (by rw [hfull]; simp [Input.fromSlice])] at h5
      simp only [Except.ok.injEq, Prod.mk.injEq] at h5
      have h6 := congrArg (fun i : Input => i.data.length) h5.1
      rw [hfull] at h6
      simp only [after_data, Input.fromSlice, List.length_drop, List.length_append] at h6
      have h7 : 0 < pad.length := by simp only [pad, List.length_replicate]; omega
      omega
    rintro ⟨r, v⟩ ⟨rem, w⟩
    refine ⟨fun h => ?_, fun h => ?_, fun h => ?_, fun h => ?_⟩
    · obtain ⟨a, h1, _⟩ := (C46_universalstring_accepts _ r [] [] v).1.mp h
      exact key _ _ h1
    · obtain ⟨a, h1, _⟩ := (C46_universalstring_accepts _ r [] [] v).2.1.mp h
      exact key _ _ (C11_der_subset_ber_any _ _ _ h1)
    · obtain ⟨r, a, h1, _⟩ := (C46_universalstring_accepts r r bs rem w).2.2.1.mp h
      exact key _ _ h1
    · obtain ⟨r, a, h1, _⟩ := (C46_universalstring_accepts r r bs rem w).2.2.2.mp h
      exact key _ _ (C11_der_subset_ber_any _ _ _ h1)

/-- A case: "é" announces eight bytes and writes four. -/
example : univToBer.toVec ['é'] = .ok [0x1c, 8, 0, 0, 0, 0xe9] := by decide +kernel

/-- **C46** Other deviation from X.690: the segments of a constructed string are not joined, the
bytes of their headers are taken as characters. -/
theorem C46_deviations :
    univBer.parseBer (Input.fromSlice [0x3c, 6, 4, 4, 0, 0, 0, 0x55]) =
      nomErr ⟨[], 8, 8⟩ .stringInvalidCharset := by decide +kernel

/-! ### All string types -/

/-- **C18** Lengths announced for strings; for UniversalString exactly when the text is ASCII. -/
theorem C18_string_lengths :
    (∀ {k tag A}, StringType k tag A → ∀ s, (Text.utf8 s).length < 2 ^ 64 →
      LengthsRight (strToBer tag) s) ∧
    (∀ s, (utf16be s).length < 2 ^ 64 → LengthsRight bmpToBer s) ∧
    (∀ s, (ucs4 s).length < 2 ^ 64 → (LengthsRight univToBer s ↔ ∀ c ∈ s, c.toNat < 0x80)) := by
  refine ⟨fun hk s h => (str_encodes hk.tag_lt.1 s).lengths h, fun s h => (bmp_encodes s).lengths h,
    fun s h => ⟨?_, fun ha => (univ_encodes ha).lengths h⟩⟩
  rintro ⟨hd, cs, h1, h2, _⟩
  have h3 := univ_writes s
  unfold Writes at h3
  rw [h3] at h1
  simp only [Prod.mk.injEq, Except.ok.injEq] at h1
  obtain ⟨rfl, h4⟩ := h1
  rw [ucs4_length] at h4
  exact byteLen_ascii.mpr (by omega)

example : LengthsRight (strToBer 19) ['A', ' '] :=
  C18_string_lengths.1 StringType.printable _ (by decide +kernel)

/-- **C11** What DER accepts as a string, BER accepts with the same text and remainder. -/
theorem C11_der_subset_ber_strings (i r : Input) (s : Text) :
    (∀ k tag A, StringType k tag A → (strDer k).parseDer i = .ok (r, s) →
      (strBer k).parseBer i = .ok (r, s)) ∧
    (refStrDer.parseDer i = .ok (r, s) →
      refStrBer.parseBer i = .ok (r, s) ∧ stringBer.parseBer i = .ok (r, s)) ∧
    (bmpDer.parseDer i = .ok (r, s) → bmpBer.parseBer i = .ok (r, s)) ∧
    (univDer.parseDer i = .ok (r, s) → univBer.parseBer i = .ok (r, s)) := by
  refine ⟨fun k tag A hk h => ?_, fun h => ?_, fun h => ?_, fun h => ?_⟩
  · obtain ⟨a, h1, h2, h3, h4, h5⟩ := (C44_strings_accept_partial hk i r [] [] s).2.1.mp h
    exact (C44_strings_accept_partial hk i r [] [] s).1.mpr
      ⟨a, C11_der_subset_ber_any _ _ _ h1, h2, .inl ⟨h3, h4.symm⟩, h5⟩
  · obtain ⟨a, h1, h2, h3, h4⟩ := (C44_str_accepts i r s).2.2.mp h
    have h1 := C11_der_subset_ber_any _ _ _ h1
    exact ⟨(C44_str_accepts i r s).1.mpr ⟨a, h1, h2, h3, h4⟩,
      (C44_str_accepts i r s).2.1.mpr ⟨a, h1, h2, .inl ⟨h3, h4.symm⟩⟩⟩
  · obtain ⟨a, h1, h2, h3, h4, h5⟩ := (C45_bmpstring_accepts i r [] [] s).2.1.mp h
    exact (C45_bmpstring_accepts i r [] [] s).1.mpr
      ⟨a, C11_der_subset_ber_any _ _ _ h1, h2, fun _ => h4, h5⟩
  · obtain ⟨a, h1, h2, h3, h4, h5⟩ := (C46_universalstring_accepts i r [] [] s).2.1.mp h
    exact (C46_universalstring_accepts i r [] [] s).1.mpr
      ⟨a, C11_der_subset_ber_any _ _ _ h1, h2, fun _ => h4, h5⟩

/-- **C38** `parse_der` and `from_der` agree on strings. -/
theorem C38_string_apis_agree (bs rem : Bytes) (s : Text) :
    (∀ k tag A, StringType k tag A → (fromDer (strBer k) strCheck bs = .ok (rem, s) ↔
      ∃ r, (strDer k).parseDer (Input.fromSlice bs) = .ok (r, s) ∧ r.data = rem)) ∧
    (fromDer refStrBer strCheck bs = .ok (rem, s) ↔
      ∃ r, refStrDer.parseDer (Input.fromSlice bs) = .ok (r, s) ∧ r.data = rem) ∧
    (fromDer stringBer strCheck bs = .ok (rem, s) ↔
      ∃ r, refStrDer.parseDer (Input.fromSlice bs) = .ok (r, s) ∧ r.data = rem) ∧
    (fromDer bmpBer strCheck bs = .ok (rem, s) ↔
      ∃ r, bmpDer.parseDer (Input.fromSlice bs) = .ok (r, s) ∧ r.data = rem) ∧
    (fromDer univBer strCheck bs = .ok (rem, s) ↔
      ∃ r, univDer.parseDer (Input.fromSlice bs) = .ok (r, s) ∧ r.data = rem) := by
  have key : ∀ {p q : Parser Text} {P Q : Bool → Bytes → Text → Prop}, Contents p P → Contents q Q →
      (∀ t, q.acceptTag t = true ↔ p.acceptTag t = true) →
      (∀ b cs s, (b = false ∧ P b cs s) ↔ Q b cs s) →
      (fromDer p strCheck bs = .ok (rem, s) ↔
        ∃ r, q.parseDer (Input.fromSlice bs) = .ok (r, s) ∧ r.data = rem) := by
    intro p q P Q hp hq hacc h
    refine der_apis_agree (pb := p) (pd := q) hacc (fun a v hl => ?_) _ _ _
    rw [strCheck_ok, hp _ _ _ (consistent_of hl), hq _ _ _ (consistent_of hl)]
    exact h _ _ _
  refine ⟨fun k tag A hk => key (str_contents hk) (strDer_contents hk) (fun _ => Iff.rfl) ?_,
    key refStr_contents refStrDer_contents (fun _ => Iff.rfl) ?_,
    key string_contents refStrDer_contents (fun _ => Iff.rfl) ?_,
    key bmp_contents bmpDer_contents (fun _ => Iff.rfl) ?_,
    key univ_contents univDer_contents (fun _ => Iff.rfl) ?_⟩
  · intro b cs s
    constructor
    · rintro ⟨rfl, ⟨_, h⟩ | ⟨h, _⟩, h2⟩
      · exact ⟨rfl, h.symm, h2⟩
      · exact absurd h (by decide)
    · rintro ⟨rfl, h, h2⟩; exact ⟨rfl, .inl ⟨rfl, h.symm⟩, h2⟩
  · intro b cs s; simp
  · intro b cs s
    constructor
    · rintro ⟨rfl, ⟨_, h⟩ | ⟨h, _⟩⟩
      · exact ⟨rfl, h.symm⟩
      · exact absurd h (by decide)
    · rintro ⟨rfl, h⟩; exact ⟨rfl, .inl ⟨rfl, h.symm⟩⟩
  · intro b cs s
    constructor
    · rintro ⟨rfl, h1, h2⟩; exact ⟨rfl, h1 rfl, h2⟩
    · rintro ⟨rfl, h1, h2⟩; exact ⟨rfl, fun _ => h1, h2⟩
  · intro b cs s
    constructor
    · rintro ⟨rfl, h1, h2⟩; exact ⟨rfl, h1 rfl, h2⟩
    · rintro ⟨rfl, h1, h2⟩; exact ⟨rfl, fun _ => h1, h2⟩

/-- **C50** Encoding a string to a failing writer. -/
theorem C50_string_failing_writer (s : Text) :
    (∀ tag, FaultTolerant (strToBer tag) s) ∧ FaultTolerant bmpToBer s ∧ FaultTolerant univToBer s :=
  ⟨fun _ => faultTolerant ((strict_writeAll _).bind fun _ => strict_pure _),
   faultTolerant ((strict_writeAll _).bind fun _ => strict_pure _),
   faultTolerant ((strict_pieces _).bind fun _ => strict_pure _)⟩

/-- **C52** No encoding of a string is a prefix of the encoding of another string of the same type. -/
theorem C52_string_prefix_free :
    (∀ {k tag A}, StringType k tag A → PrefixFree (strToBer tag) (fun s =>
      (∀ c ∈ s, A c = true) ∧ (Text.utf8 s).length < 2 ^ 64)) ∧
    PrefixFree bmpToBer (fun s => s ≠ [] ∧ (utf16be s).length < 2 ^ 64) ∧
    PrefixFree univToBer (fun s => s ≠ [] ∧ (∀ c ∈ s, c.toNat < 0x80) ∧ (ucs4 s).length < 2 ^ 64) :=
  ⟨fun {k} _ _ hk => prefixFree_der (p := strDer k) fun s h => (C44_strings_roundtrip_partial hk s h.1 h.2).2.2.1,
   prefixFree_der (p := bmpDer) fun s h => (C45_bmpstring_roundtrip_partial s h.1 h.2).2.2.1,
   prefixFree_der (p := univDer) fun s h =>
    (C46_universalstring_roundtrip_partial s h.1 h.2.1 h.2.2).2.2.1⟩

/-- **C61** The decoders of strings neither panic nor loop, on any input. -/
theorem C61_string_no_panic :
    (∀ k, Total (strBer k) (strDer k) strCheck) ∧ Total refStrBer refStrDer strCheck ∧
    Total stringBer refStrDer strCheck ∧ Total bmpBer bmpDer strCheck ∧
    Total univBer univDer strCheck :=
  ⟨fun k => total_of (safe_str k).1 (safe_str k).2 safe_strCheck,
   total_of safe_refStr.1 safe_refStr.2.1 safe_strCheck,
   total_of safe_refStr.2.2 safe_refStr.2.1 safe_strCheck,
   total_of safe_bmp.1 safe_bmp.2 safe_strCheck, total_of safe_univ.1 safe_univ.2 safe_strCheck⟩

/-- A case: bytes that are not UTF-8 are refused with an error. -/
example : (strBer utf8StringK).parseBer (Input.fromSlice [12, 2, 0xc3, 0x28]) ≠ .error .panic ∧
    ((strBer utf8StringK).parseBer (Input.fromSlice [12, 2, 0xc3, 0x28])).isOk = false := by decide +kernel

/-! ### `Any::as_any_str`, `as_any_string` -/

/-- **C71** (partial) For an object read by `parse_der`: when the decoder of its string type returns a
text, `as_any_str` and `as_any_string` return that text. Missing: the converse, since they do not test
the alphabet, and take the bytes of segments as text (`C71_deviations`). -/
theorem C71_as_any_str_partial {k : StrKind} {tag : Nat} {A : Char → Bool} (hk : StringType k tag A)
    (ho : tag ≠ 7) (i r : Input) (a : Any) (s : Text) (ha : parseDerAny i = .ok (r, a))
    (h : (strDer k).parseDer i = .ok (r, s)) :
    asAnyStr a = .ok s ∧ asAnyString a = .ok s := by
  obtain ⟨a', h1, h2, _, h4, _⟩ := (C44_strings_accept_partial hk i r [] [] s).2.1.mp h
  rw [ha] at h1
  simp only [Except.ok.injEq, Prod.mk.injEq, true_and] at h1
  subst h1
  have hm : a.header.tag ∈ [27, 25, 22, 18, 19, 20, 12, 21, 26] := by
    rw [h2]
    cases hk <;> first | decide | exact absurd rfl ho
  have hf := fromUtf8_iff.mpr h4
  unfold asAnyStr asAnyString
  rw [if_pos hm, if_pos hm, hf]
  exact ⟨rfl, rfl⟩

/-- A case. -/
example : (parseDerAny (Input.fromSlice [0x13, 2, 0x41, 0x42])).map (fun x => asAnyStr x.2) = .ok (.ok ['A', 'B']) ∧
    (strDer printableStringK).parseDer (Input.fromSlice [0x13, 2, 0x41, 0x42]) = .ok (⟨[], 4, 4⟩, ['A', 'B']) := by
  decide +kernel

/-- **C71** What the two functions return in general. -/
theorem C71_as_any_str_spec (a : Any) (s : Text) :
    (asAnyStr a = .ok s ↔ a.header.tag ∈ [12, 18, 19, 20, 21, 22, 25, 26, 27] ∧
      a.data.data = Text.utf8 s) ∧
    (asAnyString a = .ok s ↔ asAnyStr a = .ok s ∨ (a.header.tag = 30 ∧ tryFromAny bmpBer a = .ok s) ∨
      (a.header.tag = 28 ∧ tryFromAny univBer a = .ok s)) := by
  have hperm : a.header.tag ∈ [27, 25, 22, 18, 19, 20, 12, 21, 26] ↔
      a.header.tag ∈ [12, 18, 19, 20, 21, 22, 25, 26, 27] := by
    simp only [List.mem_cons, List.not_mem_nil, or_false]; omega
  have h1 : asAnyStr a = .ok s ↔ a.header.tag ∈ [12, 18, 19, 20, 21, 22, 25, 26, 27] ∧
      a.data.data = Text.utf8 s := by
    unfold asAnyStr
    rw [← fromUtf8_iff]
    by_cases hm : a.header.tag ∈ [27, 25, 22, 18, 19, 20, 12, 21, 26]
    · rw [if_pos hm]
      have hm' := hperm.mp hm
      cases fromUtf8 a.data.data with
      | none => simp
      | some t => simp only [Except.ok.injEq, Option.some.injEq]; exact ⟨fun h => ⟨hm', h⟩, And.right⟩
    · rw [if_neg hm]
      simp only [reduceCtorEq, false_iff, not_and]
      exact fun h => absurd (hperm.mpr h) hm
  refine ⟨h1, ?_⟩
  by_cases hm : a.header.tag ∈ [27, 25, 22, 18, 19, 20, 12, 21, 26]
  · have : asAnyString a = asAnyStr a := by
      unfold asAnyString asAnyStr; rw [if_pos hm, if_pos hm]
    rw [this]
    constructor
    · exact .inl
    · rintro (h | ⟨h, _⟩ | ⟨h, _⟩)
      · exact h
      · rw [h] at hm; exact absurd hm (by decide)
      · rw [h] at hm; exact absurd hm (by decide)
  · have h0 : asAnyStr a ≠ .ok s := fun h => hm (hperm.mpr (h1.mp h).1)
    unfold asAnyString
    rw [if_neg hm]
    simp only [h0, false_or]
    by_cases hb : a.header.tag = 30
    · rw [if_pos hb]; simp [hb]
    · rw [if_neg hb]
      by_cases hu : a.header.tag = 28
      · rw [if_pos hu]; simp [hu]
      · rw [if_neg hu]; simp [hb, hu]

/-- **C71** Deviations: an invalid PrintableString is returned; a segmented string is returned with the
headers of its segments. -/
theorem C71_deviations :
    asAnyStr ⟨⟨.universal, false, 19, .definite 1, none, none⟩, ⟨[0x2a], 2, 3⟩⟩ = .ok ['*'] ∧
    (strBer printableStringK).parseBer (Input.fromSlice [0x13, 1, 0x2a]) =
      nomErr ⟨[], 3, 3⟩ .stringInvalidCharset ∧
    asAnyStr ⟨⟨.universal, true, 26, .definite 3, none, none⟩, ⟨[4, 1, 0x41], 2, 5⟩⟩ =
      .ok [Char.ofNat 4, Char.ofNat 1, 'A'] ∧
    (strBer visibleStringK).parseBer (Input.fromSlice [0x3a, 3, 4, 1, 0x41]) =
      .ok (⟨[], 5, 5⟩, ['A']) := by decide +kernel

end Asn1

import Verif.Proofs.Works
import Verif.Model.Tagged
/-!
# EXPLICIT and IMPLICIT tagging (C28, C29)
-/
namespace Asn1
open Spec Wr

variable {α : Type}

/-! ### Building blocks -/

theorem assertConstructed_ok {h : Header} {i : Input} {u : Unit} :
    h.assertConstructed i = .ok u ↔ h.constructed = true := by
  unfold Header.assertConstructed nomErr
  cases h.constructed <;> simp

theorem assertConstructedS_ok {h : Header} {u : Unit} :
    assertConstructedS h = .ok u ↔ h.constructed = true := by
  unfold assertConstructedS
  cases h.constructed <;> simp

theorem assertTagS_ok {h : Header} {t : Nat} {u : Unit} :
    assertTagS h t = .ok u ↔ h.tag = t := by
  unfold assertTagS tagAssertEq
  by_cases hh : h.tag = t <;> simp [hh]

theorem assertClassS_ok {h : Header} {c : Class} {u : Unit} :
    assertClassS h c = .ok u ↔ h.cls = c := by
  unfold assertClassS Class.assertEq
  by_cases hh : h.cls = c <;> simp [hh]

theorem explicitP_content {cls : Class} {tag : Nat} {f : Input → PRes α} {h : Header}
    {i r : Input} {v : TaggedValue α} : (explicitP cls tag f).content h i = .ok (r, v) ↔
      h.constructed = true ∧ h.cls = cls ∧ h.tag = tag ∧ f i = .ok (r, v.inner) := by
  show (h.assertConstructed i >>= fun _ => _) = _ ↔ _
  rw [bind_eq_ok]
  constructor
  · rintro ⟨_, h1, h2⟩
    have h1 := assertConstructed_ok.mp h1
    split at h2
    · simp [nomErr] at h2
    · rename_i hc
      split at h2
      · simp [nomErr] at h2
      · rename_i ht
        obtain ⟨⟨r', t⟩, h3, h4⟩ := bind_eq_ok.mp h2
        simp at h4
        rw [← h4.1, ← h4.2]
        exact ⟨h1, by simpa using hc, by simpa [tagIs] using ht, h3⟩
  · rintro ⟨h1, h2, h3, h4⟩
    refine ⟨(), assertConstructed_ok.mpr h1, ?_⟩
    rw [if_neg (by simp [h2]), if_neg (by simp [tagIs, h3])]
    exact bind_eq_ok.mpr ⟨_, h4, rfl⟩

theorem implicitP_content {cls : Class} {tag : Nat} {p : Parser α} {h : Header}
    {i r : Input} {v : TaggedValue α} : (implicitP cls tag p).content h i = .ok (r, v) ↔
      h.cls = cls ∧ p.content h i = .ok (r, v.inner) := by
  show (if h.cls ≠ cls then _ else _) = _ ↔ _
  by_cases hc : h.cls = cls
  · rw [if_neg (by simp [hc])]
    rw [bind_eq_ok]
    constructor
    · rintro ⟨⟨r', t⟩, h3, h4⟩
      simp at h4
      rw [← h4.1, ← h4.2]
      exact ⟨hc, h3⟩
    · rintro ⟨_, h⟩
      exact ⟨_, h, rfl⟩
  · rw [if_pos hc]; simp [nomErr, hc]

theorem explicitTryFrom_ok {cls : Class} {tag : Nat} {g : Bytes → Except SErr (Bytes × α)}
    {a : Any} {v : TaggedValue α} : explicitTryFrom cls tag g a = .ok v ↔
      a.header.tag = tag ∧ a.header.constructed = true ∧ a.header.cls = cls ∧
        ∃ x, g a.data.data = .ok (x, v.inner) := by
  unfold explicitTryFrom
  rw [bindS_eq_ok]
  constructor
  · rintro ⟨_, h1, h2⟩
    obtain ⟨_, h2, h3⟩ := bindS_eq_ok.mp h2
    split at h3
    · simp at h3
    · rename_i hc
      refine ⟨assertTagS_ok.mp h1, assertConstructedS_ok.mp h2, by simpa using hc, ?_⟩
      split at h3
      · rename_i x inner hg
        simp at h3
        exact ⟨x, by rw [hg, ← h3]⟩
      · simp at h3
  · rintro ⟨h1, h2, h3, x, h4⟩
    refine ⟨(), assertTagS_ok.mpr h1, bindS_eq_ok.mpr ⟨(), assertConstructedS_ok.mpr h2, ?_⟩⟩
    rw [if_neg (by simp [h3]), h4]

theorem fromBerWith_ok {f : Any → Except SErr α} {bytes rem : Bytes} {v : α} :
    fromBerWith f bytes = .ok (rem, v) ↔ ∃ r a, parseBerAny (Input.fromSlice bytes) = .ok (r, a) ∧
      r.data = rem ∧ f a = .ok v := by
  unfold fromBerWith
  rw [bindS_eq_ok]
  constructor
  · rintro ⟨⟨i, a⟩, h1, h2⟩
    obtain ⟨w, h3, h4⟩ := bindS_eq_ok.mp h2
    obtain ⟨r, h5, h6⟩ := wrapBerParser_ok.mp h1
    simp [pure, Except.pure] at h4
    exact ⟨r, a, h5, by rw [h6, h4.1], by rw [← h4.2]; exact h3⟩
  · rintro ⟨r, a, h1, h2, h3⟩
    exact ⟨(rem, a), wrapBerParser_ok.mpr ⟨r, h1, h2⟩, bindS_eq_ok.mpr ⟨v, h3, rfl⟩⟩

theorem explicitFromDer_ok {cls : Class} {tag : Nat} {g : Bytes → Except SErr (Bytes × α)}
    {bytes rem : Bytes} {v : TaggedValue α} : explicitFromDer cls tag g bytes = .ok (rem, v) ↔
      ∃ r a x, parseDerAny (Input.fromSlice bytes) = .ok (r, a) ∧ r.data = rem ∧
        a.header.tag = tag ∧ a.header.constructed = true ∧ a.header.cls = cls ∧
        g a.data.data = .ok (x, v.inner) := by
  unfold explicitFromDer
  rw [bindS_eq_ok]
  constructor
  · rintro ⟨⟨i, a⟩, h1, h2⟩
    obtain ⟨r, h5, h6⟩ := wrapBerParser_ok.mp h1
    obtain ⟨_, h3, h2⟩ := bindS_eq_ok.mp h2
    obtain ⟨_, h4, h2⟩ := bindS_eq_ok.mp h2
    split at h2
    · simp at h2
    · rename_i hc
      obtain ⟨⟨x, y⟩, h7, h8⟩ := bindS_eq_ok.mp h2
      simp [pure, Except.pure] at h8
      exact ⟨r, a, x, h5, by rw [h6, h8.1], assertTagS_ok.mp h3, assertConstructedS_ok.mp h4,
        by simpa using hc, by rw [← h8.2]; exact h7⟩
  · rintro ⟨r, a, x, h1, h2, h3, h4, h5, h6⟩
    refine ⟨(rem, a), wrapBerParser_ok.mpr ⟨r, h1, h2⟩, bindS_eq_ok.mpr
      ⟨(), assertTagS_ok.mpr h3, bindS_eq_ok.mpr ⟨(), assertConstructedS_ok.mpr h4, ?_⟩⟩⟩
    rw [if_neg (by simp [h5])]
    exact bindS_eq_ok.mpr ⟨_, h6, rfl⟩

theorem implicitTryFrom_ok {cls : Class} {tag innerTag : Nat} {f : Any → Except SErr α} {a : Any}
    {v : TaggedValue α} : implicitTryFrom cls tag innerTag f a = .ok v ↔
      a.header.tag = tag ∧ a.header.cls = cls ∧
        f ⟨{ a.header with tag := innerTag }, a.data⟩ = .ok v.inner := by
  unfold implicitTryFrom
  rw [bindS_eq_ok]
  constructor
  · rintro ⟨_, h1, h2⟩
    split at h2
    · simp at h2
    · rename_i hc
      obtain ⟨x, h3, h4⟩ := bindS_eq_ok.mp h2
      simp [pure, Except.pure] at h4
      exact ⟨assertTagS_ok.mp h1, by simpa using hc, by rw [← h4]; exact h3⟩
  · rintro ⟨h1, h2, h3⟩
    refine ⟨(), assertTagS_ok.mpr h1, ?_⟩
    rw [if_neg (by simp [h2])]
    exact bindS_eq_ok.mpr ⟨_, h3, rfl⟩

theorem implicitFromDer_ok {cls : Class} {tag innerTag : Nat} {f : Any → Except SErr α}
    {bytes rem : Bytes} {v : TaggedValue α} :
    implicitFromDer cls tag innerTag f bytes = .ok (rem, v) ↔
      ∃ r a, parseDerAny (Input.fromSlice bytes) = .ok (r, a) ∧ r.data = rem ∧
        a.header.tag = tag ∧ a.header.cls = cls ∧
        f ⟨{ a.header with tag := innerTag }, a.data⟩ = .ok v.inner := by
  unfold implicitFromDer
  rw [bindS_eq_ok]
  constructor
  · rintro ⟨⟨i, a⟩, h1, h2⟩
    obtain ⟨r, h5, h6⟩ := wrapBerParser_ok.mp h1
    obtain ⟨w, h3, h4⟩ := bindS_eq_ok.mp h2
    simp [pure, Except.pure] at h4
    obtain ⟨g1, g2, g3⟩ := implicitTryFrom_ok.mp h3
    exact ⟨r, a, h5, by rw [h6, h4.1], g1, g2, by rw [← h4.2]; exact g3⟩
  · rintro ⟨r, a, h1, h2, h3⟩
    exact ⟨(rem, a), wrapBerParser_ok.mpr ⟨r, h1, h2⟩,
      bindS_eq_ok.mpr ⟨v, implicitTryFrom_ok.mpr h3, rfl⟩⟩

/-! ### EXPLICIT -/

theorem berTagLength_le {t : Nat} (h : t < 2 ^ 32) : berTagLength t ≤ 6 := by
  rw [berTagLength_eq .universal false h]
  rcases (writeTag_spec .universal false t h).2 with ⟨_, b, e, _⟩ | ⟨_, b, hi, last, e, h0, h1, h2, h3, h4⟩
  · rw [e]; simp
  · rw [e]
    rcases h4 with rfl | h4
    · simp
    · have : 128 ^ hi.length < 128 ^ 5 := by omega
      have := (Nat.pow_lt_pow_iff_right (by omega : 1 < 128)).mp this
      simp; omega

theorem lengthsRight_toVec {t : ToBer α} {v : α} (h : LengthsRight t v) (hs : SmallContent t v)
    (ht : (t.tagInfo v).2.2 < 2 ^ 32) : ∃ bs, t.toVec v = .ok bs ∧
      Writes (t.encode v) bs bs.length ∧ t.totalLen v = .definite bs.length ∧
      bs.length < 2 ^ 24 + 11 := by
  obtain ⟨hd, cs, h1, h2, h3, h4, h5⟩ := h
  obtain ⟨n, hn, hs⟩ := hs
  rw [h2] at hn
  injection hn with hn
  have h6 := h5 (by omega)
  refine ⟨hd ++ cs, ?_, h4, h6, ?_⟩
  · unfold ToBer.toVec; rw [h4]
  · unfold ToBer.totalLen berTotalLength berHeaderLength at h6
    rw [h2, lenOctets_size (by omega)] at h6
    simp only [Bind.bind, Except.bind, pure, Except.pure, Length.addNat] at h6
    injection h6 with h6
    have h6 : cs.length + (berTagLength (t.tagInfo v).2.2 +
        (lenOctets (.definite cs.length)).length) = (hd ++ cs).length := h6
    have h7 := berTagLength_le ht
    have h8 : berLengthLength (.definite cs.length) = .ok (lenOctets (.definite cs.length)).length :=
      lenOctets_size (by omega)
    have : (lenOctets (.definite cs.length)).length ≤ 4 := by
      simp only [berLengthLength] at h8
      repeat' split at h8
      all_goals simp at h8
      all_goals omega
    omega

theorem explicit_encodes {t : ToBer α} {v : α} (cls : Class) {tag : Nat} (htag : tag < 2 ^ 32)
    {dynTag : α → Nat} (hdyn : dynTag v = (t.tagInfo v).2.2) {bs : Bytes}
    (hw : Writes (t.encode v) bs bs.length) (hl : t.totalLen v = .definite bs.length) :
    Encodes (explicitToBer cls tag dynTag t) ⟨v⟩ bs := by
  refine ⟨hw, ?_, htag, rfl⟩
  show berTotalLength (dynTag v) (t.contentLen v) = _
  rw [hdyn]; exact hl

/-- **C28** Let `v` be a value of any type whose encoder announces the right lengths and whose
content is shorter than `2^24` bytes. Wrapped in an EXPLICIT tag of any class and number, it is
written with the right lengths, and every decoder that reads the encoding of `v` as `w`, wrapped in
the same tag, reads the encoding of the wrapped `v` as the wrapped `w`, leaving what follows.
Missing: contents from 2^24 octets on, whose announced length is wrong (`C28_large_deviation`). -/
theorem C28_explicit_roundtrip_partial (cls : Class) (tag : Nat) (htag : tag < 2 ^ 32) (t : ToBer α)
    (dynTag : α → Nat) (v w : α) (hdyn : dynTag v = (t.tagInfo v).2.2)
    (ht : (t.tagInfo v).2.2 < 2 ^ 32) (hl : LengthsRight t v) (hs : SmallContent t v) :
    LengthsRight (explicitToBer cls tag dynTag t) ⟨v⟩ ∧
    (∀ f : Input → PRes α, InputBack t f v w →
      InputBack (explicitToBer cls tag dynTag t) (explicitP cls tag f).parseBer ⟨v⟩ ⟨w⟩ ∧
      InputBack (explicitToBer cls tag dynTag t) (explicitP cls tag f).parseDer ⟨v⟩ ⟨w⟩) ∧
    (∀ g : Bytes → Except SErr (Bytes × α), BytesBack t g v w →
      BytesBack (explicitToBer cls tag dynTag t) (fromBerWith (explicitTryFrom cls tag g)) ⟨v⟩ ⟨w⟩ ∧
      BytesBack (explicitToBer cls tag dynTag t) (explicitFromDer cls tag g) ⟨v⟩ ⟨w⟩) := by
  obtain ⟨bs, h1, h2, h3, h4⟩ := lengthsRight_toVec hl hs ht
  have he := explicit_encodes cls htag hdyn h2 h3
  have hlt : bs.length < 2 ^ 64 := by omega
  refine ⟨he.lengths hlt, fun f hf => ?_, fun g hg => ?_⟩
  · obtain ⟨bs', h5, h6⟩ := hf
    rw [h1] at h5; injection h5 with h5; subst h5
    have := he.back (p := explicitP cls tag f) (w := ⟨w⟩) hlt (tagIs_iff.mpr rfl)
      fun a g1 g2 g3 g4 g5 => ⟨_, explicitP_content.mpr ⟨g2, g1, g3, h6 [] a.data (by simp [g5])⟩⟩
    exact ⟨this.1, this.2.1⟩
  · obtain ⟨bs', h5, h6⟩ := hg
    rw [h1] at h5; injection h5 with h5; subst h5
    refine ⟨⟨_, he.toVec hlt, fun rest => ?_⟩, ⟨_, he.toVec hlt, fun rest => ?_⟩⟩
    · obtain ⟨a, g1, g2, g3, g4, g5, g6, g7⟩ := he.any hlt
        (i := Input.fromSlice ((explicitToBer cls tag dynTag t).fullOf ⟨v⟩ bs ++ rest)) rfl
      have := h6 []
      rw [List.append_nil] at this
      exact fromBerWith_ok.mpr ⟨_, a, g1, by simp [Input.fromSlice],
        explicitTryFrom_ok.mpr ⟨g5, g4, g3, _, g7 ▸ this⟩⟩
    · obtain ⟨a, g1, g2, g3, g4, g5, g6, g7⟩ := he.any hlt
        (i := Input.fromSlice ((explicitToBer cls tag dynTag t).fullOf ⟨v⟩ bs ++ rest)) rfl
      have := h6 []
      rw [List.append_nil] at this
      exact explicitFromDer_ok.mpr ⟨_, a, _, g2, by simp [Input.fromSlice],
        g5, g4, g3, g7 ▸ this⟩

/-- A case: `[1] EXPLICIT` around a `u16`. -/
example : (explicitToBer .contextSpecific 1 (fun _ => 2) (uintToBer 2)).toVec ⟨300⟩ = .ok [0xa1, 4, 2, 2, 1, 0x2c] ∧
    ((uintToBer 2).tagInfo 300).2.2 = 2 ∧ LengthsRight (uintToBer 2) 300 ∧ SmallContent (uintToBer 2) 300 := by
  obtain ⟨cs, hw, hl⟩ := uint_works (N := 2) (by decide) (v := 300) (by decide)
  exact ⟨by decide +kernel, rfl, hw.enc.lengths (by omega), ⟨2, by decide +kernel, by decide⟩⟩

/-- **C28** The values of the universal types, wrapped in any EXPLICIT tag, come back through the
four decoders (below `2^24` content bytes, see `C28_large_deviation`).
Missing: contents from 2^24 octets on (`C28_large_deviation`). -/
theorem C28_explicit_universal_partial {c : Codec α} {v : α} (h : UniversalValue c v)
    (hs : SmallContent c.enc v) (cls : Class) (tag : Nat) (htag : tag < 2 ^ 32) :
    ∀ E, E = explicitToBer cls tag (fun w => (c.enc.tagInfo w).2.2) c.enc →
    InputBack E (explicitP cls tag c.ber.parseBer).parseBer ⟨v⟩ ⟨v⟩ ∧
    InputBack E (explicitP cls tag c.der.parseDer).parseDer ⟨v⟩ ⟨v⟩ ∧
    BytesBack E (fromBerWith (explicitTryFrom cls tag (fromBer c.ber))) ⟨v⟩ ⟨v⟩ ∧
    BytesBack E (explicitFromDer cls tag (fromDer c.ber c.check)) ⟨v⟩ ⟨v⟩ := by
  rintro E rfl
  obtain ⟨cs, hw, hl, ht⟩ := universal_works h
  obtain ⟨n, h1, h2⟩ := hs
  rw [hl] at h1; injection h1 with h1
  have hlt : cs.length < 2 ^ 64 := by omega
  obtain ⟨b1, b2, b3, b4⟩ := hw.back hlt
  obtain ⟨_, k1, k2⟩ := C28_explicit_roundtrip_partial cls tag htag c.enc
    (fun w => (c.enc.tagInfo w).2.2) v v rfl (by rw [hw.tag]; omega) (hw.enc.lengths hlt)
    ⟨n, h1 ▸ hl, h2⟩
  exact ⟨(k1 _ b1).1, (k1 _ b2).2, (k2 _ b3).1, (k2 _ b4).2⟩

/-- Cases: `[2] EXPLICIT INTEGER` 258, alone and inside `[APPLICATION 40] EXPLICIT`. -/
example : UniversalValue (uintC 4) 258 ∧ SmallContent (uintC 4).enc 258 ∧
    (explicitToBer .contextSpecific 2 (fun _ => 2) (uintToBer 4)).toVec ⟨258⟩ =
      .ok [0xa2, 0x04, 0x02, 0x02, 0x01, 0x02] ∧
    (explicitToBer .application 40 (fun _ => 2)
      (explicitToBer .contextSpecific 2 (fun _ => 2) (uintToBer 4))).toVec ⟨⟨258⟩⟩ =
      .ok [0x7f, 0x28, 0x06, 0xa2, 0x04, 0x02, 0x02, 0x01, 0x02] :=
  ⟨.uint 4 (by decide) (by decide), ⟨2, by decide +kernel, by decide⟩, by decide +kernel,
    by decide +kernel⟩

/-- **C28** What an EXPLICIT type accepts: with each of the four decoders, exactly the constructed
objects of this class and tag whose content begins with an encoding accepted by the inner type, as
which it is read. -/
theorem C28_explicit_accepts (cls : Class) (tag : Nat) :
    (∀ (f : Input → PRes α) (i r : Input) (v : TaggedValue α),
      ((explicitP cls tag f).parseBer i = .ok (r, v) ↔ ∃ a x, parseBerAny i = .ok (r, a) ∧
        a.header.cls = cls ∧ a.header.tag = tag ∧ a.header.constructed = true ∧
        f a.data = .ok (x, v.inner)) ∧
      ((explicitP cls tag f).parseDer i = .ok (r, v) ↔ ∃ a x, parseDerAny i = .ok (r, a) ∧
        a.header.cls = cls ∧ a.header.tag = tag ∧ a.header.constructed = true ∧
        f a.data = .ok (x, v.inner))) ∧
    (∀ (g : Bytes → Except SErr (Bytes × α)) (bs rem : Bytes) (v : TaggedValue α),
      (fromBerWith (explicitTryFrom cls tag g) bs = .ok (rem, v) ↔
        ∃ r a x, parseBerAny (Input.fromSlice bs) = .ok (r, a) ∧ r.data = rem ∧
        a.header.cls = cls ∧ a.header.tag = tag ∧ a.header.constructed = true ∧
        g a.data.data = .ok (x, v.inner)) ∧
      (explicitFromDer cls tag g bs = .ok (rem, v) ↔
        ∃ r a x, parseDerAny (Input.fromSlice bs) = .ok (r, a) ∧ r.data = rem ∧
        a.header.cls = cls ∧ a.header.tag = tag ∧ a.header.constructed = true ∧
        g a.data.data = .ok (x, v.inner))) := by
  refine ⟨fun f i r v => ⟨?_, ?_⟩, fun g bs rem v => ⟨?_, ?_⟩⟩
  · rw [parseBer_ok]
    constructor
    · rintro ⟨a, x, h1, h2, h3⟩
      obtain ⟨g1, g2, g3, g4⟩ := explicitP_content.mp h3
      exact ⟨a, x, h1, g2, g3, g1, g4⟩
    · rintro ⟨a, x, h1, h2, h3, h4, h5⟩
      exact ⟨a, x, h1, tagIs_iff.mpr h3, explicitP_content.mpr ⟨h4, h2, h3, h5⟩⟩
  · rw [parseDer_ok]
    constructor
    · rintro ⟨a, x, h1, h2, h3⟩
      obtain ⟨g1, g2, g3, g4⟩ := explicitP_content.mp h3
      exact ⟨a, x, h1, g2, g3, g1, g4⟩
    · rintro ⟨a, x, h1, h2, h3, h4, h5⟩
      exact ⟨a, x, h1, tagIs_iff.mpr h3, explicitP_content.mpr ⟨h4, h2, h3, h5⟩⟩
  · rw [fromBerWith_ok]
    constructor
    · rintro ⟨r, a, h1, h2, h3⟩
      obtain ⟨g1, g2, g3, x, g4⟩ := explicitTryFrom_ok.mp h3
      exact ⟨r, a, x, h1, h2, g3, g1, g2, g4⟩
    · rintro ⟨r, a, x, h1, h2, g3, g1, g2, g4⟩
      exact ⟨r, a, h1, h2, explicitTryFrom_ok.mpr ⟨g1, g2, g3, x, g4⟩⟩
  · rw [explicitFromDer_ok]
    constructor
    · rintro ⟨r, a, x, h1, h2, g1, g2, g3, g4⟩
      exact ⟨r, a, x, h1, h2, g3, g1, g2, g4⟩
    · rintro ⟨r, a, x, h1, h2, g3, g1, g2, g4⟩
      exact ⟨r, a, x, h1, h2, g1, g2, g3, g4⟩

/-- **C28** The bytes of a value wrapped in one EXPLICIT tag are an error for the decoders of every
EXPLICIT type of another class or another tag. -/
theorem C28_explicit_other_tag (cls cls' : Class) (tag tag' : Nat) (htag : tag < 2 ^ 32)
    (hne : cls' ≠ cls ∨ tag' ≠ tag) (t : ToBer α) (dynTag : α → Nat) (v : α)
    (hdyn : dynTag v = (t.tagInfo v).2.2) (ht : (t.tagInfo v).2.2 < 2 ^ 32)
    (hl : LengthsRight t v) (hs : SmallContent t v) :
    ∃ bs, (explicitToBer cls tag dynTag t).toVec ⟨v⟩ = .ok bs ∧ ∀ rest : Bytes,
      (∀ (f : Input → PRes α) (i : Input), i.data = bs ++ rest →
        ((explicitP cls' tag' f).parseBer i).isOk = false ∧
        ((explicitP cls' tag' f).parseDer i).isOk = false) ∧
      (∀ g : Bytes → Except SErr (Bytes × α),
        (fromBerWith (explicitTryFrom cls' tag' g) (bs ++ rest)).isOk = false ∧
        (explicitFromDer cls' tag' g (bs ++ rest)).isOk = false) := by
  obtain ⟨bs, h1, h2, h3, h4⟩ := lengthsRight_toVec hl hs ht
  have he := explicit_encodes cls htag hdyn h2 h3
  have hlt : bs.length < 2 ^ 64 := by omega
  have no : ∀ {ε β : Type} {x : Except ε β}, (∀ y, x ≠ .ok y) → x.isOk = false := by
    intro ε β x hx
    cases x with
    | error e => rfl
    | ok y => exact absurd rfl (hx y)
  refine ⟨_, he.toVec hlt, fun rest => ⟨fun f i hi => ?_, fun g => ?_⟩⟩
  · obtain ⟨a, g1, g2, g3, g4, g5, g6, g7⟩ := he.any hlt hi
    constructor
    · refine no fun ⟨r, w⟩ hh => ?_
      obtain ⟨a', x, k1, k2, k3, k4, k5⟩ := ((C28_explicit_accepts cls' tag').1 f i r w).1.mp hh
      rw [g1] at k1; simp at k1
      obtain ⟨_, rfl⟩ := k1
      rcases hne with hne | hne
      · exact hne (k2.symm.trans g3)
      · exact hne (k3.symm.trans g5)
    · refine no fun ⟨r, w⟩ hh => ?_
      obtain ⟨a', x, k1, k2, k3, k4, k5⟩ := ((C28_explicit_accepts cls' tag').1 f i r w).2.mp hh
      rw [g2] at k1; simp at k1
      obtain ⟨_, rfl⟩ := k1
      rcases hne with hne | hne
      · exact hne (k2.symm.trans g3)
      · exact hne (k3.symm.trans g5)
  · obtain ⟨a, g1, g2, g3, g4, g5, g6, g7⟩ := he.any hlt
      (i := Input.fromSlice ((explicitToBer cls tag dynTag t).fullOf ⟨v⟩ bs ++ rest)) rfl
    constructor
    · refine no fun ⟨r, w⟩ hh => ?_
      obtain ⟨r', a', x, k1, k0, k2, k3, k4, k5⟩ :=
        ((C28_explicit_accepts cls' tag').2 g _ r w).1.mp hh
      rw [g1] at k1; simp at k1
      obtain ⟨_, rfl⟩ := k1
      rcases hne with hne | hne
      · exact hne (k2.symm.trans g3)
      · exact hne (k3.symm.trans g5)
    · refine no fun ⟨r, w⟩ hh => ?_
      obtain ⟨r', a', x, k1, k0, k2, k3, k4, k5⟩ :=
        ((C28_explicit_accepts cls' tag').2 g _ r w).2.mp hh
      rw [g2] at k1; simp at k1
      obtain ⟨_, rfl⟩ := k1
      rcases hne with hne | hne
      · exact hne (k2.symm.trans g3)
      · exact hne (k3.symm.trans g5)

/-- Cases: another class, another tag and a primitive wrapper are refused. -/
example :
    (explicitP .application 2 (uintBer 4).parseBer).parseBer
      (Input.fromSlice [0xa2, 0x04, 0x02, 0x02, 0x01, 0x02]) =
      .error (.error ⟨[0x02, 0x02, 0x01, 0x02], 2, 6⟩
        (.unexpectedClass (some .application) .contextSpecific)) ∧
    ((explicitP .contextSpecific 3 (uintBer 4).parseBer).parseBer
      (Input.fromSlice [0xa2, 0x04, 0x02, 0x02, 0x01, 0x02])).isOk = false ∧
    ((explicitP .contextSpecific 2 (uintBer 4).parseBer).parseBer
      (Input.fromSlice [0x82, 0x04, 0x02, 0x02, 0x01, 0x02])).isOk = false := by decide +kernel

theorem header_writes {t : ToBer α} {v : α} {n : Nat} (hl : t.contentLen v = .definite n)
    (hn : n < 2 ^ 64) (ht : (t.tagInfo v).2.2 < 2 ^ 32) (he : t.encoder.info (t.tagInfo v) = t.tagInfo v) :
    Writes (t.writeHeader v)
      (identOctets (t.tagInfo v).1 (t.tagInfo v).2.1 (t.tagInfo v).2.2 ++ lenOctets (.definite n))
      (identOctets (t.tagInfo v).1 (t.tagInfo v).2.1 (t.tagInfo v).2.2
        ++ lenOctets (.definite n)).length := by
  have h1 := (writeTag_spec (t.tagInfo v).1 (t.tagInfo v).2.1 (t.tagInfo v).2.2 ht).1
  have h2 := (writeLength_spec (.definite n) (by intro m hm; simp at hm; omega)).1
  unfold ToBer.writeHeader
  simp only [hl, writeTagInfo_eq]
  rcases ht : t.tagInfo v with ⟨c, b, g⟩
  rw [ht] at he h1
  simp only [he] at h1 ⊢
  have := h1.bind (f := fun n1 => writeLength (.definite n) >>= fun n2 => pure (n1 + n2))
    (h2.bind (writes_pure _))
  exact this.congr (by simp) (by simp)

theorem lenOctets_five {n : Nat} (h1 : 2 ^ 24 ≤ n) (h2 : n < 2 ^ 32) :
    (lenOctets (.definite n)).length = 5 := by
  have hd := lenOctets_der (n := n) (by omega)
  generalize lenOctets (.definite n) = l at hd
  cases hd with
  | short b h _ => omega
  | long b x xs h hb hx hn =>
    have g1 := beNat_lead (xs := xs) hx
    have g2 := beNat_lt (x :: xs)
    rw [hn] at g1 g2
    simp only [List.length_cons] at g2 ⊢
    have a1 := (Nat.pow_lt_pow_iff_right (by omega : 1 < 256)).mp
      (by omega : 256 ^ xs.length < 256 ^ 4)
    have a2 := (Nat.pow_lt_pow_iff_right (by omega : 1 < 256)).mp
      (by omega : 256 ^ 3 < 256 ^ (xs.length + 1))
    omega

theorem identOctets_one (c : Class) (b : Bool) {t : Nat} (h : t < 31) :
    (identOctets c b t).length = 1 := by
  rcases (writeTag_spec c b t (by omega)).2 with ⟨_, b', e, _⟩ | ⟨h', _⟩
  · rw [e]; rfl
  · omega

/-- **C28** Deviation: for every value of a universal type with `2^24` to `2^32 - 1` content bytes,
the EXPLICIT wrapper is written (without an error) with a length one too small, and its decoders
refuse the result. -/
theorem C28_large_deviation {c : Codec α} {v : α} (h : UniversalValue c v) (n : Nat)
    (hn : c.enc.contentLen v = .definite n) (h1 : 2 ^ 24 ≤ n) (h2 : n < 2 ^ 32) (cls : Class)
    (tag : Nat) (htag : tag < 2 ^ 32) :
    ∃ bs, (explicitToBer cls tag (fun w => (c.enc.tagInfo w).2.2) c.enc).toVec ⟨v⟩ = .ok bs ∧
      (fromBerWith (explicitTryFrom cls tag (fromBer c.ber)) bs).isOk = false ∧
      (explicitFromDer cls tag (fromDer c.ber c.check) bs).isOk = false := by
  obtain ⟨cs, hw, hl, ht⟩ := universal_works h
  rw [hl] at hn; injection hn with hn; subst hn
  have hlt : cs.length < 2 ^ 64 := by omega
  have htg := hw.tag
  have hwr := hw.enc.encode hlt
  have hlen : (c.enc.fullOf v cs).length = cs.length + 6 := by
    unfold ToBer.fullOf full
    rw [htg]
    simp only [List.length_append, lenOctets_five h1 h2, identOctets_one _ _ ht]; omega
  have hcl : (explicitToBer cls tag (fun w => (c.enc.tagInfo w).2.2) c.enc).contentLen ⟨v⟩ =
      .definite (cs.length + 5) := by
    show berTotalLength (c.enc.tagInfo v).2.2 (c.enc.contentLen v) = _
    rw [hl, htg]
    have hb : berLengthLength (.definite cs.length) = .ok 4 := by
      simp only [berLengthLength]
      rw [if_neg (by omega), if_neg (by omega), if_neg (by omega), if_pos (by omega)]
    have htl : berTagLength c.tag = 1 := by
      rw [berTagLength_eq .universal false (by omega), identOctets_one _ _ ht]
    unfold berTotalLength berHeaderLength
    rw [hb, htl]
    rfl
  obtain ⟨last, hlast⟩ : ∃ y, c.enc.fullOf v cs = (c.enc.fullOf v cs).take (cs.length + 5) ++ [y] := by
    have : ((c.enc.fullOf v cs).drop (cs.length + 5)).length = 1 := by
      rw [List.length_drop, hlen]; omega
    obtain ⟨y, hy⟩ := List.length_eq_one_iff.mp this
    exact ⟨y, by rw [← hy, List.take_append_drop]⟩
  have hpl : ((c.enc.fullOf v cs).take (cs.length + 5)).length = cs.length + 5 := by
    rw [List.length_take, hlen]; omega
  generalize hpre : (c.enc.fullOf v cs).take (cs.length + 5) = pre at hlast hpl
  have henc : (explicitToBer cls tag (fun w => (c.enc.tagInfo w).2.2) c.enc).toVec ⟨v⟩ =
      .ok (full cls true tag pre ++ [last]) := by
    have hh := header_writes hcl (by omega) htag rfl
    have := hh.bind (f := fun n1 => c.enc.encode v >>= fun n2 => (pure (n1 + n2) : Wr Nat))
      (hwr.bind (writes_pure _))
    rw [hlast] at this
    unfold ToBer.toVec
    have h3 : ((explicitToBer cls tag (fun w => (c.enc.tagInfo w).2.2) c.enc).encode ⟨v⟩).exec = _ :=
      this
    rw [h3]
    show Except.ok _ = Except.ok _
    unfold full
    rw [hpl]
    simp [explicitToBer]
  have no : ∀ {ε β : Type} {x : Except ε β}, (∀ y, x ≠ .ok y) → x.isOk = false := by
    intro ε β x hx
    cases x with
    | error e => rfl
    | ok y => exact absurd rfl (hx y)
  have hi : (Input.fromSlice (full cls true tag pre ++ [last])).data = full cls true tag pre ++ [last] := rfl
  have hb := parseBerAny_full _ cls true tag pre [last] htag (by omega) hi
  have hd := parseDerAny_full _ cls true tag pre [last] htag (by omega) hi
  have hcont : (first (after (Input.fromSlice (full cls true tag pre ++ [last]))
      ((full cls true tag pre).length - pre.length)) pre.length).data = pre := by
    rw [first_data, full_content _ _ _ _ pre [last] hi]; simp
  obtain ⟨a0, p1, p2, -⟩ := hw.enc.any hlt (i := Input.fromSlice (pre ++ [last])) (rest := [])
    (by rw [← hlast]; simp [Input.fromSlice])
  have hrem : (after (Input.fromSlice (pre ++ [last])) (c.enc.fullOf v cs).length).data = [] := by
    rw [after_data, hlast]; simp [Input.fromSlice]
  refine ⟨_, henc, no fun ⟨r, w⟩ hh => ?_, no fun ⟨r, w⟩ hh => ?_⟩
  · obtain ⟨r', a', x, k1, k0, k2, k3, k4, k5⟩ := ((C28_explicit_accepts cls tag).2 _ _ r w).1.mp hh
    rw [hb] at k1; simp at k1
    obtain ⟨_, rfl⟩ := k1
    rw [hcont] at k5
    obtain ⟨r2, a2, _, q1, _⟩ := fromBer_ok.mp k5
    exact (C07_no_truncation pre [last] (by simp) _ a0).1 p1 hrem _ q1
  · obtain ⟨r', a', x, k1, k0, k2, k3, k4, k5⟩ := ((C28_explicit_accepts cls tag).2 _ _ r w).2.mp hh
    rw [hd] at k1; simp at k1
    obtain ⟨_, rfl⟩ := k1
    rw [hcont] at k5
    obtain ⟨r2, a2, _, q1, _⟩ := fromDer_ok.mp k5
    exact (C07_no_truncation pre [last] (by simp) _ a0).2 p2 hrem _ q1

/-- Such values exist: an OCTET STRING of `2^24` bytes. -/
example : UniversalValue octetC (List.replicate (2 ^ 24) 0) ∧
    octetC.enc.contentLen (List.replicate (2 ^ 24) 0) = .definite (2 ^ 24) :=
  ⟨.octetString, congrArg Length.definite List.length_replicate⟩

/-! ### IMPLICIT -/

theorem implicit_encodes {t : ToBer α} {v : α} (cls : Class) {tag : Nat} (htag : tag < 2 ^ 32)
    (dynC : α → Bool) {cs : Bytes} (hw : (t.writeContent v).exec = (cs, .ok cs.length))
    (hl : t.contentLen v = .definite cs.length) :
    Encodes (implicitToBer cls tag dynC t) ⟨v⟩ cs := ⟨hw, hl, htag, rfl⟩

/-- **C29** Let `v` be a value of any type that announces the length of its content. With an
IMPLICIT tag of any class and number, it is written with the right lengths; if the content parser of
the type reads this content as `w`, then the decoders of the IMPLICIT type return `w` and leave what
follows. (`from_ber` and `from_der` go through `TryFrom<Any>` of the inner type, which sees the tag
of the inner type.)
Missing: an IMPLICIT tag over a tagged type of another class (`C29_nested_deviation`) or over a type that does
not declare that it is constructed (`C105_lost`). -/
theorem C29_implicit_roundtrip_partial (cls : Class) (tag : Nat) (htag : tag < 2 ^ 32) (t : ToBer α)
    (dynC : α → Bool) (v w : α) (cs : Bytes) (hs : cs.length < 2 ^ 64)
    (hw : (t.writeContent v).exec = (cs, .ok cs.length))
    (hl : t.contentLen v = .definite cs.length) :
    LengthsRight (implicitToBer cls tag dynC t) ⟨v⟩ ∧
    (∀ p : Parser α, Decodes p (dynC v) cs w →
      InputBack (implicitToBer cls tag dynC t) (implicitP cls tag p).parseBer ⟨v⟩ ⟨w⟩ ∧
      InputBack (implicitToBer cls tag dynC t) (implicitP cls tag p).parseDer ⟨v⟩ ⟨w⟩) ∧
    (∀ (innerTag : Nat) (f : Any → Except SErr α), (∀ a : Any, a.header.cls = cls →
        a.header.constructed = dynC v → a.header.tag = innerTag →
        a.header.length = .definite cs.length → a.data.data = cs → f a = .ok w) →
      BytesBack (implicitToBer cls tag dynC t)
        (fromBerWith (implicitTryFrom cls tag innerTag f)) ⟨v⟩ ⟨w⟩ ∧
      BytesBack (implicitToBer cls tag dynC t) (implicitFromDer cls tag innerTag f) ⟨v⟩ ⟨w⟩) := by
  have he := implicit_encodes cls htag dynC hw hl
  refine ⟨he.lengths hs, fun p hp => ?_, fun it f hf => ?_⟩
  · have := he.back (p := implicitP cls tag p) (w := ⟨w⟩) hs (tagIs_iff.mpr rfl)
      fun a g1 g2 g3 g4 g5 => by
        obtain ⟨x, hx⟩ := hp a.header a.data g2 g4 g5
        exact ⟨x, implicitP_content.mpr ⟨g1, hx⟩⟩
    exact ⟨this.1, this.2.1⟩
  · refine ⟨⟨_, he.toVec hs, fun rest => ?_⟩, ⟨_, he.toVec hs, fun rest => ?_⟩⟩
    · obtain ⟨a, g1, g2, g3, g4, g5, g6, g7⟩ := he.any hs
        (i := Input.fromSlice ((implicitToBer cls tag dynC t).fullOf ⟨v⟩ cs ++ rest)) rfl
      exact fromBerWith_ok.mpr ⟨_, a, g1, by simp [Input.fromSlice], implicitTryFrom_ok.mpr
        ⟨g5, g3, hf _ g3 g4 rfl g6 g7⟩⟩
    · obtain ⟨a, g1, g2, g3, g4, g5, g6, g7⟩ := he.any hs
        (i := Input.fromSlice ((implicitToBer cls tag dynC t).fullOf ⟨v⟩ cs ++ rest)) rfl
      exact implicitFromDer_ok.mpr ⟨_, a, g2, by simp [Input.fromSlice],
        g5, g3, hf _ g3 g4 rfl g6 g7⟩

/-- A case: `[1] IMPLICIT` over a `u16`. -/
example : (implicitToBer .contextSpecific 1 (fun _ => false) (uintToBer 2)).toVec ⟨300⟩ = .ok [0x81, 2, 1, 0x2c] ∧
    ((uintToBer 2).writeContent 300).exec = ([1, 0x2c], .ok 2) ∧ (uintToBer 2).contentLen 300 = .definite 2 := by
  decide +kernel

/-- **C29** The values of the universal types, with any IMPLICIT tag, come back through the four
decoders.
Missing: types other than the universal ones listed (`C29_nested_deviation`, `C105_lost`). -/
theorem C29_implicit_universal_partial {c : Codec α} {v : α} (h : UniversalValue c v)
    (n : Nat) (hn : c.enc.contentLen v = .definite n) (hs : n < 2 ^ 64)
    (cls : Class) (tag : Nat) (htag : tag < 2 ^ 32) :
    ∀ E, E = implicitToBer cls tag (fun _ => false) c.enc →
    LengthsRight E ⟨v⟩ ∧
    InputBack E (implicitP cls tag c.ber).parseBer ⟨v⟩ ⟨v⟩ ∧
    InputBack E (implicitP cls tag c.der).parseDer ⟨v⟩ ⟨v⟩ ∧
    BytesBack E (fromBerWith (implicitTryFrom cls tag c.tag (tryFromAny c.ber))) ⟨v⟩ ⟨v⟩ ∧
    BytesBack E (implicitFromDer cls tag c.tag (tryFromAny c.ber)) ⟨v⟩ ⟨v⟩ := by
  rintro E rfl
  obtain ⟨cs, hw, hl, ht⟩ := universal_works h
  rw [hl] at hn; injection hn with hn; subst hn
  obtain ⟨k0, k1, k2⟩ := C29_implicit_roundtrip_partial cls tag htag c.enc (fun _ => false) v v cs hs
    hw.enc.content hl
  have := k2 c.tag (tryFromAny c.ber) fun a g1 g2 g3 g4 g5 => by
    obtain ⟨x, hx⟩ := hw.ber a.header a.data g2 g4 g5
    exact tryFromAny_ok.mpr ⟨by rw [g3]; exact hw.accB, x, hx⟩
  exact ⟨k0, (k1 _ hw.ber).1, (k1 _ hw.der).2, this.1, this.2⟩

/-- Case: `[2] IMPLICIT INTEGER` 258. -/
example : UniversalValue (uintC 4) 258 ∧ (uintC 4).enc.contentLen 258 = .definite 2 ∧
    (implicitToBer .contextSpecific 2 (fun _ => false) (uintToBer 4)).toVec ⟨258⟩ =
      .ok [0x82, 0x02, 0x01, 0x02] :=
  ⟨.uint 4 (by decide) (by decide), by decide +kernel, by decide +kernel⟩

/-- **C29** What an IMPLICIT type accepts: with each of the four decoders, exactly the objects of
this class and tag whose content is accepted by the inner type (with the form, primitive or
constructed, and the length of the object), as which it is read. -/
theorem C29_implicit_accepts (cls : Class) (tag innerTag : Nat) :
    (∀ (p : Parser α) (i r : Input) (v : TaggedValue α),
      ((implicitP cls tag p).parseBer i = .ok (r, v) ↔ ∃ a x, parseBerAny i = .ok (r, a) ∧
        a.header.cls = cls ∧ a.header.tag = tag ∧ p.content a.header a.data = .ok (x, v.inner)) ∧
      ((implicitP cls tag p).parseDer i = .ok (r, v) ↔ ∃ a x, parseDerAny i = .ok (r, a) ∧
        a.header.cls = cls ∧ a.header.tag = tag ∧ p.content a.header a.data = .ok (x, v.inner))) ∧
    (∀ (f : Any → Except SErr α) (bs rem : Bytes) (v : TaggedValue α),
      (fromBerWith (implicitTryFrom cls tag innerTag f) bs = .ok (rem, v) ↔
        ∃ r a, parseBerAny (Input.fromSlice bs) = .ok (r, a) ∧ r.data = rem ∧
        a.header.cls = cls ∧ a.header.tag = tag ∧
        f ⟨{ a.header with tag := innerTag }, a.data⟩ = .ok v.inner) ∧
      (implicitFromDer cls tag innerTag f bs = .ok (rem, v) ↔
        ∃ r a, parseDerAny (Input.fromSlice bs) = .ok (r, a) ∧ r.data = rem ∧
        a.header.cls = cls ∧ a.header.tag = tag ∧
        f ⟨{ a.header with tag := innerTag }, a.data⟩ = .ok v.inner)) := by
  refine ⟨fun f i r v => ⟨?_, ?_⟩, fun g bs rem v => ⟨?_, ?_⟩⟩
  · rw [parseBer_ok]
    constructor
    · rintro ⟨a, x, h1, h2, h3⟩
      obtain ⟨g1, g2⟩ := implicitP_content.mp h3
      exact ⟨a, x, h1, g1, tagIs_iff.mp h2, g2⟩
    · rintro ⟨a, x, h1, h2, h3, h4⟩
      exact ⟨a, x, h1, tagIs_iff.mpr h3, implicitP_content.mpr ⟨h2, h4⟩⟩
  · rw [parseDer_ok]
    constructor
    · rintro ⟨a, x, h1, h2, h3⟩
      obtain ⟨g1, g2⟩ := implicitP_content.mp h3
      exact ⟨a, x, h1, g1, tagIs_iff.mp h2, g2⟩
    · rintro ⟨a, x, h1, h2, h3, h4⟩
      exact ⟨a, x, h1, tagIs_iff.mpr h3, implicitP_content.mpr ⟨h2, h4⟩⟩
  · rw [fromBerWith_ok]
    constructor
    · rintro ⟨r, a, h1, h2, h3⟩
      obtain ⟨g1, g2, g3⟩ := implicitTryFrom_ok.mp h3
      exact ⟨r, a, h1, h2, g2, g1, g3⟩
    · rintro ⟨r, a, h1, h2, g2, g1, g3⟩
      exact ⟨r, a, h1, h2, implicitTryFrom_ok.mpr ⟨g1, g2, g3⟩⟩
  · rw [implicitFromDer_ok]
    constructor
    · rintro ⟨r, a, h1, h2, g1, g2, g3⟩
      exact ⟨r, a, h1, h2, g2, g1, g3⟩
    · rintro ⟨r, a, h1, h2, g1, g2, g3⟩
      exact ⟨r, a, h1, h2, g2, g1, g3⟩

/-- **C29** The bytes of a value with one IMPLICIT tag are an error for the decoders of every
IMPLICIT type of another class or another tag. -/
theorem C29_implicit_other_tag (cls cls' : Class) (tag tag' : Nat) (htag : tag < 2 ^ 32)
    (hne : cls' ≠ cls ∨ tag' ≠ tag) (t : ToBer α) (dynC : α → Bool) (v : α) (cs : Bytes)
    (hs : cs.length < 2 ^ 64) (hw : (t.writeContent v).exec = (cs, .ok cs.length))
    (hl : t.contentLen v = .definite cs.length) :
    ∃ bs, (implicitToBer cls tag dynC t).toVec ⟨v⟩ = .ok bs ∧ ∀ rest : Bytes,
      (∀ (p : Parser α) (i : Input), i.data = bs ++ rest →
        ((implicitP cls' tag' p).parseBer i).isOk = false ∧
        ((implicitP cls' tag' p).parseDer i).isOk = false) ∧
      (∀ (innerTag : Nat) (f : Any → Except SErr α),
        (fromBerWith (implicitTryFrom cls' tag' innerTag f) (bs ++ rest)).isOk = false ∧
        (implicitFromDer cls' tag' innerTag f (bs ++ rest)).isOk = false) := by
  have he := implicit_encodes cls htag dynC hw hl
  have no : ∀ {ε β : Type} {x : Except ε β}, (∀ y, x ≠ .ok y) → x.isOk = false := by
    intro ε β x hx
    cases x with
    | error e => rfl
    | ok y => exact absurd rfl (hx y)
  refine ⟨_, he.toVec hs, fun rest => ⟨fun p i hi => ?_, fun it f => ?_⟩⟩
  · obtain ⟨a, g1, g2, g3, g4, g5, g6, g7⟩ := he.any hs hi
    constructor
    · refine no fun ⟨r, w⟩ hh => ?_
      obtain ⟨a', x, k1, k2, k3, k5⟩ := ((C29_implicit_accepts cls' tag' 0).1 p i r w).1.mp hh
      rw [g1] at k1; simp at k1
      obtain ⟨_, rfl⟩ := k1
      rcases hne with hne | hne
      · exact hne (k2.symm.trans g3)
      · exact hne (k3.symm.trans g5)
    · refine no fun ⟨r, w⟩ hh => ?_
      obtain ⟨a', x, k1, k2, k3, k5⟩ := ((C29_implicit_accepts cls' tag' 0).1 p i r w).2.mp hh
      rw [g2] at k1; simp at k1
      obtain ⟨_, rfl⟩ := k1
      rcases hne with hne | hne
      · exact hne (k2.symm.trans g3)
      · exact hne (k3.symm.trans g5)
  · obtain ⟨a, g1, g2, g3, g4, g5, g6, g7⟩ := he.any hs
      (i := Input.fromSlice ((implicitToBer cls tag dynC t).fullOf ⟨v⟩ cs ++ rest)) rfl
    constructor
    · refine no fun ⟨r, w⟩ hh => ?_
      obtain ⟨r', a', k1, k0, k2, k3, k5⟩ :=
        ((C29_implicit_accepts cls' tag' it).2 f _ r w).1.mp hh
      rw [g1] at k1; simp at k1
      obtain ⟨_, rfl⟩ := k1
      rcases hne with hne | hne
      · exact hne (k2.symm.trans g3)
      · exact hne (k3.symm.trans g5)
    · refine no fun ⟨r, w⟩ hh => ?_
      obtain ⟨r', a', k1, k0, k2, k3, k5⟩ :=
        ((C29_implicit_accepts cls' tag' it).2 f _ r w).2.mp hh
      rw [g2] at k1; simp at k1
      obtain ⟨_, rfl⟩ := k1
      rcases hne with hne | hne
      · exact hne (k2.symm.trans g3)
      · exact hne (k3.symm.trans g5)

/-- Cases: another class and another tag are refused; the universal encoding too. -/
example :
    ((implicitP .application 2 (uintBer 4)).parseBer
      (Input.fromSlice [0x82, 0x02, 0x01, 0x02])).isOk = false ∧
    ((implicitP .contextSpecific 3 (uintBer 4)).parseBer
      (Input.fromSlice [0x82, 0x02, 0x01, 0x02])).isOk = false ∧
    ((implicitP .contextSpecific 2 (uintBer 4)).parseBer
      (Input.fromSlice [0x02, 0x02, 0x01, 0x02])).isOk = false := by decide +kernel

/-- **C29** Deviation: an IMPLICIT tag around an IMPLICIT tag of another class, or around an EXPLICIT
tag of another class or number, is written but never read back: the inner decoder looks for its own
class (and number) in the outer header. -/
theorem C29_nested_deviation (cls cls' : Class) (tag tag' : Nat) :
    (∀ (p : Parser α) (i : Input), cls ≠ cls' →
      ((implicitP cls tag (implicitP cls' tag' p)).parseBer i).isOk = false ∧
      ((implicitP cls tag (implicitP cls' tag' p)).parseDer i).isOk = false) ∧
    (∀ (f : Input → PRes α) (i : Input), (cls ≠ cls' ∨ tag ≠ tag') →
      ((implicitP cls tag (explicitP cls' tag' f)).parseBer i).isOk = false ∧
      ((implicitP cls tag (explicitP cls' tag' f)).parseDer i).isOk = false) := by
  have no : ∀ {ε β : Type} {x : Except ε β}, (∀ y, x ≠ .ok y) → x.isOk = false := by
    intro ε β x hx
    cases x with
    | error e => rfl
    | ok y => exact absurd rfl (hx y)
  refine ⟨fun p i hne => ⟨no fun ⟨r, w⟩ hh => ?_, no fun ⟨r, w⟩ hh => ?_⟩,
    fun f i hne => ⟨no fun ⟨r, w⟩ hh => ?_, no fun ⟨r, w⟩ hh => ?_⟩⟩
  · obtain ⟨a, x, k1, k2, k3, k4⟩ := ((C29_implicit_accepts cls tag 0).1 _ i r w).1.mp hh
    exact hne (k2.symm.trans (implicitP_content.mp k4).1)
  · obtain ⟨a, x, k1, k2, k3, k4⟩ := ((C29_implicit_accepts cls tag 0).1 _ i r w).2.mp hh
    exact hne (k2.symm.trans (implicitP_content.mp k4).1)
  · obtain ⟨a, x, k1, k2, k3, k4⟩ := ((C29_implicit_accepts cls tag 0).1 _ i r w).1.mp hh
    obtain ⟨q1, q2, q3, _⟩ := explicitP_content.mp k4
    rcases hne with hne | hne
    · exact hne (k2.symm.trans q2)
    · exact hne (k3.symm.trans q3)
  · obtain ⟨a, x, k1, k2, k3, k4⟩ := ((C29_implicit_accepts cls tag 0).1 _ i r w).2.mp hh
    obtain ⟨q1, q2, q3, _⟩ := explicitP_content.mp k4
    rcases hne with hne | hne
    · exact hne (k2.symm.trans q2)
    · exact hne (k3.symm.trans q3)

/-- A case: `[APPLICATION 1] IMPLICIT [2] IMPLICIT INTEGER` writes `41 01 05` and refuses it. -/
example :
    (implicitToBer .application 1 (fun _ => false)
      (implicitToBer .contextSpecific 2 (fun _ => false) (uintToBer 4))).toVec ⟨⟨5⟩⟩ =
      .ok [0x41, 0x01, 0x05] ∧
    (implicitP .application 1 (implicitP .contextSpecific 2 (uintBer 4))).parseBer
      (Input.fromSlice [0x41, 0x01, 0x05]) = .error (.error ⟨[0x05], 2, 3⟩
        (.unexpectedClass (some .contextSpecific) .application)) := by decide +kernel

/-- With equal classes nesting works. -/
theorem C29_nested_same_class (cls : Class) (tag tag' : Nat) (p : Parser α) (i r : Input)
    (v : α) :
    ((implicitP cls tag (implicitP cls tag' p)).parseBer i = .ok (r, ⟨⟨v⟩⟩) ↔
      (implicitP cls tag p).parseBer i = .ok (r, ⟨v⟩)) ∧
    ((implicitP cls tag (implicitP cls tag' p)).parseDer i = .ok (r, ⟨⟨v⟩⟩) ↔
      (implicitP cls tag p).parseDer i = .ok (r, ⟨v⟩)) := by
  constructor
  · rw [((C29_implicit_accepts cls tag 0).1 _ i r _).1, ((C29_implicit_accepts cls tag 0).1 _ i r _).1]
    constructor
    · rintro ⟨a, x, k1, k2, k3, k4⟩
      exact ⟨a, x, k1, k2, k3, (implicitP_content.mp k4).2⟩
    · rintro ⟨a, x, k1, k2, k3, k4⟩
      exact ⟨a, x, k1, k2, k3, implicitP_content.mpr ⟨k2, k4⟩⟩
  · rw [((C29_implicit_accepts cls tag 0).1 _ i r _).2, ((C29_implicit_accepts cls tag 0).1 _ i r _).2]
    constructor
    · rintro ⟨a, x, k1, k2, k3, k4⟩
      exact ⟨a, x, k1, k2, k3, (implicitP_content.mp k4).2⟩
    · rintro ⟨a, x, k1, k2, k3, k4⟩
      exact ⟨a, x, k1, k2, k3, implicitP_content.mpr ⟨k2, k4⟩⟩

end Asn1

import Verif.Props.Time
import Verif.Props.CharStrings
import Verif.Props.RealRound
import Verif.Spec.Universal
/-!
# Working codecs: what the round-trips of the composite types need from their components
-/
namespace Asn1
open Spec Wr

variable {α : Type}

/-- The encoder writes the content `cs` of `v`; the BER and DER content parsers read it back as
`v`, and the DER check accepts it. -/
structure Works (c : Codec α) (v : α) (cs : Bytes) : Prop where
  enc : Encodes c.enc v cs
  prim : (c.enc.tagInfo v).2.1 = false
  tag : (c.enc.tagInfo v).2.2 = c.tag
  accB : c.ber.acceptTag c.tag = true
  accD : c.der.acceptTag c.tag = true
  ber : Decodes c.ber false cs v
  der : Decodes c.der false cs v
  chk : ∀ a : Any, a.header.constructed = false → a.header.length = .definite cs.length →
    a.data.data = cs → c.check a = .ok ()

/-- What the generic parsers make of an encoding. -/
theorem Encodes.any {t : ToBer α} {v : α} {cs : Bytes} (he : Encodes t v cs)
    (hs : cs.length < 2 ^ 64) {i : Input} {rest : Bytes} (hi : i.data = t.fullOf v cs ++ rest) :
    ∃ a : Any, parseBerAny i = .ok (after i (t.fullOf v cs).length, a) ∧
      parseDerAny i = .ok (after i (t.fullOf v cs).length, a) ∧
      a.header.cls = (t.tagInfo v).1 ∧ a.header.constructed = (t.tagInfo v).2.1 ∧
      a.header.tag = (t.tagInfo v).2.2 ∧ a.header.length = .definite cs.length ∧
      a.data.data = cs := by
  refine ⟨_, parseBerAny_full i _ _ _ cs rest he.tag hs hi,
    parseDerAny_full i _ _ _ cs rest he.tag hs hi, rfl, rfl, rfl, rfl, ?_⟩
  rw [first_data]
  have := full_content i _ _ _ cs rest hi
  rw [this]; simp

/-- Round-trip, from the contents. -/
theorem Encodes.back {β : Type} {t : ToBer α} {p : Parser β} {v : α} {w : β} {cs : Bytes} (he : Encodes t v cs)
    (hs : cs.length < 2 ^ 64) (hacc : p.acceptTag (t.tagInfo v).2.2 = true)
    (hd : ∀ a : Any, a.header.cls = (t.tagInfo v).1 → a.header.constructed = (t.tagInfo v).2.1 →
      a.header.tag = (t.tagInfo v).2.2 → a.header.length = .definite cs.length →
      a.data.data = cs → ∃ x, p.content a.header a.data = .ok (x, w)) :
    InputBack t p.parseBer v w ∧ InputBack t p.parseDer v w ∧ BytesBack t (fromBer p) v w := by
  refine ⟨⟨_, he.toVec hs, fun rest i hi => ?_⟩, ⟨_, he.toVec hs, fun rest i hi => ?_⟩,
    ⟨_, he.toVec hs, fun rest => ?_⟩⟩
  · obtain ⟨a, h1, h2, h3, h4, h5, h6, h7⟩ := he.any hs hi
    obtain ⟨x, hx⟩ := hd a h3 h4 h5 h6 h7
    exact parseBer_ok.mpr ⟨a, x, h1, h5 ▸ hacc, hx⟩
  · obtain ⟨a, h1, h2, h3, h4, h5, h6, h7⟩ := he.any hs hi
    obtain ⟨x, hx⟩ := hd a h3 h4 h5 h6 h7
    exact parseDer_ok.mpr ⟨a, x, h2, h5 ▸ hacc, hx⟩
  · obtain ⟨a, h1, h2, h3, h4, h5, h6, h7⟩ :=
      he.any hs (i := Input.fromSlice (t.fullOf v cs ++ rest)) rfl
    obtain ⟨x, hx⟩ := hd a h3 h4 h5 h6 h7
    exact fromBer_ok.mpr ⟨_, a, x, h1, by simp [Input.fromSlice], h5 ▸ hacc, hx⟩

theorem Works.back {c : Codec α} {v : α} {cs : Bytes} (h : Works c v cs) (hs : cs.length < 2 ^ 64) :
    InputBack c.enc c.ber.parseBer v v ∧ InputBack c.enc c.der.parseDer v v ∧
    BytesBack c.enc (fromBer c.ber) v v ∧ BytesBack c.enc (fromDer c.ber c.check) v v := by
  have hB := h.accB; have hD := h.accD
  rw [← h.tag] at hB hD
  have h1 := h.enc.back (p := c.ber) hs hB fun a _ h2 _ h4 h5 =>
    h.ber a.header a.data (h2.trans h.prim) h4 h5
  have h2 := h.enc.back (p := c.der) hs hD fun a _ h2 _ h4 h5 =>
    h.der a.header a.data (h2.trans h.prim) h4 h5
  exact ⟨h1.1, h2.2.1, h1.2.2, back_fromDer h.enc hs hB (by rw [h.prim]; exact h.ber)
    fun a h2 => h.chk a (h2.trans h.prim)⟩

/-! ### The universal types -/

theorem uint_works {N : Nat} (hN : 1 ≤ N) {v : Nat} (hv : v < 256 ^ N) :
    ∃ cs, Works (uintC N) v cs ∧ cs.length ≤ N + 1 := by
  obtain ⟨cs, he, hm, hc, hl⟩ := uint_encodes hN hv
  exact ⟨cs, ⟨he, rfl, rfl, rfl, rfl, uint_decodes hN hv hc, uint_decodesDer hN hv hm hc,
    fun a h1 h2 h3 => checkDerInt_of hm h1 h2 h3⟩, hl⟩

theorem int_works {N : Nat} (hN : 1 ≤ N) {v : Int} (hv : InInt N v) :
    ∃ cs, Works (intC N) v cs ∧ cs.length ≤ N := by
  obtain ⟨cs, he, hm, hc, hl⟩ := int_encodes hN hv
  exact ⟨cs, ⟨he, rfl, rfl, rfl, rfl, int_decodes hN hv hm hc, int_decodesDer hN hv hm hc,
    fun a h1 h2 h3 => checkDerInt_of hm h1 h2 h3⟩, hl⟩

theorem integer_works {d : Bytes} (hm : MinimalInt d) : Works integerC ⟨d⟩ d := by
  have hne : d ≠ [] := by
    rintro rfl; simp [MinimalInt] at hm
  have hb : Decodes integerBer false d ⟨d⟩ := fun h i h1 h2 h3 =>
    ⟨_, (integerContent_ok (by rw [h2, h3])).mpr ⟨h1, h3.symm, hne, rfl⟩⟩
  exact ⟨integer_encodes d, rfl, rfl, rfl, rfl, hb, fun h i h1 h2 h3 =>
    let ⟨x, hx⟩ := hb h i h1 h2 h3
    ⟨x, bind_eq_ok.mpr ⟨(), checkDerIntInput_ok.mpr (h3 ▸ hm), hx⟩⟩,
    fun a h1 h2 h3 => checkDerInt_of hm h1 h2 h3⟩

theorem bool_works (b : Bool) : Works boolC b [if b then 0xff else 0x00] := by
  refine ⟨bool_encodes b, rfl, rfl, rfl, rfl, ?_, ?_, ?_⟩
  · intro h d h1 h2 h3
    exact ⟨after d 1, map_content.mpr ⟨if b then 0xff else 0x00, booleanContent_ok.mpr ⟨h1, h2, by simp [h3], rfl⟩,
      by cases b <;> rfl⟩⟩
  · intro h d h1 h2 h3
    exact ⟨after d 1, map_content.mpr ⟨if b then 0xff else 0x00, booleanDerContent_ok.mpr
      ⟨booleanContent_ok.mpr ⟨h1, h2, by simp [h3], rfl⟩, by cases b <;> simp⟩,
      by cases b <;> rfl⟩⟩
  · intro a _ _ h
    show booleanCheck a = _
    unfold booleanCheck
    rw [h]
    cases b <;> simp

theorem null_works : Works nullC () [] := by
  have : Decodes nullP false [] () := fun h d h1 h2 h3 =>
    ⟨d, bind_eq_ok.mpr ⟨(), assertPrimitive_ok.mpr h1, by simp [h2, Length.isNull]⟩⟩
  exact ⟨null_encodes, rfl, rfl, rfl, rfl, this, this, fun _ _ _ _ => rfl⟩

theorem enum_works {v : Nat} (hv : v < 2 ^ 32) :
    ∃ cs, Works enumC v cs ∧ cs.length ≤ 5 := by
  obtain ⟨cs, he, hm, hc, hl⟩ := enum_encodes hv
  have hv' : v < 256 ^ 4 := by simpa using hv
  refine ⟨cs, ⟨he, rfl, rfl, rfl, rfl, fun h d h1 h2 h3 => ?_, fun h d h1 h2 h3 => ?_,
    fun a _ h _ => ?_⟩, hl⟩
  · obtain ⟨x, hx⟩ := uint_decodes (N := 4) (by decide) hv' hc h d h1 h2 h3
    exact ⟨x, enumBer_content.mpr hx⟩
  · obtain ⟨x, hx⟩ := uint_decodesDer (N := 4) (by decide) hv' hm hc h d h1 h2 h3
    exact ⟨x, enumDer_content.mpr hx⟩
  · show enumeratedCheck a = _
    unfold enumeratedCheck assertDefiniteS
    rw [h]; rfl

theorem octet_works (v : Bytes) : Works octetC v v :=
  ⟨octet_encodes v, rfl, rfl, rfl, rfl,
    fun _ _ h1 _ h3 => ⟨_, (octetContent_prim h1).mpr ⟨rfl, h3.symm⟩⟩,
    fun _ _ h1 _ h3 => ⟨_, octetDer_content.mpr ⟨h1, rfl, h3.symm⟩⟩,
    fun a h _ _ => by
      show octetCheck a = _
      unfold octetCheck assertPrimitiveS
      rw [h]; rfl⟩

theorem bit_works (l : List Bool) : Works bitC (.ofBits l) (bitContentOf (.ofBits l)) := by
  have hwf := ofBits_wf l
  have hn : (BitString.ofBits l).nbits = l.length := rfl
  have hd : Decodes bitBer false (bitContentOf (.ofBits l)) (.ofBits l) := by
    intro h d h1 h2 h3
    refine ⟨_, (bitContent_prim h1 (by rw [h2, h3])).mpr ⟨rfl, ?_⟩⟩
    rw [h3]; exact bitLeaf_self _ hwf
  refine ⟨bit_encodes _ hwf, rfl, rfl, rfl, rfl, hd, fun h d h1 h2 h3 => ?_, ?_⟩
  · obtain ⟨x, hx⟩ := hd h d h1 h2 h3
    exact ⟨x, bind_eq_ok.mpr ⟨(), assertPrimitive_ok.mpr h1, hx⟩⟩
  · intro a h1 _ h3
    refine (bitCheck_ok (v := .ofBits l) ?_).mpr ⟨h1, ?_⟩
    · rw [h3]; exact bitLeaf_self _ hwf
    · rw [h3, bits_ofBits]
      refine ⟨_, _, rfl, ?_⟩
      rw [(unused_toNat _ hwf).1, hn]; exact ofBits_padding l

theorem oid_works (o : Oid) (hne : o.asn1 ≠ []) (hr : o.relative = false) :
    Works oidC o o.asn1 := by
  have hd : Decodes oidP false o.asn1 o := fun h d h1 _ h3 =>
    ⟨_, oidContent_ok.mpr ⟨h1, h3 ▸ hne, by rw [h3, ← hr], rfl⟩⟩
  have hacc : oidP.acceptTag oidC.tag = true := by decide
  refine ⟨oid_encodes o, rfl, ?_, hacc, hacc, hd, hd, fun a h1 h2 _ =>
    oidCheck_ok.mpr ⟨h1, by rw [h2]; rfl⟩⟩
  show (if o.relative then tagRelativeOid else tagOid) = _
  rw [hr]; rfl

theorem utc_works {t : DateTime} (h : UtcValue t) : Works utcC t (utcContentOf t) := by
  obtain ⟨hy, hr, hm, hz⟩ := h
  have ht := utcText_of hy hr
  rw [← hm, ← hz] at ht
  exact ⟨utc_encodes (twoDigits_of hy hr), rfl, rfl, rfl, rfl,
    fun _ _ h1 _ h3 => ⟨_, utcBer_content.mpr ⟨h1, rfl, h3 ▸ ht⟩⟩,
    fun _ _ h1 _ h3 => ⟨_, utcDer_content.mpr ⟨h1, rfl, h3 ▸ ht⟩⟩, fun _ _ _ _ => rfl⟩

theorem gen_works {t : DateTime} (h : GenValue t) : Works genC t (genContentOf t) := by
  have ht := genText_self h
  obtain ⟨hy, hr, hm, hz⟩ := h
  have hf := fourDigits_of hy hr
  exact ⟨gen_encodes hf, rfl, rfl, rfl, rfl,
    fun _ _ h1 _ h3 => ⟨_, genBer_content.mpr ⟨h1, rfl, h3 ▸ ht⟩⟩,
    fun _ _ h1 _ h3 => ⟨_, genDer_content.mpr ⟨h1, rfl, h3 ▸ ht, h3 ▸ genText_last t,
      h3 ▸ genText_comma hf⟩⟩,
    fun _ _ _ h3 => genCheck_ok.mpr ⟨h3 ▸ genText_last t, h3 ▸ genText_comma hf⟩⟩

theorem strCheck_prim (a : Any) (h : a.header.constructed = false) : strCheck a = .ok () :=
  (strCheck_ok a).mpr h

theorem text_works {k : StrKind} {tag : Nat} {A : Char → Bool} (hk : StringType k tag A) {s : Text}
    (hs : ∀ c ∈ s, A c = true) : Works (strC k) s (Text.utf8 s) := by
  have ht := hk.tag_eq
  subst ht
  exact ⟨str_encodes hk.tag_lt.1 s, rfl, rfl, ((str_acc k).1 _).mpr rfl, ((str_acc k).2 _).mpr rfl,
    decodes_of (str_contents hk) ⟨.inl ⟨rfl, rfl⟩, hs⟩, decodes_of (strDer_contents hk) ⟨rfl, rfl, hs⟩,
    fun a h _ _ => strCheck_prim a h⟩

theorem refStr_works (s : Text) : Works refStrC s (Text.utf8 s) :=
  ⟨str_encodes (by decide) s, rfl, rfl, rfl, rfl, decodes_of refStr_contents ⟨rfl, rfl⟩,
    decodes_of refStrDer_contents ⟨rfl, rfl⟩, fun a h _ _ => strCheck_prim a h⟩

theorem string_works (s : Text) : Works stringC s (Text.utf8 s) :=
  ⟨str_encodes (by decide) s, rfl, rfl, rfl, rfl, decodes_of string_contents (.inl ⟨rfl, rfl⟩),
    decodes_of refStrDer_contents ⟨rfl, rfl⟩, fun a h _ _ => strCheck_prim a h⟩

theorem bmp_works {s : Text} (hne : s ≠ []) : Works bmpC s (utf16be s) :=
  ⟨bmp_encodes s, rfl, rfl, rfl, rfl, decodes_of bmp_contents ⟨fun _ => utf16be_ne_nil hne, .inl rfl⟩,
    decodes_of bmpDer_contents ⟨rfl, utf16be_ne_nil hne, .inl rfl⟩, fun a h _ _ => strCheck_prim a h⟩

theorem univ_works {s : Text} (hne : s ≠ []) (ha : ∀ c ∈ s, c.toNat < 0x80) : Works univC s (ucs4 s) :=
  ⟨univ_encodes ha, rfl, rfl, rfl, rfl, decodes_of univ_contents ⟨fun _ => ucs4_ne_nil hne, rfl⟩,
    decodes_of univDer_contents ⟨rfl, ucs4_ne_nil hne, rfl⟩, fun a h _ _ => strCheck_prim a h⟩

theorem real_works (lib : FloatLib) {r : Real} (h : RealValue r) : ∃ cs, Works (realC lib) r cs := by
  obtain ⟨cs, h1, h2, _⟩ := real_value lib h
  have hd : Decodes (realP lib) false cs r := decodes_of (real_contents lib) ⟨rfl, h2⟩
  exact ⟨cs, h1, rfl, rfl, rfl, rfl, hd, hd, fun a h3 h4 _ => (realCheck_ok a h4).mpr h3⟩

/-- The values of the universal types modelled so far have working codecs. -/
theorem universal_works {c : Codec α} {v : α} (h : UniversalValue c v) :
    ∃ cs, Works c v cs ∧ c.enc.contentLen v = .definite cs.length ∧ c.tag < 31 := by
  have key : ∀ {β : Type} {c : Codec β} {v : β} {cs : Bytes}, Works c v cs → c.tag < 31 →
      ∃ cs, Works c v cs ∧ c.enc.contentLen v = .definite cs.length ∧ c.tag < 31 :=
    fun hw ht => ⟨_, hw, hw.enc.len, ht⟩
  cases h with
  | uint N hN hv => obtain ⟨cs, hw, _⟩ := uint_works hN.1 hv; exact key hw (by decide : 2 < 31)
  | int N hN hv => obtain ⟨cs, hw, _⟩ := int_works hN.1 hv; exact key hw (by decide : 2 < 31)
  | integer hm => exact key (integer_works hm) (by decide)
  | bool => exact key (bool_works _) (by decide)
  | null => exact key null_works (by decide)
  | enumerated hv => obtain ⟨cs, hw, _⟩ := enum_works hv; exact key hw (by decide)
  | octetString => exact key (octet_works _) (by decide)
  | bitString l => exact key (bit_works l) (by decide)
  | oid h1 h2 => exact key (oid_works _ h1 h2) (by decide)
  | utcTime h => exact key (utc_works h) (by decide)
  | generalizedTime h => exact key (gen_works h) (by decide)
  | text hk hs => exact key (text_works hk hs) (by
    show _ < 31; have := hk.tag_eq; have := hk.tag_lt; simp only [strC]; omega)
  | refStr => exact key (refStr_works _) (by decide)
  | string => exact key (string_works _) (by decide)
  | bmpString hne => exact key (bmp_works hne) (by decide)
  | universalString hne ha => exact key (univ_works hne ha) (by decide)
  | real h => obtain ⟨cs, hw⟩ := real_works _ h; exact key hw (by decide : 9 < 31)

end Asn1

import Verif.Spec.BuiltValue
import Verif.Props.DeriveEnum
import Verif.Props.RawSeq
/-!
# Values of built types come back
-/
namespace Asn1
open Spec Wr

variable {α β : Type}

/-- The content written for `v` is read as `w` in an object with the header written for `v`. -/
def Own (t : ToBer α) (p : Parser β) (v : α) (w : β) (cs : Bytes) : Prop :=
  ∀ a : Any, a.header.cls = (t.tagInfo v).1 → a.header.constructed = (t.tagInfo v).2.1 →
    a.header.tag = (t.tagInfo v).2.2 → a.header.length = .definite cs.length → a.data.data = cs →
    ∃ x, p.content a.header a.data = .ok (x, w)

/-- What holds of every value of a built type. -/
structure Sound (r : Bool) (t : ToBer α) (pb pd : Parser β) (v : α) (w : β) (cs : Bytes) : Prop where
  enc : Encodes t v cs
  small : cs.length < 2 ^ 24
  accB : pb.acceptTag (t.tagInfo v).2.2 = true
  accD : pd.acceptTag (t.tagInfo v).2.2 = true
  ber : Own t pb v w cs
  der : Own t pd v w cs
  free : r = true → Decodes pb (t.tagInfo v).2.1 cs w ∧ Decodes pd (t.tagInfo v).2.1 cs w

namespace Sound
variable {r : Bool} {t : ToBer α} {pb pd : Parser β} {v : α} {w : β} {cs : Bytes}

theorem lt64 (h : Sound r t pb pd v w cs) : cs.length < 2 ^ 64 := by
  have := h.small
  have e24 : (2 : Nat) ^ 24 = 16777216 := by decide
  have e64 : (2 : Nat) ^ 64 = 18446744073709551616 := by decide
  omega

theorem fits (h : Sound r t pb pd v w cs) : Fits t v :=
  ⟨h.enc.lengths h.lt64, ⟨_, h.enc.len, h.small⟩, h.enc.tag⟩

theorem back (h : Sound r t pb pd v w cs) :
    InputBack t pb.parseBer v w ∧ InputBack t pd.parseDer v w :=
  ⟨(h.enc.back (p := pb) h.lt64 h.accB h.ber).1, (h.enc.back (p := pd) h.lt64 h.accD h.der).2.1⟩

theorem of_decodes (enc : Encodes t v cs) (small : cs.length < 2 ^ 24)
    (accB : pb.acceptTag (t.tagInfo v).2.2 = true) (accD : pd.acceptTag (t.tagInfo v).2.2 = true)
    (hb : Decodes pb (t.tagInfo v).2.1 cs w) (hd : Decodes pd (t.tagInfo v).2.1 cs w) :
    Sound true t pb pd v w cs :=
  ⟨enc, small, accB, accD, fun a _ h2 _ h4 h5 => hb a.header a.data h2 h4 h5,
    fun a _ h2 _ h4 h5 => hd a.header a.data h2 h4 h5, fun _ => ⟨hb, hd⟩⟩

end Sound

theorem small_of {t : ToBer α} {v : α} {cs : Bytes} (h : t.contentLen v = .definite cs.length)
    (hs : SmallContent t v) : cs.length < 2 ^ 24 := by
  obtain ⟨n, hn, hlt⟩ := hs
  rw [h] at hn
  injection hn with hn
  omega

/-- Items that come back, one after the other. -/
structure SoundList (t : ToBer α) (pb pd : Parser β) (vs : List α) (ws : List β) : Prop where
  fits : ∀ v ∈ vs, Fits t v
  ber : Pointwise (InputBack t pb.parseBer) vs ws
  der : Pointwise (InputBack t pd.parseDer) vs ws

theorem sound_list {t : ToBer α} {pb pd : Parser β} {vs : List α} {ws : List β}
    (h : SoundList t pb pd vs ws) (hs : SmallContent (listToBer 16 t) vs) :
    ∃ cs, Encodes (listToBer 16 t) vs cs ∧ cs.length < 2 ^ 24 ∧
      ∀ i : Input, i.data = cs → Repeats pb.parseBer i ws (after i cs.length) ∧
        Repeats pd.parseDer i ws (after i cs.length) := by
  have e24 : (2 : Nat) ^ 24 = 16777216 := by decide
  have e64 : (2 : Nat) ^ 64 = 18446744073709551616 := by decide
  have hf : ListFits t vs := ⟨h.fits, fun n hn => by
    obtain ⟨k, hk, hlt⟩ := hs
    rw [hn] at hk
    injection hk with hk
    omega⟩
  obtain ⟨bss, h1, h2, h3⟩ := list_items hf
  have he := list_encodes (tag := 16) (by decide) h1
  exact ⟨_, he, small_of he.len hs, fun i hi => ⟨repeats_back h2 h.ber i hi, repeats_back h2 h.der i hi⟩⟩

theorem sound_universal {c : Codec α} {v : α} (h : UniversalValue c v) (hs : SmallContent c.enc v) :
    ∃ cs, Sound true c.enc c.ber c.der v v cs := by
  obtain ⟨cs, hw, hl, ht⟩ := universal_works h
  refine ⟨cs, .of_decodes hw.enc (small_of hl hs) ?_ ?_ ?_ ?_⟩
  · rw [hw.tag]; exact hw.accB
  · rw [hw.tag]; exact hw.accD
  · rw [hw.prim]; exact hw.ber
  · rw [hw.prim]; exact hw.der

theorem sound_bits {v : BitString} (hv : v.WF) (hs : SmallContent bitToBer v) :
    ∃ cs, Sound true bitToBer bitBer bitDer v v cs := by
  have he := bit_encodes v hv
  have hd : Decodes bitBer false (bitContentOf v) v := fun h i h1 h2 h3 =>
    ⟨_, (bitContent_prim h1 (by rw [h2, h3])).mpr ⟨rfl, by rw [h3]; exact bitLeaf_self _ hv⟩⟩
  refine ⟨_, .of_decodes he (small_of he.len hs) rfl rfl hd fun h i h1 h2 h3 => ?_⟩
  obtain ⟨x, hx⟩ := hd h i h1 h2 h3
  exact ⟨x, bind_eq_ok.mpr ⟨(), assertPrimitive_ok.mpr h1, hx⟩⟩

theorem sound_vec {t : ToBer α} {pb pd : Parser β} {vs : List α} {ws : List β}
    (h : SoundList t pb pd vs ws) (hs : SmallContent (listToBer 16 t) vs) :
    ∃ cs, Sound true (listToBer 16 t) (vecBer pb) (vecDer pd) vs ws cs := by
  obtain ⟨cs, h1, h2, h3⟩ := sound_list h hs
  exact ⟨cs, .of_decodes h1 h2 rfl rfl
    (fun h i hc _ hd => ⟨_, vecBer_content.mpr ⟨hc, (h3 i hd).1⟩⟩)
    (fun h i hc _ hd => ⟨_, vecDer_content.mpr ⟨hc, (h3 i hd).2⟩⟩)⟩

theorem sound_sequenceOf {t : ToBer α} {pb pd : Parser β} {vs : List α} {ws : List β}
    (h : SoundList t pb pd vs ws) (hs : SmallContent (listToBer 16 t) vs) :
    ∃ cs, Sound true (listToBer 16 t) (sequenceOfP anyBer.parseBer pb) (sequenceOfP anyDer.parseDer pd) vs
      (SequenceOf.mk ws) cs := by
  obtain ⟨cs, h1, h2, h3⟩ := sound_list h hs
  exact ⟨cs, .of_decodes h1 h2 rfl rfl
    (fun h i hc _ hd => ⟨_, bind_eq_ok.mpr ⟨(_, ws), vecBer_content.mpr ⟨hc, (h3 i hd).1⟩, rfl⟩⟩)
    (fun h i hc _ hd => ⟨_, bind_eq_ok.mpr ⟨(_, ws), vecDer_content.mpr ⟨hc, (h3 i hd).2⟩, rfl⟩⟩)⟩

theorem sound_setOf {t : ToBer α} {pb pd : Parser β} {vs : List α} {ws : List β}
    (h : SoundList t pb pd vs ws) (hs : SmallContent (listToBer 17 t) vs) :
    ∃ cs, Sound true (listToBer 17 t) (setOfP anyBer.parseBer pb) (setOfP anyDer.parseDer pd) vs
      (SetOf.mk ws) cs := by
  obtain ⟨cs, h1, h2, h3⟩ := sound_list h hs
  exact ⟨cs, .of_decodes ⟨h1.content, h1.len, (by show 17 < 2 ^ 32; decide), rfl⟩ h2 rfl rfl
    (fun h i hc _ hd => ⟨_, map_content.mpr ⟨ws, setItemsBer_content.mpr ⟨hc, (h3 i hd).1⟩, rfl⟩⟩)
    (fun h i hc _ hd => ⟨_, map_content.mpr ⟨ws, setItemsDer_content.mpr ⟨hc, (h3 i hd).2⟩, rfl⟩⟩)⟩

theorem sound_set {σ τ : Type} {t : ToBer α} {pb pd : Parser β} (S : SetImpl α σ) (S' : SetImpl β τ) {s : σ}
    {ws : List β} (h : SoundList t pb pd (S.toList s) ws) (hs : SmallContent (setToBer S t) s) :
    ∃ cs, Sound true (setToBer S t) (setP S' anyBer.parseBer pb) (setP S' anyDer.parseDer pd) s
      (S'.ofList ws) cs := by
  obtain ⟨cs, h1, h2, h3⟩ := sound_list h hs
  exact ⟨cs, .of_decodes ⟨h1.content, h1.len, (by show 17 < 2 ^ 32; decide), rfl⟩ h2 rfl rfl
    (fun h i hc _ hd => ⟨_, map_content.mpr ⟨ws, setItemsBer_content.mpr ⟨hc, (h3 i hd).1⟩, rfl⟩⟩)
    (fun h i hc _ hd => ⟨_, map_content.mpr ⟨ws, setItemsDer_content.mpr ⟨hc, (h3 i hd).2⟩, rfl⟩⟩)⟩

theorem sound_array {t : ToBer α} {pb pd : Parser β} (N : Nat) {v : Arr α N} {w : Arr β N}
    (h : SoundList t pb pd v.val w.val) (hs : SmallContent (arrayToBer N t) v) :
    ∃ cs, Sound true (arrayToBer N t) (arrayP N anyBer.parseBer pb) (arrayP N anyDer.parseDer pd) v w cs := by
  obtain ⟨cs, h1, h2, h3⟩ := sound_list h hs
  exact ⟨cs, .of_decodes ⟨h1.content, h1.len, (by show 16 < 2 ^ 32; decide), rfl⟩ h2 rfl rfl
    (fun h i hc _ hd => ⟨_, arrayP_content.mpr (vecBer_content.mpr ⟨hc, (h3 i hd).1⟩)⟩)
    (fun h i hc _ hd => ⟨_, arrayP_content.mpr (vecDer_content.mpr ⟨hc, (h3 i hd).2⟩)⟩)⟩

theorem sound_raw {tag : Nat} (htag : tag < 2 ^ 32) {s : RawSeq} (hs : SmallContent (rawToBer tag) s) :
    ∃ cs, Sound true (rawToBer tag) (rawP tag) (rawP tag) s ⟨s.content, false⟩ cs := by
  have hd : Decodes (rawP tag) true s.content ⟨s.content, false⟩ :=
    fun h i hc _ hd => ⟨_, raw_content.mpr ⟨hc, by rw [hd], rfl⟩⟩
  exact ⟨s.content, .of_decodes (raw_encodes htag s) (small_of rfl hs) (tagIs_iff.mpr rfl) (tagIs_iff.mpr rfl)
    hd hd⟩

theorem sound_explicit {r : Bool} {t : ToBer α} {pb pd : Parser β} {v : α} {w : β} {cs : Bytes} (cls : Class)
    {tag : Nat} (htag : tag < 2 ^ 32) {dynTag : α → Nat} (hdyn : dynTag v = (t.tagInfo v).2.2)
    (h : Sound r t pb pd v w cs) (hs : SmallContent (explicitToBer cls tag dynTag t) ⟨v⟩) :
    ∃ cs, Sound false (explicitToBer cls tag dynTag t) (explicitP cls tag pb.parseBer)
      (explicitP cls tag pd.parseDer) ⟨v⟩ ⟨w⟩ cs := by
  obtain ⟨bs, h1, h2, h3, h4⟩ := lengthsRight_toVec h.fits.lengths h.fits.small h.fits.tag
  have he := explicit_encodes cls htag hdyn h2 h3
  obtain ⟨⟨b1, g1, g2⟩, ⟨b2, k1, k2⟩⟩ := h.back
  rw [h1] at g1 k1
  injection g1 with g1; injection k1 with k1
  subst g1; subst k1
  exact ⟨bs, he, small_of he.len hs, tagIs_iff.mpr rfl, tagIs_iff.mpr rfl,
    fun a a1 a2 a3 _ a5 => ⟨_, explicitP_content.mpr ⟨a2, a1, a3, g2 [] a.data (by simp [a5])⟩⟩,
    fun a a1 a2 a3 _ a5 => ⟨_, explicitP_content.mpr ⟨a2, a1, a3, k2 [] a.data (by simp [a5])⟩⟩, by simp⟩

theorem sound_implicit {t : ToBer α} {pb pd : Parser β} {v : α} {w : β} {cs : Bytes} (cls : Class) {tag : Nat}
    (htag : tag < 2 ^ 32) {dynC : α → Bool} (hdyn : dynC v = (t.tagInfo v).2.1)
    (h : Sound true t pb pd v w cs) :
    Sound false (implicitToBer cls tag dynC t) (implicitP cls tag pb) (implicitP cls tag pd) ⟨v⟩ ⟨w⟩ cs := by
  obtain ⟨hb, hd⟩ := h.free rfl
  rw [← hdyn] at hb hd
  refine ⟨implicit_encodes cls htag dynC h.enc.content h.enc.len, h.small, tagIs_iff.mpr rfl, tagIs_iff.mpr rfl,
    fun a a1 a2 a3 a4 a5 => ?_, fun a a1 a2 a3 a4 a5 => ?_, by simp⟩
  · obtain ⟨x, hx⟩ := hb a.header a.data a2 a4 a5
    exact ⟨x, implicitP_content.mpr ⟨a1, hx⟩⟩
  · obtain ⟨x, hx⟩ := hd a.header a.data a2 a4 a5
    exact ⟨x, implicitP_content.mpr ⟨a1, hx⟩⟩

/-- Fields that come back. -/
structure SoundFields {Ts Us : List Type} (es : EncFields Ts) (fb fd : Fields Us) (vs : Tup Ts) (ws : Tup Us) :
    Prop where
  fits : FieldsFit es vs
  ber : StructBack .ber es fb vs ws
  der : StructBack .der es fd vs ws

theorem struct_content {m : Rules} {Ts : List Type} {tag : Nat} {fs : Fields Ts} {h : Header} {i e : Input}
    {v : Tup Ts} (hc : h.constructed = true) (hr : ReadsFields m fs i v e) :
    (structP m tag fs).content h i = .ok (e, v) :=
  bind_eq_ok.mpr ⟨(), assertConstructed_ok.mpr hc, fields_run_ok.mpr hr⟩

theorem sound_struct {Ts Us : List Type} {es : EncFields Ts} {fb fd : Fields Us} {vs : Tup Ts} {ws : Tup Us}
    {tag : Nat} (htag : tag < 2 ^ 32) (h : SoundFields es fb fd vs ws) (h0 : overcount es vs = 0)
    (hs : SmallContent (structToBer tag es) vs) :
    ∃ cs, Sound true (structToBer tag es) (structP .ber tag fb) (structP .der tag fd) vs ws cs := by
  obtain ⟨cs, h1, h2⟩ := fields_write h.fits
  have hl : (structToBer tag es).contentLen vs = .definite cs.length := by
    show es.len vs (.definite 0) = _
    rw [h2, h0]; congr 1; omega
  have he : Encodes (structToBer tag es) vs cs := struct_encodes htag ((h1 0).congr rfl (by omega)) hl
  exact ⟨cs, .of_decodes he (small_of hl hs) (tagIs_iff.mpr rfl) (tagIs_iff.mpr rfl)
    (fun hd i hc _ hi => ⟨_, struct_content hc (fields_back h.ber h.fits h1 [] i (by simp [hi]))⟩)
    (fun hd i hc _ hi => ⟨_, struct_content hc (fields_back h.der h.fits h1 [] i (by simp [hi]))⟩)⟩

theorem sound_comesBack {r : Bool} {t : ToBer α} {pb pd : Parser β} {v : α} {w : β} {cs : Bytes}
    (h : Sound r t pb pd v w cs) (tag : FieldTag) (hr : (∃ cls n, tag = .implicit cls n) → r = true) :
    ComesBack .ber t pb v w tag ∧ ComesBack .der t pd v w tag ∧ OwnHeader t v := by
  have ho := h.enc.ownHeader h.lt64
  cases tag with
  | untagged => exact ⟨.untagged h.back.1, .untagged h.back.2, ho⟩
  | explicit cls n => exact ⟨.explicit h.back.1, .explicit h.back.2, ho⟩
  | implicit cls n =>
    have := h.free (hr ⟨_, _, rfl⟩)
    exact ⟨.implicit h.enc.content this.1, .implicit h.enc.content this.2, ho⟩

/-- A variant that comes back. -/
def SoundVariant (k : ChoiceKind) {Ts Us : List Type} (es : EncVariants Ts) (vb vd : Variants Us) (x : HSum Ts)
    (y : HSum Us) (g : Nat) : Prop :=
  ∃ cs, Encodes (choiceToBer k es) x cs ∧ ((choiceToBer k es).tagInfo x).2.2 = g ∧
    ∀ a : Any, a.header.cls = ((choiceToBer k es).tagInfo x).1 →
      a.header.constructed = ((choiceToBer k es).tagInfo x).2.1 → a.header.tag = g →
      a.header.length = .definite cs.length → a.data.data = cs →
      ReadsChoice .ber k vb a y ∧ ReadsChoice .der k vd a y

theorem sound_here {k : ChoiceKind} {r : Bool} {T U : Type} {Ts Us : List Type} {t : ToBer T}
    {pb pd : Parser U} {v : T} {w : U} {es : EncVariants Ts} {vb vd : Variants Us} {n : Nat} (hn : n < 2 ^ 32)
    {dyn : T → Class × Bool × Nat} (hdyn : dyn v = t.tagInfo v) {cs : Bytes} (h : Sound r t pb pd v w cs)
    (hr : k = .implicit → r = true) :
    SoundVariant k (.cons n dyn t es) (.cons n pb vb) (.cons n pd vd) (.inl v : T ⊕ HSum Ts)
      (.inl w : U ⊕ HSum Us) (if k = .untagged then (t.tagInfo v).2.2 else n) := by
  cases k with
  | explicit =>
    obtain ⟨bs, h1, h2, h3, h4⟩ := lengthsRight_toVec h.fits.lengths h.fits.small h.fits.tag
    obtain ⟨⟨b1, g1, g2⟩, ⟨b2, k1, k2⟩⟩ := h.back
    rw [h1] at g1 k1
    injection g1 with g1; injection k1 with k1
    subst g1; subst k1
    refine ⟨bs, ⟨h2, h3, hn, rfl⟩, rfl, fun a _ a2 a3 _ a5 => ⟨?_, ?_⟩⟩
    · exact ⟨a3, a2, _, g2 [] a.data (by simp [a5])⟩
    · exact ⟨a3, a2, _, k2 [] a.data (by simp [a5])⟩
  | implicit =>
    obtain ⟨hb, hd⟩ := h.free (hr rfl)
    rw [← hdyn] at hb hd
    exact ⟨cs, ⟨h.enc.content, h.enc.len, hn, rfl⟩, rfl, fun a _ a2 a3 a4 a5 =>
      ⟨⟨a3, hb a.header a.data a2 a4 a5⟩, ⟨a3, hd a.header a.data a2 a4 a5⟩⟩⟩
  | untagged =>
    have e : (choiceToBer .untagged (.cons n dyn t es)).tagInfo (.inl v : T ⊕ HSum Ts) = t.tagInfo v := hdyn
    refine ⟨cs, ⟨h.enc.content, h.enc.len, by rw [e]; exact h.enc.tag, rfl⟩, by rw [e]; rfl,
      fun a a1 a2 a3 a4 a5 => ?_⟩
    rw [e] at a1 a2
    have a3 : a.header.tag = (t.tagInfo v).2.2 := a3
    exact ⟨⟨by show pb.acceptTag _ = true; rw [a3]; exact h.accB, h.ber a a1 a2 a3 a4 a5⟩,
      ⟨by show pd.acceptTag _ = true; rw [a3]; exact h.accD, h.der a a1 a2 a3 a4 a5⟩⟩

theorem sound_there {k : ChoiceKind} {T U : Type} {Ts Us : List Type} {t : ToBer T}
    {pb pd : Parser U} {es : EncVariants Ts} {vb vd : Variants Us} {x : HSum Ts} {y : HSum Us} {n g : Nat}
    {dyn : T → Class × Bool × Nat} (hb : ¬ Selects k n pb g) (hd : ¬ Selects k n pd g)
    (h : SoundVariant k es vb vd x y g) :
    SoundVariant k (.cons n dyn t es) (.cons n pb vb) (.cons n pd vd) (.inr x : T ⊕ HSum Ts)
        (.inr y : U ⊕ HSum Us) g := by
  obtain ⟨cs, h1, h3, h4⟩ := h
  refine ⟨cs, ⟨h1.content, h1.len, h1.tag, rfl⟩, h3, fun a a1 a2 a3 a4 a5 => ?_⟩
  obtain ⟨g1, g2⟩ := h4 a a1 a2 a3 a4 a5
  exact ⟨⟨by rw [a3]; exact hb, g1⟩, ⟨by rw [a3]; exact hd, g2⟩⟩

theorem sound_choice {k : ChoiceKind} {Ts Us : List Type} {es : EncVariants Ts} {vb vd : Variants Us}
    {x : HSum Ts} {y : HSum Us} {g : Nat} (h : SoundVariant k es vb vd x y g)
    (hs : SmallContent (choiceToBer k es) x) :
    ∃ cs, Sound false (choiceToBer k es) (choiceP .ber k vb) (choiceP .der k vd) x y cs := by
  obtain ⟨cs, h1, h3, h4⟩ := h
  subst h3
  have key := h4
  have acc := key ⟨⟨((choiceToBer k es).tagInfo x).1, ((choiceToBer k es).tagInfo x).2.1,
    ((choiceToBer k es).tagInfo x).2.2, .definite cs.length, none, none⟩, ⟨cs, 0, cs.length⟩⟩ rfl rfl rfl rfl rfl
  exact ⟨cs, h1, small_of h1.len hs, accept_of_reads acc.1, accept_of_reads acc.2,
    fun a a1 a2 a3 a4 a5 => choice_content_ok.mpr (key a a1 a2 a3 a4 a5).1,
    fun a a1 a2 a3 a4 a5 => choice_content_ok.mpr (key a a1 a2 a3 a4 a5).2, by simp⟩

theorem sound_enum {ds : List Nat} (hn : ds.Nodup) (hds : ∀ d ∈ ds, d < 2 ^ 32) (k : Fin ds.length) :
    ∃ cs, Sound true (enumToBer ds) (enumP enumeratedBer ds) (enumP enumeratedDer ds) k k cs := by
  have hk : ds[k] < 2 ^ 32 := hds _ (List.getElem_mem _)
  obtain ⟨cs, hw, hl⟩ := enum_works hk
  have e24 : (2 : Nat) ^ 24 = 16777216 := by decide
  refine ⟨cs, .of_decodes ⟨hw.enc.content, hw.enc.len, by show 10 < 2 ^ 32; decide, rfl⟩ (by omega) rfl rfl ?_ ?_⟩
  · intro h i hc hl hi
    obtain ⟨x, hx⟩ := hw.ber h i hc hl hi
    exact ⟨x, (enumContent_ok hn).mpr ⟨hc, hx⟩⟩
  · intro h i hc hl hi
    obtain ⟨x, hx⟩ := hw.der h i hc hl hi
    exact ⟨x, (enumContent_ok hn).mpr ⟨hc, hx⟩⟩

theorem alias_content {p : Parser β} {h : Header} {i x : Input} {w : β} (hc : p.content h i = .ok (x, w)) :
    (aliasP p).content h i = .ok (x, ⟨w⟩) :=
  bind_eq_ok.mpr ⟨_, hc, rfl⟩

theorem sound_alias {r : Bool} {t : ToBer α} {pb pd : Parser β} {v : α} {w : β} {cs : Bytes}
    (h : Sound r t pb pd v w cs) : Sound r (aliasToBer t) (aliasP pb) (aliasP pd) ⟨v⟩ ⟨w⟩ cs := by
  refine ⟨⟨h.enc.content, h.enc.len, h.enc.tag, rfl⟩, h.small, h.accB, h.accD,
    fun a a1 a2 a3 a4 a5 => ?_, fun a a1 a2 a3 a4 a5 => ?_, fun hr => ⟨?_, ?_⟩⟩
  · obtain ⟨x, hx⟩ := h.ber a a1 a2 a3 a4 a5
    exact ⟨x, alias_content hx⟩
  · obtain ⟨x, hx⟩ := h.der a a1 a2 a3 a4 a5
    exact ⟨x, alias_content hx⟩
  · intro hd i hc hl hi
    obtain ⟨x, hx⟩ := (h.free hr).1 hd i hc hl hi
    exact ⟨x, alias_content hx⟩
  · intro hd i hc hl hi
    obtain ⟨x, hx⟩ := (h.free hr).2 hd i hc hl hi
    exact ⟨x, alias_content hx⟩

theorem sound_named {r : Bool} {α' β' : Type} {t : ToBer α} {pb pd : Parser β} {w : β} {cs : Bytes} (un : α' → α)
    (f : β → β') (x : α') (h : Sound r t pb pd (un x) w cs) :
    Sound r (named t un) (pb.map f) (pd.map f) x (f w) cs := by
  have hm : ∀ {p : Parser β} {hd : Header} {i : Input}, (∃ y, p.content hd i = .ok (y, w)) →
      ∃ y, (p.map f).content hd i = .ok (y, f w) := by
    rintro p hd i ⟨y, hy⟩
    exact ⟨y, map_content.mpr ⟨w, hy, rfl⟩⟩
  refine ⟨⟨h.enc.content, h.enc.len, h.enc.tag, h.enc.enc⟩, h.small, h.accB, h.accD, ?_, ?_, fun hr => ⟨?_, ?_⟩⟩
  · exact fun a a1 a2 a3 a4 a5 => hm (h.ber a a1 a2 a3 a4 a5)
  · exact fun a a1 a2 a3 a4 a5 => hm (h.der a a1 a2 a3 a4 a5)
  · exact fun hd i a1 a2 a3 => hm ((h.free hr).1 hd i a1 a2 a3)
  · exact fun hd i a1 a2 a3 => hm ((h.free hr).2 hd i a1 a2 a3)

theorem sound_value {r : Bool} {t : ToBer α} {pb pd : Parser β} {v : α} {w : β} (h : Value r t pb pd v w) :
    ∃ cs, Sound r t pb pd v w cs := by
  refine Value.rec
    (motive_1 := fun r {_ _} t pb pd v w _ => ∃ cs, Sound r t pb pd v w cs)
    (motive_2 := fun {_ _} t pb pd vs ws _ => SoundList t pb pd vs ws)
    (motive_3 := fun {_ _} es fb fd vs ws _ => SoundFields es fb fd vs ws)
    (motive_4 := fun k {_ _} es vb vd x y g _ => SoundVariant k es vb vd x y g)
    ?_ ?_ ?_ ?_ ?_ ?_ ?_ ?_ ?_ ?_ ?_ ?_ ?_ ?_ ?_ ?_ ?_ ?_ ?_ ?_ ?_ ?_ h
  · intro α c v h hs; exact sound_universal h hs
  · intro v hv hs; exact sound_bits hv hs
  · intro _ _ _ _ _ _ _ _ hs ih; exact sound_vec ih hs
  · intro _ _ _ _ _ _ _ _ hs ih; exact sound_sequenceOf ih hs
  · intro _ _ _ _ _ _ _ _ hs ih; exact sound_setOf ih hs
  · intro _ _ _ _ _ _ _ S S' _ _ _ hs ih; exact sound_set S S' ih hs
  · intro _ _ _ _ _ N _ _ _ hs ih; exact sound_array N ih hs
  · intro tag htag s hs; exact sound_raw htag hs
  · rintro _ _ _ _ _ _ _ _ cls tag htag _ hdyn _ hs ⟨cs, ih⟩; exact sound_explicit cls htag hdyn ih hs
  · rintro _ _ _ _ _ _ _ cls tag htag _ hdyn _ ⟨cs, ih⟩; exact ⟨cs, sound_implicit cls htag hdyn ih⟩
  · intro _ _ _ _ _ _ _ tag htag _ h0 hs ih; exact sound_struct htag ih h0 hs
  · intro _ _ _ _ _ _ _ _ k _ hs ih; exact sound_choice ih hs
  · intro ds hn hds k; exact sound_enum hn hds k
  · rintro _ _ _ _ _ _ _ _ _ ⟨cs, ih⟩; exact ⟨cs, sound_alias ih⟩
  · rintro _ _ _ _ _ _ _ _ _ un f x _ ⟨cs, ih⟩; exact ⟨cs, sound_named un f x ih⟩
  · intros; exact ⟨by simp, .nil, .nil⟩
  · rintro _ _ _ _ _ _ _ _ _ _ _ _ ⟨cs, ih⟩ iht
    exact ⟨by
      intro u hu
      rcases List.mem_cons.mp hu with rfl | hu
      · exact ih.fits
      · exact iht.fits u hu, .cons ih.back.1 iht.ber, .cons ih.back.2 iht.der⟩
  · exact ⟨.nil, .nil, .nil⟩
  · rintro _ _ _ _ _ _ _ _ _ _ _ _ _ _ _ tag hv _ hr hs _ ⟨cs, ih⟩ iht
    obtain ⟨g1, g2, g3⟩ := sound_comesBack ih tag hr
    exact ⟨.cons ih.fits hv hs iht.fits, .required g1 iht.ber, .required g2 iht.der⟩
  · rintro _ _ _ _ _ _ _ _ _ _ _ _ _ _ _ tag x hv _ hr hs _ ⟨cs, ih⟩ iht
    obtain ⟨g1, g2, g3⟩ := sound_comesBack ih tag hr
    exact ⟨.cons ih.fits hv hs iht.fits, .default g1 (fun _ => g3) iht.ber, .default g2 (fun _ => g3) iht.der⟩
  · rintro k _ _ _ _ _ _ _ _ _ _ _ _ _ _ hn _ hdyn _ hr ⟨cs, ih⟩
    exact sound_here hn hdyn ih hr
  · intro k _ _ _ _ _ _ _ _ _ _ _ _ _ _ _ hb hd _ ih
    exact sound_there hb hd ih

end Asn1

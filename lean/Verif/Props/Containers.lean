import Verif.Proofs.Containers
/-!
# SEQUENCE OF and SET OF (C30, C31)
-/
namespace Asn1
open Spec Wr

variable {α β σ : Type}

/-! ### From items to lists -/

theorem fits_items {t : ToBer α} {vs : List α} (h : ∀ v ∈ vs, Fits t v) :
    ∃ bss, Pointwise (fun v bs => Exact t v bs ∧ t.toVec v = .ok bs ∧ bs ≠ []) vs bss :=
  pointwise_exists fun v hv => lengthsRight_exact (h v hv).lengths (h v hv).small (h v hv).tag

/-- The content of a list, its announced length, its size. -/
theorem list_items {t : ToBer α} {vs : List α} (h : ListFits t vs) :
    ∃ bss, Pointwise (Exact t) vs bss ∧
      Pointwise (fun v bs => t.toVec v = .ok bs ∧ bs ≠ []) vs bss ∧
      bss.flatten.length < 2 ^ 64 := by
  obtain ⟨bss, hb⟩ := fits_items h.1
  have h1 := pointwise_imp (fun _ _ h => h.1) hb
  refine ⟨bss, h1, pointwise_imp (fun _ _ h => h.2) hb, ?_⟩
  exact h.2 _ (list_encodes (tag := 16) (by decide) h1).len

theorem pointwise_diag {R : α → α → Prop} {vs : List α} (h : ∀ v ∈ vs, R v v) :
    Pointwise R vs vs := by
  induction vs with
  | nil => exact .nil
  | cons v vs ih => exact .cons (h v (by simp)) (ih fun w hw => h w (by simp [hw]))

/-- What the two parsers make of the list, given the content parser. -/
theorem list_back_input {γ : Type} {t : ToBer α} {tag : Nat} (htag : tag < 2 ^ 32) {vs : List α}
    {ws : List β} {f : Input → PRes β} {q : Parser γ} {F : List β → γ} (h : ListFits t vs)
    (hacc : q.acceptTag tag = true)
    (hq : ∀ h i e ws, h.constructed = true → Repeats f i ws e → q.content h i = .ok (e, F ws))
    (hb : Pointwise (InputBack t f) vs ws) :
    InputBack (listToBer tag t) q.parseBer vs (F ws) ∧
    InputBack (listToBer tag t) q.parseDer vs (F ws) := by
  obtain ⟨bss, h1, h2, h3⟩ := list_items h
  have := (list_encodes (tag := tag) htag h1).back (p := q) (w := F ws) h3 hacc
    fun a g1 g2 g3 g4 g5 => ⟨_, hq _ _ _ _ g2 (repeats_back h2 hb a.data g5)⟩
  exact ⟨this.1, this.2.1⟩

theorem list_back_bytes {t : ToBer α} {tag : Nat} (htag : tag < 2 ^ 32) {vs : List α}
    {ws : List β} {g : Bytes → Except SErr (Bytes × β)} (h : ListFits t vs)
    (hb : Pointwise (BytesBack t g) vs ws) :
    BytesBack (listToBer tag t) (fromBerWith (seqTryFrom tag g)) vs ws ∧
    BytesBack (listToBer tag t) (seqFromDer tag g) vs ws := by
  obtain ⟨bss, h1, h2, h3⟩ := list_items h
  have he := list_encodes (tag := tag) htag h1
  obtain ⟨h4, h5⟩ := repeatsB_back h2 hb
  have h6 : collectItems g bss.flatten = .ok ws := collect_ok_of h4 (by omega)
  refine ⟨⟨_, he.toVec h3, fun rest => ?_⟩, ⟨_, he.toVec h3, fun rest => ?_⟩⟩
  · obtain ⟨a, g1, g2, g3, g4, g5, g6, g7⟩ := he.any h3
      (i := Input.fromSlice ((listToBer tag t).fullOf vs bss.flatten ++ rest)) rfl
    exact fromBerWith_ok.mpr ⟨_, a, g1, by simp [Input.fromSlice],
      seqTryFrom_ok.mpr ⟨g5, g4, g7 ▸ h6⟩⟩
  · obtain ⟨a, g1, g2, g3, g4, g5, g6, g7⟩ := he.any h3
      (i := Input.fromSlice ((listToBer tag t).fullOf vs bss.flatten ++ rest)) rfl
    exact seqFromDer_ok.mpr ⟨_, a, g2, by simp [Input.fromSlice], g5, g7 ▸ h6⟩

/-! ### SEQUENCE OF -/

/-- **C30** A list of values, of any length, encodes as SEQUENCE OF to the right number of bytes; if
each value comes back from the decoder of the items, then the list comes back, in the same order,
from the decoders of `Vec` and `SequenceOf`, whatever follows. The items may come back as other
values than they were (`ws`); for `ws = vs` this is the round-trip.
Missing: items with 2^24 content octets or more (`C30_large_deviation`). -/
theorem C30_sequence_of_roundtrip_partial (t : ToBer α) (vs : List α) (h : ListFits t vs) (ws : List β) :
    LengthsRight (listToBer 16 t) vs ∧
    (∀ p : Parser β, Pointwise (InputBack t p.parseBer) vs ws →
      InputBack (listToBer 16 t) (vecBer p).parseBer vs ws ∧
      InputBack (listToBer 16 t) (sequenceOfP anyBer.parseBer p).parseBer vs ⟨ws⟩) ∧
    (∀ p : Parser β, Pointwise (InputBack t p.parseDer) vs ws →
      InputBack (listToBer 16 t) (vecDer p).parseDer vs ws ∧
      InputBack (listToBer 16 t) (sequenceOfP anyDer.parseDer p).parseDer vs ⟨ws⟩) ∧
    (∀ g : Bytes → Except SErr (Bytes × β), Pointwise (BytesBack t g) vs ws →
      BytesBack (listToBer 16 t) (fromBerWith (seqTryFrom 16 g)) vs ws ∧
      BytesBack (listToBer 16 t) (seqFromDer 16 g) vs ws) := by
  refine ⟨?_, fun p hb => ⟨?_, ?_⟩, fun p hb => ⟨?_, ?_⟩, fun g hb => ?_⟩
  · obtain ⟨bss, h1, h2, h3⟩ := list_items h
    exact (list_encodes (by decide) h1).lengths h3
  · exact (list_back_input (F := id) (by decide) h rfl
      (fun h i e ws hc hr => vecBer_content.mpr ⟨hc, hr⟩) hb).1
  · refine (list_back_input (F := SequenceOf.mk) (by decide) h rfl
      (fun h i e ws hc hr => ?_) hb).1
    exact bind_eq_ok.mpr ⟨(e, ws), vecBer_content.mpr ⟨hc, hr⟩, rfl⟩
  · exact (list_back_input (F := id) (by decide) h rfl
      (fun h i e ws hc hr => vecDer_content.mpr ⟨hc, hr⟩) hb).2
  · refine (list_back_input (F := SequenceOf.mk) (by decide) h rfl
      (fun h i e ws hc hr => ?_) hb).2
    exact bind_eq_ok.mpr ⟨(e, ws), vecDer_content.mpr ⟨hc, hr⟩, rfl⟩
  · exact list_back_bytes (by decide) h hb

theorem Works.fits {c : Codec α} {v : α} (h : UniversalValue c v) (hs : SmallContent c.enc v) :
    Fits c.enc v := by
  obtain ⟨cs, hw, hl, ht⟩ := universal_works h
  obtain ⟨n, hn, hlt⟩ := hs
  rw [hl] at hn; injection hn with hn
  exact ⟨hw.enc.lengths (by omega), ⟨_, hl, by omega⟩, hw.enc.tag⟩

/-- A case: `ListFits` for a list of `u16` with two items. -/
example : ListFits (uintToBer 2) [1, 300] := by
  refine ⟨fun v hv => ?_, fun n hn => ?_⟩
  · simp at hv
    rcases hv with rfl | rfl
    · exact Works.fits (c := uintC 2) (.uint 2 (by omega) (by decide)) ⟨1, by decide, by decide⟩
    · exact Works.fits (c := uintC 2) (.uint 2 (by omega) (by decide)) ⟨2, by decide, by decide⟩
  · have : (listToBer 16 (uintToBer 2)).contentLen [1, 300] = .definite 7 := by decide +kernel
    rw [this] at hn; injection hn; omega

/-- **C30** Lists of values of a universal type come back from all four decoders.
Missing: items with 2^24 content octets or more (`C30_large_deviation`). -/
theorem C30_sequence_of_universal_partial (c : Codec α) (vs : List α) (hu : ∀ v ∈ vs, UniversalValue c v)
    (hs : ∀ v ∈ vs, SmallContent c.enc v)
    (hn : ∀ n, (listToBer 16 c.enc).contentLen vs = .definite n → n < 2 ^ 64) :
    LengthsRight (listToBer 16 c.enc) vs ∧
    InputBack (listToBer 16 c.enc) (vecBer c.ber).parseBer vs vs ∧
    InputBack (listToBer 16 c.enc) (vecDer c.der).parseDer vs vs ∧
    BytesBack (listToBer 16 c.enc) (fromBerWith (seqTryFrom 16 (fromBer c.ber))) vs vs ∧
    BytesBack (listToBer 16 c.enc) (seqFromDer 16 (fromDer c.ber c.check)) vs vs := by
  have hb : ∀ v ∈ vs, InputBack c.enc c.ber.parseBer v v ∧ InputBack c.enc c.der.parseDer v v ∧
      BytesBack c.enc (fromBer c.ber) v v ∧ BytesBack c.enc (fromDer c.ber c.check) v v := by
    intro v hv
    obtain ⟨cs, hw, hl, ht⟩ := universal_works (hu v hv)
    obtain ⟨n, hn, hlt⟩ := hs v hv
    rw [hl] at hn; injection hn with hn
    exact hw.back (by omega)
  obtain ⟨h1, h2, h3, h4⟩ := C30_sequence_of_roundtrip_partial c.enc vs
    ⟨fun v hv => Works.fits (hu v hv) (hs v hv), hn⟩ vs
  exact ⟨h1, (h2 _ (pointwise_diag fun v hv => (hb v hv).1)).1,
    (h3 _ (pointwise_diag fun v hv => (hb v hv).2.1)).1,
    (h4 _ (pointwise_diag fun v hv => (hb v hv).2.2.1)).1,
    (h4 _ (pointwise_diag fun v hv => (hb v hv).2.2.2)).2⟩

/-- A case: a list of `u16` with two items. -/
example : (∀ v ∈ [1, 300], UniversalValue (uintC 2) v) ∧ (∀ v ∈ [1, 300], SmallContent (uintC 2).enc v) ∧
    (listToBer 16 (uintC 2).enc).contentLen [1, 300] = .definite 7 := by
  refine ⟨?_, ?_, by decide +kernel⟩
  · intro v hv; simp at hv; rcases hv with rfl | rfl <;> exact .uint 2 (by omega) (by decide)
  · intro v hv; simp at hv
    rcases hv with rfl | rfl
    · exact ⟨1, by decide, by decide⟩
    · exact ⟨2, by decide, by decide⟩

/-- **C30** Lists of lists: a list whose content is small can be an item in its turn, so that the
theorem above applies to it. -/
theorem C30_nested (t : ToBer α) (vs : List α) (h : ∀ v ∈ vs, Fits t v) (tag : Nat)
    (htag : tag < 2 ^ 32)
    (hn : ∀ n, (listToBer tag t).contentLen vs = .definite n → n < 2 ^ 24) :
    Fits (listToBer tag t) vs := by
  obtain ⟨bss, hb⟩ := fits_items h
  have he := list_encodes htag (pointwise_imp (fun _ _ h => h.1) hb)
  have := hn _ he.len
  exact ⟨he.lengths (by omega), ⟨_, he.len, this⟩, htag⟩

/-- A case: SEQUENCE OF (SEQUENCE OF INTEGER). -/
example : (∀ v ∈ [1, 258], UniversalValue (uintC 4) v) ∧
    (∀ v ∈ [1, 258], SmallContent (uintC 4).enc v) ∧
    Fits (listToBer 16 (uintToBer 4)) [1, 258] ∧
    ListFits (listToBer 16 (uintToBer 4)) [[1, 258], []] ∧
    (listToBer 16 (listToBer 16 (uintToBer 4))).toVec [[1, 258], []] =
      .ok [0x30, 0x0b, 0x30, 0x07, 0x02, 0x01, 0x01, 0x02, 0x02, 0x01, 0x02, 0x30, 0x00] ∧
    seqFromDer 16 (seqFromDer 16 (fromDer (uintBer 4) checkDerInt))
      [0x30, 0x0b, 0x30, 0x07, 0x02, 0x01, 0x01, 0x02, 0x02, 0x01, 0x02, 0x30, 0x00] =
      .ok ([], [[1, 258], []]) := by
  have hu : ∀ v ∈ [1, 258], UniversalValue (uintC 4) v := by
    intro v hv; simp at hv; rcases hv with rfl | rfl <;> exact .uint 4 (by omega) (by decide)
  have hs : ∀ v ∈ [1, 258], SmallContent (uintC 4).enc v := by
    intro v hv; simp at hv
    rcases hv with rfl | rfl
    · exact ⟨1, by decide, by decide⟩
    · exact ⟨2, by decide, by decide⟩
  have hf : Fits (listToBer 16 (uintToBer 4)) [1, 258] :=
    C30_nested (uintToBer 4) _ (fun v hv => Works.fits (hu v hv) (hs v hv)) 16 (by decide) (by
      intro n hn
      have : (listToBer 16 (uintToBer 4)).contentLen [1, 258] = .definite 7 := by decide +kernel
      rw [this] at hn; injection hn; omega)
  have hf' : Fits (listToBer 16 (uintToBer 4)) [] :=
    C30_nested (uintToBer 4) _ (by simp) 16 (by decide) (by
      intro n hn
      have : (listToBer 16 (uintToBer 4)).contentLen [] = .definite 0 := by decide +kernel
      rw [this] at hn; injection hn; omega)
  refine ⟨hu, hs, hf, ⟨?_, ?_⟩, by decide +kernel, by decide +kernel⟩
  · intro v hv
    simp at hv
    rcases hv with rfl | rfl
    · exact hf
    · exact hf'
  · intro n hn
    have : (listToBer 16 (listToBer 16 (uintToBer 4))).contentLen [[1, 258], []] =
      .definite 11 := by decide +kernel
    rw [this] at hn; injection hn; omega

/-- **C30** Exactly what the decoders of `Vec` accept: the tag of SEQUENCE; constructed, except for
`from_der`; a content that splits, without remainder, into items the item decoder accepts; the
values are those of the items, in order. -/
theorem C30_sequence_of_accepts :
    (∀ (p : Parser α) (i r : Input) (vs : List α),
      (vecBer p).parseBer i = .ok (r, vs) ↔ ∃ a e, parseBerAny i = .ok (r, a) ∧
        a.header.tag = 16 ∧ a.header.constructed = true ∧ Repeats p.parseBer a.data vs e) ∧
    (∀ (p : Parser α) (i r : Input) (vs : List α),
      (vecDer p).parseDer i = .ok (r, vs) ↔ ∃ a e, parseDerAny i = .ok (r, a) ∧
        a.header.tag = 16 ∧ a.header.constructed = true ∧ Repeats p.parseDer a.data vs e) ∧
    (∀ (g : Bytes → Except SErr (Bytes × α)) (bytes rem : Bytes) (vs : List α), EndsIn g →
      (fromBerWith (seqTryFrom 16 g) bytes = .ok (rem, vs) ↔
        ∃ r a, parseBerAny (Input.fromSlice bytes) = .ok (r, a) ∧ r.data = rem ∧
          a.header.tag = 16 ∧ a.header.constructed = true ∧ RepeatsB g a.data.data vs) ∧
      (seqFromDer 16 g bytes = .ok (rem, vs) ↔
        ∃ r a, parseDerAny (Input.fromSlice bytes) = .ok (r, a) ∧ r.data = rem ∧
          a.header.tag = 16 ∧ RepeatsB g a.data.data vs)) := by
  refine ⟨fun p i r vs => ?_, fun p i r vs => ?_, fun g bytes rem vs hg => ⟨?_, ?_⟩⟩
  · rw [parseBer_ok]
    constructor
    · rintro ⟨a, e, h1, h2, h3⟩
      obtain ⟨h4, h5⟩ := vecBer_content.mp h3
      exact ⟨a, e, h1, tagIs_iff.mp h2, h4, h5⟩
    · rintro ⟨a, e, h1, h2, h4, h5⟩
      exact ⟨a, e, h1, tagIs_iff.mpr h2, vecBer_content.mpr ⟨h4, h5⟩⟩
  · rw [parseDer_ok]
    constructor
    · rintro ⟨a, e, h1, h2, h3⟩
      obtain ⟨h4, h5⟩ := vecDer_content.mp h3
      exact ⟨a, e, h1, tagIs_iff.mp h2, h4, h5⟩
    · rintro ⟨a, e, h1, h2, h4, h5⟩
      exact ⟨a, e, h1, tagIs_iff.mpr h2, vecDer_content.mpr ⟨h4, h5⟩⟩
  · rw [fromBerWith_ok]
    constructor
    · rintro ⟨r, a, h1, h2, h3⟩
      obtain ⟨h4, h5, h6⟩ := seqTryFrom_ok.mp h3
      exact ⟨r, a, h1, h2, h4, h5, (collectItems_ok hg).mp h6⟩
    · rintro ⟨r, a, h1, h2, h4, h5, h6⟩
      exact ⟨r, a, h1, h2, seqTryFrom_ok.mpr ⟨h4, h5, (collectItems_ok hg).mpr h6⟩⟩
  · rw [seqFromDer_ok]
    constructor
    · rintro ⟨r, a, h1, h2, h4, h6⟩
      exact ⟨r, a, h1, h2, h4, (collectItems_ok hg).mp h6⟩
    · rintro ⟨r, a, h1, h2, h4, h6⟩
      exact ⟨r, a, h1, h2, h4, (collectItems_ok hg).mpr h6⟩

/-- The decoders of the modelled types return the end of their input. -/
theorem C30_ends_in :
    (∀ p : Parser α, EndsIn (fromBer p)) ∧
    (∀ (p : Parser α) check, EndsIn (fromDer p check)) ∧
    (∀ f : Any → Except SErr α, EndsIn (fromBerWith f)) ∧
    (∀ tag (g : Bytes → Except SErr (Bytes × α)), EndsIn (seqFromDer tag g)) ∧
    (∀ cls tag (g : Bytes → Except SErr (Bytes × α)), EndsIn (explicitFromDer cls tag g)) ∧
    (∀ cls tag it (f : Any → Except SErr α), EndsIn (implicitFromDer cls tag it f)) :=
  ⟨endsIn_fromBer, endsIn_fromDer, endsIn_fromBerWith, endsIn_seqFromDer, endsIn_explicitFromDer,
    endsIn_implicitFromDer⟩

/-- **C30** Deviations. `from_der` of a `Vec` (and of `SequenceOf`, `SetOf`) takes a primitive object
for a SEQUENCE OF, which the other decoders refuse. -/
theorem C30_primitive_deviation :
    seqFromDer 16 (fromDer (uintBer 4) checkDerInt) [0x10, 0x03, 0x02, 0x01, 0x05] =
      .ok ([], [5]) ∧
    (fromBerWith (seqTryFrom 16 (fromBer (uintBer 4))) [0x10, 0x03, 0x02, 0x01, 0x05]).isOk =
      false ∧
    ((vecDer (uintDer 4)).parseDer (Input.fromSlice [0x10, 0x03, 0x02, 0x01, 0x05])).isOk =
      false := by
  decide +kernel

/-- **C30** The class of the object is not looked at: any class with the number 16 will do. -/
theorem C30_class_deviation :
    seqFromDer 16 (fromDer (uintBer 4) checkDerInt) [0xb0, 0x03, 0x02, 0x01, 0x05] =
      .ok ([], [5]) ∧
    (vecDer (uintDer 4)).parseDer (Input.fromSlice [0xb0, 0x03, 0x02, 0x01, 0x05]) =
      .ok (after (Input.fromSlice [0xb0, 0x03, 0x02, 0x01, 0x05]) 5, [5]) := by
  decide +kernel

/-! ### SET OF -/

/-- **C31** The same for `SetOf`, with the tag of SET: the list comes back in the same order.
Missing: items with 2^24 content octets or more; the DER order of the items (`C31_der_order_deviation`). -/
theorem C31_set_of_roundtrip_partial (t : ToBer α) (vs : List α) (h : ListFits t vs) (ws : List β) :
    LengthsRight (listToBer 17 t) vs ∧
    (∀ p : Parser β, Pointwise (InputBack t p.parseBer) vs ws →
      InputBack (listToBer 17 t) (setOfP anyBer.parseBer p).parseBer vs ⟨ws⟩) ∧
    (∀ p : Parser β, Pointwise (InputBack t p.parseDer) vs ws →
      InputBack (listToBer 17 t) (setOfP anyDer.parseDer p).parseDer vs ⟨ws⟩) ∧
    (∀ g : Bytes → Except SErr (Bytes × β), Pointwise (BytesBack t g) vs ws →
      BytesBack (listToBer 17 t) (fromBerWith (seqTryFrom 17 g)) vs ws ∧
      BytesBack (listToBer 17 t) (seqFromDer 17 g) vs ws) := by
  refine ⟨?_, fun p hb => ?_, fun p hb => ?_, fun g hb => ?_⟩
  · obtain ⟨bss, h1, h2, h3⟩ := list_items h
    exact (list_encodes (by decide) h1).lengths h3
  · refine (list_back_input (F := SetOf.mk) (by decide) h rfl
      (fun h i e ws hc hr => ?_) hb).1
    exact map_content.mpr ⟨ws, setItemsBer_content.mpr ⟨hc, hr⟩, rfl⟩
  · refine (list_back_input (F := SetOf.mk) (by decide) h rfl
      (fun h i e ws hc hr => ?_) hb).2
    exact map_content.mpr ⟨ws, setItemsDer_content.mpr ⟨hc, hr⟩, rfl⟩
  · exact list_back_bytes (by decide) h hb

/-- A case: a `SetOf<u16>` with two items. -/
example : (listToBer 17 (uintToBer 2)).toVec [300, 1] = .ok [0x31, 7, 2, 2, 1, 0x2c, 2, 1, 1] ∧
    ((setOfP anyDer.parseDer (uintDer 2)).parseDer (Input.fromSlice [0x31, 7, 2, 2, 1, 0x2c, 2, 1, 1, 9])).map
      (fun x => (x.1.data, x.2.items)) = .ok ([9], [300, 1]) := by decide +kernel

/-- **C31** `BTreeSet` and `HashSet`: encoding a set and decoding gives a set that is equal to it,
whatever the order in which the set yields its elements.
Missing: items with 2^24 content octets or more; the DER order of the items (`C31_btree_order_deviation`). -/
theorem C31_set_roundtrip_partial (S : SetImpl α σ) (t : ToBer α) (s : σ) (h : ListFits t (S.toList s)) :
    ∃ s', S.eqv s s' ∧ (∀ x, x ∈ S.toList s' ↔ x ∈ S.toList s) ∧
    LengthsRight (setToBer S t) s ∧
    (∀ p : Parser α, (∀ v ∈ S.toList s, InputBack t p.parseBer v v) →
      InputBack (setToBer S t) (setP S anyBer.parseBer p).parseBer s s') ∧
    (∀ p : Parser α, (∀ v ∈ S.toList s, InputBack t p.parseDer v v) →
      InputBack (setToBer S t) (setP S anyDer.parseDer p).parseDer s s') ∧
    (∀ g : Bytes → Except SErr (Bytes × α), (∀ v ∈ S.toList s, BytesBack t g v v) →
      BytesBack (setToBer S t) (fromBerWith (setTryFrom S g)) s s' ∧
      BytesBack (setToBer S t) (setFromDer S g) s s') := by
  refine ⟨S.ofList (S.toList s), (S.eqv_iff _ _).mpr fun x => (S.mem _ x).symm, S.mem _,
    ?_, fun p hb => ?_, fun p hb => ?_, fun g hb => ?_⟩
  · obtain ⟨bss, h1, h2, h3⟩ := list_items h
    exact (list_encodes (tag := 17) (by decide) h1).lengths h3
  · refine (list_back_input (tag := 17) (q := setP S anyBer.parseBer p) (F := S.ofList) (by decide)
      h rfl (fun h i e ws hc hr => ?_) (pointwise_diag hb)).1
    exact map_content.mpr ⟨ws, setItemsBer_content.mpr ⟨hc, hr⟩, rfl⟩
  · refine (list_back_input (tag := 17) (q := setP S anyDer.parseDer p) (F := S.ofList) (by decide)
      h rfl (fun h i e ws hc hr => ?_) (pointwise_diag hb)).2
    exact map_content.mpr ⟨ws, setItemsDer_content.mpr ⟨hc, hr⟩, rfl⟩
  · obtain ⟨bss, h1, h2, h3⟩ := list_items h
    have he := list_encodes (tag := 17) (by decide) h1
    obtain ⟨h4, h5⟩ := repeatsB_back h2 (pointwise_diag hb)
    have h6 : collectItems g bss.flatten = .ok (S.toList s) := collect_ok_of h4 (by omega)
    refine ⟨⟨_, he.toVec h3, fun rest => ?_⟩, ⟨_, he.toVec h3, fun rest => ?_⟩⟩
    · obtain ⟨a, g1, g2, g3, g4, g5, g6, g7⟩ := he.any h3
        (i := Input.fromSlice ((listToBer 17 t).fullOf (S.toList s) bss.flatten ++ rest)) rfl
      refine fromBerWith_ok.mpr ⟨_, a, g1, by simp [Input.fromSlice], ?_⟩
      exact bindS_eq_ok.mpr ⟨(), assertTagS_ok.mpr g5, bindS_eq_ok.mpr
        ⟨(), assertConstructedS_ok.mpr g4, bindS_eq_ok.mpr ⟨_, g7 ▸ h6, rfl⟩⟩⟩
    · obtain ⟨a, g1, g2, g3, g4, g5, g6, g7⟩ := he.any h3
        (i := Input.fromSlice ((listToBer 17 t).fullOf (S.toList s) bss.flatten ++ rest)) rfl
      exact bindS_eq_ok.mpr ⟨(_, a), wrapBerParser_ok.mpr ⟨_, g2, rfl⟩, bindS_eq_ok.mpr
        ⟨(), assertTagS_ok.mpr g5, bindS_eq_ok.mpr ⟨(), assertConstructedS_ok.mpr g4,
          bindS_eq_ok.mpr ⟨_, g7 ▸ h6, by simp [Input.fromSlice, pure, Except.pure]⟩⟩⟩⟩

end Asn1

import Verif.Proofs.AnyMethods
import Verif.Props.BuiltValue
/-!
# EMBEDDED PDV (C89)
-/
namespace Asn1
open Spec

variable {α : Type}

theorem any_content {i r : Input} {a : Any} (h : parseBerAny i = .ok (r, a)) :
    ∃ x, anyBer.content a.header a.data = .ok (x, a) := by
  have h0 := h
  rw [← anyBer_parseBer] at h
  obtain ⟨a', x, h1, _, h2⟩ := parseBer_ok.mp h
  rw [h0] at h1
  injection h1 with h1
  injection h1 with _ h1
  subst h1
  exact ⟨x, h2⟩

theorem contextBer_ok {tag : Nat} {p : Parser α} {i r : Input} {v : TaggedValue α} :
    contextBer tag p i = .ok (r, v) ↔ ∃ a x, parseBerAny i = .ok (r, a) ∧ Context tag a ∧
      p.content a.header a.data = .ok (x, v.inner) := by
  unfold contextBer Context
  rw [((C29_implicit_accepts .contextSpecific tag 0).1 p i r v).1]
  constructor
  · rintro ⟨a, x, h1, h2, h3, h4⟩; exact ⟨a, x, h1, ⟨h2, h3⟩, h4⟩
  · rintro ⟨a, x, h1, ⟨h2, h3⟩, h4⟩; exact ⟨a, x, h1, h2, h3, h4⟩

theorem contextAny_ok {tag : Nat} {i r : Input} {v : TaggedValue Any} :
    contextBer tag anyBer i = .ok (r, v) ↔ parseBerAny i = .ok (r, v.inner) ∧ Context tag v.inner := by
  rw [contextBer_ok]
  constructor
  · rintro ⟨a, x, h1, h2, h3⟩
    obtain ⟨y, hy⟩ := any_content h1
    rw [h3] at hy
    injection hy with hy
    injection hy with _ hy
    rw [hy]
    exact ⟨h1, h2⟩
  · rintro ⟨h1, h2⟩
    obtain ⟨y, hy⟩ := any_content h1
    exact ⟨_, y, h1, h2, hy⟩

theorem contextOid_ok {tag : Nat} {i r : Input} {v : TaggedValue Oid} :
    contextBer tag oidP i = .ok (r, v) ↔ ∃ a x, parseBerAny i = .ok (r, a) ∧ ContextOid tag a x ∧
      v.inner = ⟨x, false⟩ := by
  rw [contextBer_ok]
  unfold ContextOid
  constructor
  · rintro ⟨a, x, h1, h2, h3⟩
    obtain ⟨h4, h5, h6, _⟩ := oidContent_ok.mp h3
    exact ⟨a, _, h1, ⟨h2, h4, rfl, h5⟩, h6⟩
  · rintro ⟨a, x, h1, ⟨h2, h4, rfl, h5⟩, h6⟩
    exact ⟨a, _, h1, h2, oidContent_ok.mpr ⟨h4, h5, h6, rfl⟩⟩

theorem sliceContent_ok {h : Header} {i r : Input} {v : Bytes} : sliceContent h i = .ok (r, v) ↔
    h.constructed = false ∧ r = after i i.data.length ∧ v = i.data := by
  unfold sliceContent
  cases h.constructed with
  | true => simp [nomErr]
  | false =>
    simp only [Bool.false_eq_true, if_false, true_and]
    rw [takeSplit_eq, if_pos (by simp [Input.len])]
    simp [Input.len, eq_comm]

theorem contextSlice_ok {tag : Nat} {i r : Input} {v : TaggedValue Bytes} :
    contextBer tag sliceBer i = .ok (r, v) ↔ ∃ a, parseBerAny i = .ok (r, a) ∧ Context tag a ∧
      a.header.constructed = false ∧ v.inner = a.data.data := by
  rw [contextBer_ok]
  constructor
  · rintro ⟨a, x, h1, h2, h3⟩
    obtain ⟨h4, _, h5⟩ := sliceContent_ok.mp h3
    exact ⟨a, h1, h2, h4, h5⟩
  · rintro ⟨a, h1, h2, h3, h4⟩
    exact ⟨a, _, h1, h2, sliceContent_ok.mpr ⟨h3, rfl, h4⟩⟩

theorem contextText_ok {tag : Nat} {i r : Input} {v : TaggedValue Text} :
    (implicitP .contextSpecific tag (strBer objectDescriptorK)).parseBer i = .ok (r, v) ↔
      ∃ a, parseBerAny i = .ok (r, a) ∧ Context tag a ∧
      StringBytes a.header.constructed a.data.data (Text.utf8 v.inner) ∧
        ∀ c ∈ v.inner, asciiChar c = true := by
  rw [show (implicitP .contextSpecific tag (strBer objectDescriptorK)).parseBer i =
    contextBer tag (strBer objectDescriptorK) i from rfl, contextBer_ok]
  constructor
  · rintro ⟨a, x, h1, h2, h3⟩
    exact ⟨a, h1, h2, (str_contents .objectDescriptor a.header a.data _ (consistent_ber h1)).mp ⟨x, h3⟩⟩
  · rintro ⟨a, h1, h2, h3⟩
    obtain ⟨x, h4⟩ := (str_contents .objectDescriptor a.header a.data _ (consistent_ber h1)).mpr h3
    exact ⟨a, x, h1, h2, h4⟩

theorem berAny_header {i r : Input} {a : Any} (h : parseBerAny i = .ok (r, a)) :
    i.data ≠ [] ∧ ∃ r1, parseHeader i = .ok (r1, a.header) := by
  obtain ⟨r1, h1, _⟩ := parseBerAny_ok.mp h
  refine ⟨fun h0 => ?_, r1, h1⟩
  obtain ⟨e, h4, h5, h6, h7⟩ := parseBerAny_local h
  rw [h0] at h5
  have := congrArg List.length h5
  simp only [List.length_nil, List.length_append] at this
  omega

theorem pdvContent_ok {h : Header} {i r : Input} {v : EmbeddedPdv} :
    pdvContent h i = .ok (r, v) ↔ PdvRead i r v := by
  unfold pdvContent PdvRead
  constructor
  · intro hh
    obtain ⟨⟨r0, t0⟩, h1, h2⟩ := bind_eq_ok.mp hh
    obtain ⟨id, h3, h4⟩ := bind_eq_ok.mp h2
    obtain ⟨⟨r1, t1⟩, h5, h6⟩ := bind_eq_ok.mp h4
    obtain ⟨⟨r2, t2⟩, h7, h8⟩ := bind_eq_ok.mp h6
    injection h8 with h8
    injection h8 with h8 h9
    subst h8 h9
    obtain ⟨a1, a2⟩ := contextAny_ok.mp h1
    obtain ⟨d, d1, d2, d3, d4⟩ := contextSlice_ok.mp h7
    have ht : t0.inner.header.tag = 0 := a2.2
    unfold pdvIdentification at h3
    rw [ht] at h3
    simp only at h3
    cases hp : pdvPair oidP oidP t0.inner.data with
    | error e => rw [hp] at h3; cases h3
    | ok xy =>
      rw [hp] at h3
      injection h3 with h3
      subst h3
      unfold pdvPair at hp
      obtain ⟨⟨r0', o0⟩, b1, b2⟩ := bind_eq_ok.mp hp
      obtain ⟨⟨r1', o1⟩, b3, b4⟩ := bind_eq_ok.mp b2
      injection b4 with b4
      subst b4
      obtain ⟨p0, x, c1, c2, c3⟩ := contextOid_ok.mp b1
      obtain ⟨p1, y, c4, c5, c6⟩ := contextOid_ok.mp b3
      refine ⟨r0, t0.inner, p0, r0', p1, r1', r1, d, x, y, a1, a2, c1, c2, c4, c5, ?_, ?_, d1, d2, d3, d4⟩
      · show PdvIdentification.syntaxes o0.inner o1.inner = _
        rw [c3, c6]
      · show (t1.map (·.inner) = none ∧ r1 = r0) ∨ _
        by_cases hne : r0.data = []
        · rw [((C35_option_parse_partial _ r0).1 hne).1] at h5
          injection h5 with h5
          injection h5 with h5 h5'
          subst h5 h5'
          exact .inl ⟨rfl, rfl⟩
        · obtain ⟨g1, g2⟩ := (C35_option_parse_partial (implicitP .contextSpecific 1
            (strBer objectDescriptorK)) r0).2.1 hne
          cases hhd : parseHeader r0 with
          | error e => rw [g2 e hhd] at h5; cases h5
          | ok x =>
            obtain ⟨rr, hd⟩ := x
            obtain ⟨g3, g4⟩ := g1 rr hd hhd
            cases hacc : (implicitP .contextSpecific 1 (strBer objectDescriptorK)).acceptTag hd.tag with
            | false =>
              rw [g3 hacc] at h5
              injection h5 with h5
              injection h5 with h5 h5'
              subst h5 h5'
              exact .inl ⟨rfl, rfl⟩
            | true =>
              by_cases hi : hd.length = .indefinite
              · have := C35_indefinite_deviation _ r0 rr hd hne hhd hacc hi
                rw [h5] at this
                cases this
              · rw [g4 hacc hi] at h5
                cases hpp : (implicitP .contextSpecific 1 (strBer objectDescriptorK)).parseBer r0 with
                | error e => rw [hpp] at h5; cases h5
                | ok z =>
                  obtain ⟨z1, z2⟩ := z
                  rw [hpp] at h5
                  injection h5 with h5
                  injection h5 with h5 h5'
                  subst h5 h5'
                  obtain ⟨q, q1, q2, q3⟩ := contextText_ok.mp hpp
                  refine .inr ⟨q, z2.inner, rfl, q1, q2, ?_, q3.1, q3.2⟩
                  obtain ⟨_, w, hw⟩ := berAny_header q1
                  rw [hhd] at hw
                  injection hw with hw
                  injection hw with _ hw
                  rw [← hw]
                  exact hi
  · rintro ⟨r0, a0, o0, r0', o1, r1', r1, a2, x, y, h1, h2, h3, h4, h5, h6, h7, h8, h9, h10, h11, h12⟩
    have e0 : contextBer 0 anyBer i = .ok (r0, ⟨a0⟩) := contextAny_ok.mpr ⟨h1, h2⟩
    have e1 : pdvIdentification a0 = .ok (.syntaxes ⟨x, false⟩ ⟨y, false⟩) := by
      unfold pdvIdentification
      rw [h2.2]
      simp only
      have : pdvPair oidP oidP a0.data = .ok (⟨x, false⟩, ⟨y, false⟩) := by
        unfold pdvPair
        refine bind_eq_ok.mpr ⟨(r0', ⟨⟨x, false⟩⟩), contextOid_ok.mpr ⟨o0, x, h3, h4, rfl⟩, ?_⟩
        exact bind_eq_ok.mpr ⟨(r1', ⟨⟨y, false⟩⟩), contextOid_ok.mpr ⟨o1, y, h5, h6, rfl⟩, rfl⟩
      rw [this]
      rfl
    have e2 : contextBer 2 sliceBer r1 = .ok (r, ⟨v.dataValue⟩) :=
      contextSlice_ok.mpr ⟨a2, h9, h10, h11, h12⟩
    have e3 : ∃ t1 : Option (TaggedValue Text), optionParse parseHeader (implicitP .contextSpecific 1
        (strBer objectDescriptorK)) r0 = .ok (r1, t1) ∧ t1.map (·.inner) = v.dataValueDescriptor := by
      obtain ⟨k1, w, hw⟩ := berAny_header h9
      rcases h8 with ⟨g1, rfl⟩ | ⟨a1, s, g1, g2, g3, g4, g5, g6⟩
      · refine ⟨none, ?_, g1.symm⟩
        have := ((C35_option_parse_partial (implicitP .contextSpecific 1
            (strBer objectDescriptorK)) r1).2.1 k1).1 w _ hw
        refine this.1 ?_
        rw [h10.2]
        rfl
      · refine ⟨some ⟨s⟩, ?_, g1.symm⟩
        obtain ⟨k2, w', hw'⟩ := berAny_header g2
        have := (((C35_option_parse_partial (implicitP .contextSpecific 1
            (strBer objectDescriptorK)) r0).2.1 k2).1 w' _ hw').2 (by rw [g3.2]; rfl) g4
        rw [this, (contextText_ok (v := ⟨s⟩)).mpr ⟨a1, g2, g3, g5, g6⟩]
        rfl
    obtain ⟨t1, e3, e4⟩ := e3
    refine bind_eq_ok.mpr ⟨_, e0, bind_eq_ok.mpr ⟨_, e1, bind_eq_ok.mpr ⟨_, e3, bind_eq_ok.mpr ⟨_, e2, ?_⟩⟩⟩⟩
    obtain ⟨v1, v2, v3⟩ := v
    subst h7 e4
    rfl

/-- **C89** What the BER and DER parsers, `from_ber` and `from_der` accept as an EMBEDDED PDV, exactly. -/
theorem C89_pdv_accepts (v : EmbeddedPdv) :
    (∀ i r, pdvP.parseBer i = .ok (r, v) ↔ ∃ a e, parseBerAny i = .ok (r, a) ∧ a.header.tag = 11 ∧
      PdvRead a.data e v) ∧
    (∀ i r, pdvP.parseDer i = .ok (r, v) ↔ ∃ a e, parseDerAny i = .ok (r, a) ∧ a.header.tag = 11 ∧
      PdvRead a.data e v) ∧
    (∀ bs rem, fromBer pdvP bs = .ok (rem, v) ↔ ∃ r a e, parseBerAny (Input.fromSlice bs) = .ok (r, a) ∧
      r.data = rem ∧ a.header.tag = 11 ∧ PdvRead a.data e v) ∧
    (∀ bs rem, fromDer pdvP pdvCheck bs = .ok (rem, v) ↔ ∃ r a e,
      parseDerAny (Input.fromSlice bs) = .ok (r, a) ∧ r.data = rem ∧ a.header.tag = 11 ∧
      a.header.constructed = true ∧ PdvRead a.data e v) := by
  have ht : ∀ t, pdvP.acceptTag t = true ↔ t = 11 := fun _ => tagIs_iff
  have hc : ∀ h i r, pdvP.content h i = .ok (r, v) ↔ PdvRead i r v := fun h _ _ => pdvContent_ok (h := h)
  refine ⟨fun i r => ?_, fun i r => ?_, fun bs rem => ?_, fun bs rem => ?_⟩
  · rw [parseBer_ok]; simp only [ht, hc]
  · rw [parseDer_ok]; simp only [ht, hc]
  · rw [fromBer_ok]; simp only [ht, hc]
  · rw [fromDer_ok]
    constructor
    · rintro ⟨r, a, x, h1, h2, h3, h4, h5⟩
      refine ⟨r, a, x, h1, h2, (ht _).mp h4, ?_, (hc _ _ _).mp h5⟩
      obtain ⟨_, _, h7⟩ := bindS_eq_ok.mp h3
      unfold assertConstructedS at h7
      cases hcc : a.header.constructed
      · rw [hcc] at h7; cases h7
      · rfl
    · rintro ⟨r, a, e, h1, h2, h3, h4, h5⟩
      refine ⟨r, a, e, h1, h2, ?_, (ht _).mpr h3, (hc _ _ _).mpr h5⟩
      refine bindS_eq_ok.mpr ⟨(), ?_, ?_⟩
      · unfold assertDefiniteS
        rw [derAny_definite h1]
        rfl
      · unfold assertConstructedS
        rw [h4]
        rfl

/-- **C89** A case: two OBJECT IDENTIFIERs, a descriptor, two bytes of data; and the same without descriptor. -/
example :
    fromDer pdvP pdvCheck [0x2b, 0x0e, 0xa0, 0x06, 0x80, 0x01, 0x2a, 0x81, 0x01, 0x2b, 0x81, 0x01, 0x61,
      0x82, 0x01, 0x07, 0xff] =
      .ok (([0xff] : Bytes), (⟨.syntaxes ⟨[0x2a], false⟩ ⟨[0x2b], false⟩, some ['a'], [7]⟩ : EmbeddedPdv)) ∧
    fromBer pdvP [0x2b, 0x0b, 0xa0, 0x06, 0x80, 0x01, 0x2a, 0x81, 0x01, 0x2b, 0x82, 0x01, 0x07] =
      .ok (([] : Bytes), (⟨.syntaxes ⟨[0x2a], false⟩ ⟨[0x2b], false⟩, none, [7]⟩ : EmbeddedPdv)) := by
  decide +kernel

/-- **C89** The DER parser accepts nothing that the BER parser does not. -/
theorem C89_der_subset (i r : Input) (v : EmbeddedPdv) (h : pdvP.parseDer i = .ok (r, v)) :
    pdvP.parseBer i = .ok (r, v) := by
  obtain ⟨a, e, h1, h2⟩ := ((C89_pdv_accepts v).2.1 i r).mp h
  exact ((C89_pdv_accepts v).1 i r).mpr ⟨a, e, C11_der_subset_ber_any _ _ _ h1, h2⟩

/-- A case. -/
example : pdvP.parseBer (Input.fromSlice [0x2b, 0x0b, 0xa0, 0x06, 0x80, 0x01, 0x2a, 0x81, 0x01, 0x2b, 0x82, 0x01, 0x07]) =
    .ok (⟨[], 13, 13⟩, ⟨.syntaxes ⟨[0x2a], false⟩ ⟨[0x2b], false⟩, none, [7]⟩) :=
  C89_der_subset _ _ _ (by decide +kernel)

/-- **C89** No panic, no endless loop, on any input. -/
theorem C89_pdv_no_panic (i : Input) (a : Any) (bs : Bytes) :
    NoPanic (pdvP.parseBer i) ∧ NoPanic (pdvP.parseDer i) ∧ NoPanicS (fromBer pdvP bs) ∧
    NoPanicS (fromDer pdvP pdvCheck bs) ∧ NoPanicS (tryFromAny pdvP a) := by
  refine ⟨safe_parseBer safe_pdv i, safe_parseDer safe_pdv i, safe_fromBer safe_pdv bs,
    safe_fromDer safe_pdv (fun a => ?_) bs, safe_tryFromAny safe_pdv a⟩
  unfold pdvCheck assertDefiniteS assertConstructedS
  cases a.header.length.isDefinite <;> cases a.header.constructed <;>
    simp [Bind.bind, Except.bind]

/-- **C89** Deviation: only the first alternative of `identification` is ever returned. -/
theorem C89_pdv_only_syntaxes (i r : Input) (v : EmbeddedPdv) (h : pdvP.parseBer i = .ok (r, v)) :
    ∃ x y, v.identification = .syntaxes ⟨x, false⟩ ⟨y, false⟩ := by
  obtain ⟨a, e, _, _, _, _, _, _, _, _, _, _, x, y, _, _, _, _, _, _, h7, _⟩ :=
    ((C89_pdv_accepts v).1 i r).mp h
  exact ⟨x, y, h7⟩

/-- **C89** Deviation: an EMBEDDED PDV as X.680 defines it, with an explicit tag around the CHOICE, is refused by
all decoders, whatever its alternative. -/
theorem C89_pdv_standard_refused (a : Any) (h : ExplicitIdentification a.data) :
    (∀ hd, (pdvP.content hd a.data).isOk = false) ∧ (tryFromAny pdvP a).isOk = false ∧
    (∀ i r, parseBerAny i = .ok (r, a) → (pdvP.parseBer i).isOk = false) ∧
    (∀ i r, parseDerAny i = .ok (r, a) → (pdvP.parseDer i).isOk = false) ∧
    (∀ bs r, parseBerAny (Input.fromSlice bs) = .ok (r, a) → (fromBer pdvP bs).isOk = false) ∧
    (∀ bs r, parseDerAny (Input.fromSlice bs) = .ok (r, a) → (fromDer pdvP pdvCheck bs).isOk = false) := by
  have key : ∀ hd x, pdvP.content hd a.data ≠ .ok x := by
    rintro hd ⟨r, v⟩ hh
    obtain ⟨r0, a0, o0, r0', o1, r1', _, _, _, _, h1, _, h3, _, h5, _⟩ := (pdvContent_ok (h := hd)).mp hh
    obtain ⟨r', a', e', o', g1, _, g3, g4⟩ := h
    rw [g1] at h1
    injection h1 with h1
    injection h1 with _ h1
    subst h1
    rw [g3] at h3
    injection h3 with h3
    injection h3 with h3
    subst h3
    exact (berAny_header h5).1 g4
  refine ⟨fun hd => notOk (key hd), notOk fun v hv => ?_, fun i r hi => notOk fun ⟨r', v⟩ hv => ?_,
    fun i r hi => notOk fun ⟨r', v⟩ hv => ?_, fun bs r hi => notOk fun ⟨r', v⟩ hv => ?_,
    fun bs r hi => notOk fun ⟨r', v⟩ hv => ?_⟩
  · obtain ⟨_, r, h2⟩ := tryFromAny_ok.mp hv
    exact key _ _ h2
  · obtain ⟨a', x, h1, _, h2⟩ := parseBer_ok.mp hv
    rw [hi] at h1
    injection h1 with h1
    injection h1 with _ h1
    subst h1
    exact key _ _ h2
  · obtain ⟨a', x, h1, _, h2⟩ := parseDer_ok.mp hv
    rw [hi] at h1
    injection h1 with h1
    injection h1 with _ h1
    subst h1
    exact key _ _ h2
  · obtain ⟨r1, a', x, h1, _, _, h2⟩ := fromBer_ok.mp hv
    rw [hi] at h1
    injection h1 with h1
    injection h1 with _ h1
    subst h1
    exact key _ _ h2
  · obtain ⟨r1, a', x, h1, _, _, _, h2⟩ := fromDer_ok.mp hv
    rw [hi] at h1
    injection h1 with h1
    injection h1 with _ h1
    subst h1
    exact key _ _ h2

/-- A case: the identification `[0] { [1] 1.2.3 }`, then the data value. -/
example : ExplicitIdentification (Input.fromSlice [0xa0, 0x04, 0x81, 0x02, 0x2a, 0x03, 0x82, 0x01, 0xff]) := by
  refine ⟨⟨[0x82, 0x01, 0xff], 6, 9⟩, _, ⟨[], 6, 6⟩, _, rfl, ⟨rfl, rfl⟩, rfl, rfl⟩

/-- **C89** Deviation, cases: the six alternatives in their standard encodings. -/
theorem C89_pdv_standard_cases :
    ∀ alt ∈ ([[0xa0, 0x06, 0x80, 0x01, 0x2a, 0x81, 0x01, 0x2b], [0x81, 0x01, 0x2a], [0x82, 0x01, 0x05],
        [0xa3, 0x06, 0x80, 0x01, 0x05, 0x81, 0x01, 0x2b], [0x84, 0x01, 0x2a], [0x85, 0x00]] : List Bytes),
      let body := [0xa0, UInt8.ofNat alt.length] ++ alt ++ [0x82, 0x01, 0x07]
      (fromDer pdvP pdvCheck ([0x2b, UInt8.ofNat body.length] ++ body)).isOk = false ∧
      (fromBerWith (fun a => (.ok a : Except SErr Any)) ([0x2b, UInt8.ofNat body.length] ++ body)).isOk =
        true := by decide +kernel

end Asn1

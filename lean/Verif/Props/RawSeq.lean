import Verif.Props.ContainersSafe
/-!
# Raw SEQUENCE and SET, and their generic variants (C66, C67)
-/
namespace Asn1
open Spec Wr

variable {α β : Type}

theorem raw_content {tag : Nat} {h : Header} {i x : Input} {s : RawSeq} :
    (rawP tag).content h i = .ok (x, s) ↔
      h.constructed = true ∧ s = ⟨i.data, false⟩ ∧ x = after i i.data.length := by
  show (h.assertConstructed i >>= fun _ => _) = _ ↔ _
  rw [bind_eq_ok]
  constructor
  · rintro ⟨u, h1, h2⟩
    obtain ⟨⟨r, d⟩, h3, h4⟩ := bind_eq_ok.mp h2
    rw [takeSplit_eq, if_pos (by simp [Input.len])] at h3
    injection h3 with h3; injection h3 with h5 h6
    injection h4 with h4; injection h4 with h7 h8
    subst h5 h6 h7 h8
    exact ⟨assertConstructed_ok.mp h1, by simp [first, Input.len], by simp [Input.len]⟩
  · rintro ⟨h1, rfl, rfl⟩
    refine ⟨(), assertConstructed_ok.mpr h1, bind_eq_ok.mpr
      ⟨(after i i.data.length, first i i.data.length), ?_, ?_⟩⟩
    · rw [takeSplit_eq, if_pos (by simp [Input.len])]; rfl
    · simp [first, pure, Except.pure]

theorem rawTryFrom_ok {tag : Nat} {a : Any} {s : RawSeq} :
    rawTryFrom tag a = .ok s ↔
      a.header.tag = tag ∧ a.header.constructed = true ∧ s = ⟨a.data.data, false⟩ := by
  unfold rawTryFrom
  rw [bindS_eq_ok]
  constructor
  · rintro ⟨u, h1, h2⟩
    obtain ⟨u', h3, h4⟩ := bindS_eq_ok.mp h2
    injection h4 with h4
    exact ⟨assertTagS_ok.mp h1, assertConstructedS_ok.mp h3, h4.symm⟩
  · rintro ⟨h1, h2, rfl⟩
    exact ⟨(), assertTagS_ok.mpr h1, bindS_eq_ok.mpr ⟨(), assertConstructedS_ok.mpr h2, rfl⟩⟩

theorem rawFromDer_ok {tag : Nat} {bytes rem : Bytes} {s : RawSeq} :
    rawFromDer tag bytes = .ok (rem, s) ↔ ∃ r a, parseDerAny (Input.fromSlice bytes) = .ok (r, a) ∧
      r.data = rem ∧ rawTryFrom tag a = .ok s := by
  unfold rawFromDer
  rw [bindS_eq_ok]
  constructor
  · rintro ⟨⟨i, a⟩, h1, h2⟩
    obtain ⟨w, h3, h4⟩ := bindS_eq_ok.mp h2
    obtain ⟨r, h5, h6⟩ := wrapBerParser_ok.mp h1
    injection h4 with h4; injection h4 with h7 h8
    subst h7 h8 h6
    exact ⟨r, a, h5, rfl, h3⟩
  · rintro ⟨r, a, h1, rfl, h2⟩
    exact ⟨(r.data, a), wrapBerParser_ok.mpr ⟨r, h1, rfl⟩, bindS_eq_ok.mpr ⟨s, h2, rfl⟩⟩

/-- **C66** A raw SEQUENCE (tag 16) or SET (tag 17) with any content, owned or borrowed, encodes to
the right number of bytes and comes back, with the same content, from all four decoders, whatever
follows. -/
theorem C66_raw_roundtrip (tag : Nat) (htag : tag < 2 ^ 32) (s : RawSeq)
    (hs : s.content.length < 2 ^ 64) :
    LengthsRight (rawToBer tag) s ∧
    InputBack (rawToBer tag) (rawP tag).parseBer s ⟨s.content, false⟩ ∧
    InputBack (rawToBer tag) (rawP tag).parseDer s ⟨s.content, false⟩ ∧
    BytesBack (rawToBer tag) (fromBerWith (rawTryFrom tag)) s ⟨s.content, false⟩ ∧
    BytesBack (rawToBer tag) (rawFromDer tag) s ⟨s.content, false⟩ := by
  have he := raw_encodes htag s
  have hb := he.back (p := rawP tag) (w := ⟨s.content, false⟩) hs (tagIs_iff.mpr rfl)
    fun a g1 g2 g3 g4 g5 => ⟨_, raw_content.mpr ⟨g2, by rw [g5], rfl⟩⟩
  refine ⟨he.lengths hs, hb.1, hb.2.1, ⟨_, he.toVec hs, fun rest => ?_⟩,
    ⟨_, he.toVec hs, fun rest => ?_⟩⟩
  · obtain ⟨a, g1, g2, g3, g4, g5, g6, g7⟩ := he.any hs
      (i := Input.fromSlice ((rawToBer tag).fullOf s s.content ++ rest)) rfl
    exact fromBerWith_ok.mpr ⟨_, a, g1, by simp [Input.fromSlice],
      rawTryFrom_ok.mpr ⟨g5, g4, by rw [g7]⟩⟩
  · obtain ⟨a, g1, g2, g3, g4, g5, g6, g7⟩ := he.any hs
      (i := Input.fromSlice ((rawToBer tag).fullOf s s.content ++ rest)) rfl
    exact rawFromDer_ok.mpr ⟨_, a, g2, by simp [Input.fromSlice],
      rawTryFrom_ok.mpr ⟨g5, g4, by rw [g7]⟩⟩

/-- A case, with a content that is no sequence of objects. -/
example : (rawToBer 16).toVec ⟨[0xff, 0x05], true⟩ = .ok [0x30, 0x02, 0xff, 0x05] ∧
    rawFromDer 16 [0x30, 0x02, 0xff, 0x05, 0x99] = .ok ([0x99], ⟨[0xff, 0x05], false⟩) := by
  decide +kernel

/-- **C66** Exactly what the decoders of the raw types accept: an object with the right tag number,
constructed; the value is its content, verbatim and borrowed. -/
theorem C66_raw_accepts (tag : Nat) :
    (∀ i r s, (rawP tag).parseBer i = .ok (r, s) ↔ ∃ a, parseBerAny i = .ok (r, a) ∧
      a.header.tag = tag ∧ a.header.constructed = true ∧ s = ⟨a.data.data, false⟩) ∧
    (∀ i r s, (rawP tag).parseDer i = .ok (r, s) ↔ ∃ a, parseDerAny i = .ok (r, a) ∧
      a.header.tag = tag ∧ a.header.constructed = true ∧ s = ⟨a.data.data, false⟩) ∧
    (∀ bytes rem s, fromBerWith (rawTryFrom tag) bytes = .ok (rem, s) ↔
      ∃ r a, parseBerAny (Input.fromSlice bytes) = .ok (r, a) ∧ r.data = rem ∧
      a.header.tag = tag ∧ a.header.constructed = true ∧ s = ⟨a.data.data, false⟩) ∧
    (∀ bytes rem s, rawFromDer tag bytes = .ok (rem, s) ↔
      ∃ r a, parseDerAny (Input.fromSlice bytes) = .ok (r, a) ∧ r.data = rem ∧
      a.header.tag = tag ∧ a.header.constructed = true ∧ s = ⟨a.data.data, false⟩) := by
  refine ⟨fun i r s => ?_, fun i r s => ?_, fun bytes rem s => ?_, fun bytes rem s => ?_⟩
  · rw [parseBer_ok]
    constructor
    · rintro ⟨a, x, h1, h2, h3⟩
      obtain ⟨h4, h5, _⟩ := raw_content.mp h3
      exact ⟨a, h1, tagIs_iff.mp h2, h4, h5⟩
    · rintro ⟨a, h1, h2, h3, h4⟩
      exact ⟨a, _, h1, tagIs_iff.mpr h2, raw_content.mpr ⟨h3, h4, rfl⟩⟩
  · rw [parseDer_ok]
    constructor
    · rintro ⟨a, x, h1, h2, h3⟩
      obtain ⟨h4, h5, _⟩ := raw_content.mp h3
      exact ⟨a, h1, tagIs_iff.mp h2, h4, h5⟩
    · rintro ⟨a, h1, h2, h3, h4⟩
      exact ⟨a, _, h1, tagIs_iff.mpr h2, raw_content.mpr ⟨h3, h4, rfl⟩⟩
  · rw [fromBerWith_ok]; simp only [rawTryFrom_ok]
  · rw [rawFromDer_ok]; simp only [rawTryFrom_ok]

theorem rawAndThen_ok {from_ : Bytes → Except SErr (Bytes × RawSeq)}
    {op : Bytes → Except SErr (Bytes × β)} {bytes rem : Bytes} {v : β}
    (hb : ∀ rem s, from_ bytes = .ok (rem, s) → s.owned = false) :
    rawAndThen from_ op bytes = .ok (rem, v) ↔
      ∃ s x, from_ bytes = .ok (rem, s) ∧ op s.content = .ok (x, v) := by
  unfold rawAndThen
  rw [bindS_eq_ok]
  constructor
  · rintro ⟨⟨r, s⟩, h1, h2⟩
    simp only [hb _ _ h1, Bool.false_eq_true, if_false] at h2
    obtain ⟨⟨x, w⟩, h3, h4⟩ := bindS_eq_ok.mp h2
    injection h4 with h4; injection h4 with h5 h6
    subst h5 h6
    exact ⟨s, x, h1, h3⟩
  · rintro ⟨s, x, h1, h2⟩
    refine ⟨_, h1, ?_⟩
    simp only [hb _ _ h1, Bool.false_eq_true, if_false]
    exact bindS_eq_ok.mpr ⟨_, h2, rfl⟩

theorem noPanicS_andThen {from_ : Bytes → Except SErr (Bytes × RawSeq)}
    {op : Bytes → Except SErr (Bytes × β)} {bytes : Bytes} (hf : NoPanicS (from_ bytes))
    (hb : ∀ rem s, from_ bytes = .ok (rem, s) → s.owned = false) (ho : ∀ c, NoPanicS (op c)) :
    NoPanicS (rawAndThen from_ op bytes) := by
  unfold rawAndThen
  cases h : from_ bytes with
  | error e => rw [h] at hf; simpa [NoPanicS, Bind.bind, Except.bind] using hf
  | ok x =>
    obtain ⟨r, s⟩ := x
    show NoPanicS (if s.owned = true then _ else _)
    rw [if_neg (by simp [hb _ _ h])]
    exact NoPanicS.bind (ho _) fun _ => noPanicS_ok _

/-- **C67** `from_ber_and_then` and `from_der_and_then` succeed exactly when a SEQUENCE (SET) is
found and the function succeeds on its content; they return what the function returned, and what
follows the SEQUENCE, whatever the function left of the content. They panic only if the function
does. -/
theorem C67_from_and_then (tag : Nat) (op : Bytes → Except SErr (Bytes × β)) (bytes : Bytes) :
    (∀ rem v, rawAndThen (fromBerWith (rawTryFrom tag)) op bytes = .ok (rem, v) ↔
      ∃ r a x, parseBerAny (Input.fromSlice bytes) = .ok (r, a) ∧ r.data = rem ∧
        a.header.tag = tag ∧ a.header.constructed = true ∧ op a.data.data = .ok (x, v)) ∧
    (∀ rem v, rawAndThen (rawFromDer tag) op bytes = .ok (rem, v) ↔
      ∃ r a x, parseDerAny (Input.fromSlice bytes) = .ok (r, a) ∧ r.data = rem ∧
        a.header.tag = tag ∧ a.header.constructed = true ∧ op a.data.data = .ok (x, v)) ∧
    ((∀ c, NoPanicS (op c)) → NoPanicS (rawAndThen (fromBerWith (rawTryFrom tag)) op bytes) ∧
      NoPanicS (rawAndThen (rawFromDer tag) op bytes)) := by
  obtain ⟨_, _, h3, h4⟩ := C66_raw_accepts tag
  have hb : ∀ rem s, fromBerWith (rawTryFrom tag) bytes = .ok (rem, s) → s.owned = false := by
    intro rem s h
    obtain ⟨_, _, _, _, _, _, rfl⟩ := (h3 _ _ _).mp h
    rfl
  have hd : ∀ rem s, rawFromDer tag bytes = .ok (rem, s) → s.owned = false := by
    intro rem s h
    obtain ⟨_, _, _, _, _, _, rfl⟩ := (h4 _ _ _).mp h
    rfl
  refine ⟨fun rem v => ?_, fun rem v => ?_, fun ho => ⟨?_, ?_⟩⟩
  · rw [rawAndThen_ok hb]
    constructor
    · rintro ⟨s, x, g1, g2⟩
      obtain ⟨r, a, g3, g4, g5, g6, rfl⟩ := (h3 _ _ _).mp g1
      exact ⟨r, a, x, g3, g4, g5, g6, g2⟩
    · rintro ⟨r, a, x, g3, g4, g5, g6, g2⟩
      exact ⟨_, x, (h3 _ _ _).mpr ⟨r, a, g3, g4, g5, g6, rfl⟩, g2⟩
  · rw [rawAndThen_ok hd]
    constructor
    · rintro ⟨s, x, g1, g2⟩
      obtain ⟨r, a, g3, g4, g5, g6, rfl⟩ := (h4 _ _ _).mp g1
      exact ⟨r, a, x, g3, g4, g5, g6, g2⟩
    · rintro ⟨r, a, x, g3, g4, g5, g6, g2⟩
      exact ⟨_, x, (h4 _ _ _).mpr ⟨r, a, g3, g4, g5, g6, rfl⟩, g2⟩
  · refine noPanicS_andThen ?_ hb ho
    exact NoPanicS.bind (noPanicS_wrapBer bytes) fun _ => NoPanicS.bind
      (NoPanicS.bind (noPanicS_assertTag _ _) fun _ => NoPanicS.bind (noPanicS_assertConstructed _)
        fun _ => noPanicS_ok _) fun _ => noPanicS_ok _
  · refine noPanicS_andThen ?_ hd ho
    exact NoPanicS.bind (noPanicS_wrapDer bytes) fun _ => NoPanicS.bind
      (NoPanicS.bind (noPanicS_assertTag _ _) fun _ => NoPanicS.bind (noPanicS_assertConstructed _)
        fun _ => noPanicS_ok _) fun _ => noPanicS_ok _

theorem rawParseAndThen_ok {tag : Nat} {parse : Input → PRes Any} {op : Header → Input → PRes β}
    {i r : Input} {v : β} :
    rawParseAndThen tag parse op i = .ok (r, v) ↔ ∃ a x, parse i = .ok (r, a) ∧
      a.header.tag = tag ∧ op a.header a.data = .ok (x, v) := by
  unfold rawParseAndThen
  rw [bind_eq_ok]
  constructor
  · rintro ⟨⟨r', a⟩, h1, h2⟩
    by_cases ht : a.header.tag = tag
    · simp only [ht, ne_eq, not_true_eq_false, if_false] at h2
      obtain ⟨⟨x, w⟩, h3, h4⟩ := bind_eq_ok.mp h2
      injection h4 with h4; injection h4 with h5 h6
      subst h5 h6
      exact ⟨a, x, h1, ht, h3⟩
    · simp only [ne_eq, ht, not_false_eq_true, if_true] at h2
      simp [nomErr] at h2
  · rintro ⟨a, x, h1, h2, h3⟩
    refine ⟨_, h1, ?_⟩
    simp only [h2, ne_eq, not_true_eq_false, if_false]
    exact bind_eq_ok.mpr ⟨_, h3, rfl⟩

/-- **C67** The same for `parse_ber_and_then` and `parse_der_and_then` on `Input`, except that they
do not check that the object is constructed.
Missing: that the object is constructed, which is not checked (`C67_primitive_deviation`). -/
theorem C67_parse_and_then_partial (tag : Nat) (op : Header → Input → PRes β) (i : Input) :
    (∀ r v, rawParseAndThen tag anyBer.parseBer op i = .ok (r, v) ↔ ∃ a x,
      parseBerAny i = .ok (r, a) ∧ a.header.tag = tag ∧ op a.header a.data = .ok (x, v)) ∧
    (∀ r v, rawParseAndThen tag anyDer.parseDer op i = .ok (r, v) ↔ ∃ a x,
      parseDerAny i = .ok (r, a) ∧ a.header.tag = tag ∧ op a.header a.data = .ok (x, v)) ∧
    ((∀ h j, NoPanic (op h j)) → NoPanic (rawParseAndThen tag anyBer.parseBer op i) ∧
      NoPanic (rawParseAndThen tag anyDer.parseDer op i)) := by
  refine ⟨fun r v => ?_, fun r v => ?_, fun ho => ⟨?_, ?_⟩⟩
  · rw [rawParseAndThen_ok, anyBer_parseBer]
  · rw [rawParseAndThen_ok, anyDer_parseDer]
  · refine NoPanic.bind ⟨objParser_ber.good.noPanic i, objParser_ber.good.noDiverge i⟩ fun x _ => ?_
    simp only
    split
    · exact noPanic_nomErr _ _
    · exact NoPanic.bind (ho _ _) fun _ _ => noPanic_ok _
  · refine NoPanic.bind ⟨objParser_der.good.noPanic i, objParser_der.good.noDiverge i⟩ fun x _ => ?_
    simp only
    split
    · exact noPanic_nomErr _ _
    · exact NoPanic.bind (ho _ _) fun _ _ => noPanic_ok _

/-- **C67** Deviation: `10 03 02 01 05` (primitive) is refused by `Sequence::parse_der`, and accepted
by `Sequence::parse_der_and_then`. -/
theorem C67_primitive_deviation :
    (∀ r s, (rawP 16).parseDer (Input.fromSlice [0x10, 3, 2, 1, 5]) ≠ .ok (r, s)) ∧
    ∃ r, rawParseAndThen 16 anyDer.parseDer (fun _ i => (uintBer 1).parseDer i)
      (Input.fromSlice [0x10, 3, 2, 1, 5]) = .ok (r, 5) := by
  constructor
  · intro r s h
    obtain ⟨a, h1, _, h3, _⟩ := ((C66_raw_accepts 16).2.1 _ _ _).mp h
    have h2 : ∃ a', parseDerAny (Input.fromSlice [0x10, 3, 2, 1, 5]) = .ok a' ∧
        a'.2.header.constructed = false := ⟨_, rfl, rfl⟩
    obtain ⟨a', h4, h5⟩ := h2
    rw [h4] at h1; injection h1 with h1
    rw [h1] at h5
    simp only at h5
    rw [h3] at h5; cases h5
  · exact ⟨_, rfl⟩

/-! ### Items of a raw SEQUENCE -/

/-- **C66** The methods that decode the content of a raw SEQUENCE (SET) as a list of items succeed
exactly when the content splits, without remainder, into items. The `_ref` version (and
`parse_into`) refuse an owned content; on what was just parsed they work. `to_static` changes
neither the content nor the encoding. -/
theorem C66_raw_items (s : RawSeq) (g : Bytes → Except SErr (Bytes × α)) (hg : EndsIn g) :
    (∀ vs, s.intoItems g = .ok vs ↔ RepeatsB g s.content vs) ∧
    (s.owned = false → s.intoItemsRef g = s.intoItems g ∧ s.parseInto g = g s.content) ∧
    (s.owned = true → s.intoItemsRef g = .error (.error .lifetimeError) ∧
      s.parseInto g = .error (.error .lifetimeError)) ∧
    s.toStatic.content = s.content ∧ s.toStatic.intoItems g = s.intoItems g ∧
    ∀ tag, (rawToBer tag).toVec s.toStatic = (rawToBer tag).toVec s := by
  refine ⟨fun vs => collectItems_ok hg, fun h => ?_, fun h => ?_, rfl, rfl, fun tag => rfl⟩
  · simp [RawSeq.intoItemsRef, RawSeq.parseInto, RawSeq.intoItems, h]
  · simp [RawSeq.intoItemsRef, RawSeq.parseInto, h]

/-- A case. -/
example : EndsIn (fromBer (uintBer 2)) ∧
    (RawSeq.mk [0x02, 0x01, 0x07, 0x02, 0x01, 0x08] false).intoItems (fromBer (uintBer 2)) = .ok [7, 8] :=
  ⟨endsIn_fromBer _, by decide +kernel⟩

theorem toDerItems_ok {t : ToBer α} {vs : List α} {acc bs : Bytes} :
    toDerItems t vs acc = .ok bs ↔
      ∃ bss, Pointwise (fun v b => t.toVec v = .ok b) vs bss ∧ bs = acc ++ bss.flatten := by
  induction vs generalizing acc with
  | nil =>
    constructor
    · intro h; injection h with h; exact ⟨[], .nil, by simp [h]⟩
    · rintro ⟨bss, h1, rfl⟩; cases h1; simp [toDerItems]
  | cons v vs ih =>
    unfold toDerItems
    constructor
    · intro h
      cases hv : t.toVec v with
      | error e => simp [hv] at h
      | ok b =>
        simp only [hv] at h
        obtain ⟨bss, h1, h2⟩ := ih.mp h
        exact ⟨b :: bss, .cons hv h1, by simp [h2]⟩
    · rintro ⟨bss, h1, rfl⟩
      cases h1 with
      | cons hv h1 =>
        rename_i b bss
        simp only [hv]
        exact ih.mpr ⟨bss, h1, by simp⟩

/-- **C66** `from_iter_to_der` succeeds exactly when every item can be encoded; the content is the
encodings of the items, one after the other; encoding the raw SEQUENCE gives the same bytes as
encoding the list of the items. -/
theorem C66_from_iter_to_der (t : ToBer α) (vs : List α) :
    (∀ s, fromIterToDer t vs = .ok s ↔ ∃ bss, Pointwise (fun v b => t.toVec v = .ok b) vs bss ∧
      s = ⟨bss.flatten, true⟩) ∧
    (ListFits t vs → ∀ tag < 2 ^ 32, ∃ s bs, fromIterToDer t vs = .ok s ∧
      (rawToBer tag).toVec s = .ok bs ∧ (listToBer tag t).toVec vs = .ok bs) := by
  have key : ∀ s, fromIterToDer t vs = .ok s ↔ ∃ bss,
      Pointwise (fun v b => t.toVec v = .ok b) vs bss ∧ s = ⟨bss.flatten, true⟩ := by
    intro s
    unfold fromIterToDer
    constructor
    · intro h
      cases hv : toDerItems t vs [] with
      | error e => simp [hv] at h
      | ok b =>
        simp only [hv] at h
        injection h with h
        obtain ⟨bss, h1, h2⟩ := toDerItems_ok.mp hv
        exact ⟨bss, h1, by rw [← h, h2]; simp⟩
    · rintro ⟨bss, h1, rfl⟩
      rw [toDerItems_ok.mpr ⟨bss, h1, rfl⟩]; simp
  refine ⟨key, fun hf tag htag => ?_⟩
  obtain ⟨bss, h1, h2, h3⟩ := list_items hf
  exact ⟨⟨bss.flatten, true⟩, _,
    (key _).mpr ⟨bss, pointwise_imp (fun _ _ h => h.1) h2, rfl⟩,
    (raw_encodes htag _).toVec h3, (list_encodes htag h1).toVec h3⟩

/-- A case. -/
example : fromIterToDer (uintToBer 4) [2, 300] = .ok ⟨[2, 1, 2, 2, 2, 1, 44], true⟩ ∧
    (rawToBer 16).toVec ⟨[2, 1, 2, 2, 2, 1, 44], true⟩ = (listToBer 16 (uintToBer 4)).toVec [2, 300] ∧
    RawSeq.intoItems ⟨[2, 1, 2, 2, 2, 1, 44], true⟩ (fromDer (uintBer 4) checkDerInt) =
      .ok [2, 300] := by decide +kernel

/-! ### Sequences of generic objects -/

/-- Two generic objects with the same class, flag, tag number and content. -/
def Spec.SameObject (a b : Any) : Prop :=
  b.header.cls = a.header.cls ∧ b.header.constructed = a.header.constructed ∧
  b.header.tag = a.header.tag ∧ b.header.length = .definite a.data.data.length ∧
  b.data.data = a.data.data

theorem any_back (a : Any) (i : Input) (rest : Bytes) (ht : a.header.tag < 2 ^ 32)
    (hs : a.data.data.length < 2 ^ 64) (hi : i.data = anyToBer.fullOf a a.data.data ++ rest) :
    ∃ b, parseBerAny i = .ok (after i (anyToBer.fullOf a a.data.data).length, b) ∧
      parseDerAny i = .ok (after i (anyToBer.fullOf a a.data.data).length, b) ∧ SameObject a b := by
  obtain ⟨b, h1, h2, h3, h4, h5, h6, h7⟩ := (any_encodes a ht).any hs hi
  exact ⟨b, h1, h2, h3, h4, h5, h6, h7⟩

theorem objs_full {parse : Input → PRes Any}
    (hp : ∀ (a : Any) (i : Input) (rest : Bytes), a.header.tag < 2 ^ 32 →
      a.data.data.length < 2 ^ 64 → i.data = anyToBer.fullOf a a.data.data ++ rest →
      ∃ b, parse i = .ok (after i (anyToBer.fullOf a a.data.data).length, b) ∧ SameObject a b)
    (as : List Any) (h : ∀ a ∈ as, a.header.tag < 2 ^ 32 ∧ a.data.data.length < 2 ^ 64) (i : Input)
    (hi : i.data = (as.map fun a => anyToBer.fullOf a a.data.data).flatten) :
    ∃ bs, Objs parse (fun _ => false) i bs (after i i.data.length) ∧ Pointwise SameObject as bs := by
  induction as generalizing i with
  | nil =>
    have : i.data = [] := by simpa using hi
    refine ⟨[], ?_, .nil⟩
    rw [this]
    rw [show after i ([] : Bytes).length = i from after_zero i]
    exact .nil this
  | cons a as ih =>
    obtain ⟨b, h1, h2⟩ := hp a i _ (h a (by simp)).1 (h a (by simp)).2
      (by rw [hi, List.map_cons, List.flatten_cons])
    obtain ⟨bs, h3, h4⟩ := ih (fun x hx => h x (by simp [hx]))
      (after i (anyToBer.fullOf a a.data.data).length) (by
        rw [after_data, hi, List.map_cons, List.flatten_cons, List.drop_left' rfl])
    refine ⟨b :: bs, .cons ?_ h1 rfl ?_, .cons h2 h4⟩
    · obtain ⟨b', q1, _⟩ := any_back a i _ (h a (by simp)).1 (h a (by simp)).2
        (by rw [hi, List.map_cons, List.flatten_cons])
      obtain ⟨e, q2, q3, _⟩ := parseBerAny_local q1
      intro hh
      rw [hh] at q3
      have := congrArg List.length q3
      simp at this
      omega
    · rw [after_after, after_data] at h3
      have : (anyToBer.fullOf a a.data.data).length +
          (List.drop (anyToBer.fullOf a a.data.data).length i.data).length = i.data.length := by
        rw [List.length_drop, hi, List.map_cons, List.flatten_cons, List.length_append]; omega
      rwa [this] at h3

/-- **C66** Exactly what `AnySequence` (tag 16) and the items of `AnySet` (tag 17) accept. -/
theorem C66_any_sequence_accepts (tag : Nat) (i r : Input) (as : List Any) :
    ((anySeqP tag anyBer.parseBer).parseBer i = .ok (r, as) ↔ ∃ a e, parseBerAny i = .ok (r, a) ∧
      a.header.tag = tag ∧ a.header.constructed = true ∧
      Objs anyBer.parseBer (fun _ => false) a.data as e) ∧
    ((anySeqP tag anyDer.parseDer).parseDer i = .ok (r, as) ↔ ∃ a e, parseDerAny i = .ok (r, a) ∧
      a.header.tag = tag ∧ a.header.constructed = true ∧
      Objs anyDer.parseDer (fun _ => false) a.data as e) := by
  have hc : ∀ parse, (parse = anyBer.parseBer ∨ parse = anyDer.parseDer) → ∀ h j x,
      (anySeqP tag parse).content h j = .ok (x, as) ↔ h.constructed = true ∧
        Objs parse (fun _ => false) j as x := by
    intro parse hp h j x
    show (h.assertConstructed j >>= fun _ => _) = _ ↔ _
    rw [bind_eq_ok]
    constructor
    · rintro ⟨u, h1, h2⟩
      exact ⟨assertConstructed_ok.mp h1, (C37_try_collect parse hp _ _ _).mp h2⟩
    · rintro ⟨h1, h2⟩
      exact ⟨(), assertConstructed_ok.mpr h1, (C37_try_collect parse hp _ _ _).mpr h2⟩
  constructor
  · rw [parseBer_ok]
    constructor
    · rintro ⟨a, x, h1, h2, h3⟩
      obtain ⟨h4, h5⟩ := (hc _ (.inl rfl) _ _ _).mp h3
      exact ⟨a, x, h1, tagIs_iff.mp h2, h4, h5⟩
    · rintro ⟨a, x, h1, h2, h3, h4⟩
      exact ⟨a, x, h1, tagIs_iff.mpr h2, (hc _ (.inl rfl) _ _ _).mpr ⟨h3, h4⟩⟩
  · rw [parseDer_ok]
    constructor
    · rintro ⟨a, x, h1, h2, h3⟩
      obtain ⟨h4, h5⟩ := (hc _ (.inr rfl) _ _ _).mp h3
      exact ⟨a, x, h1, tagIs_iff.mp h2, h4, h5⟩
    · rintro ⟨a, x, h1, h2, h3, h4⟩
      exact ⟨a, x, h1, tagIs_iff.mpr h2, (hc _ (.inr rfl) _ _ _).mpr ⟨h3, h4⟩⟩

/-- **C66** (partial) A sequence of generic objects, of any number, classes, tags and contents, encodes
to the right number of bytes and comes back as the same objects in the same order. Missing: objects with
`2^24` content bytes or more, for which the code is wrong (`C66_large_deviation`). -/
theorem C66_any_sequence_roundtrip_partial (tag : Nat) (htag : tag < 2 ^ 32) (as : List Any)
    (h : ∀ a ∈ as, a.header.tag < 2 ^ 32 ∧ a.data.data.length < 2 ^ 24)
    (hn : ∀ n, (listToBer tag anyToBer).contentLen as = .definite n → n < 2 ^ 64) :
    ∃ bs, (listToBer tag anyToBer).toVec as = .ok bs ∧ LengthsRight (listToBer tag anyToBer) as ∧
      ∀ (i : Input) (rest : Bytes), i.data = bs ++ rest →
        (∃ bs', (anySeqP tag anyBer.parseBer).parseBer i = .ok (after i bs.length, bs') ∧
          Pointwise SameObject as bs') ∧
        ∃ bs', (anySeqP tag anyDer.parseDer).parseDer i = .ok (after i bs.length, bs') ∧
          Pointwise SameObject as bs' := by
  have hx : Pointwise (Exact anyToBer) as (as.map fun a => anyToBer.fullOf a a.data.data) := by
    clear hn
    induction as with
    | nil => exact .nil
    | cons a as ih =>
      have he := any_encodes a (h a (by simp)).1
      have hl := (h a (by simp)).2
      exact .cons ⟨he.encode (by omega), he.totalLen hl⟩ (ih fun x hx => h x (by simp [hx]))
  have he := list_encodes htag hx
  have hs := hn _ he.len
  have h' : ∀ a ∈ as, a.header.tag < 2 ^ 32 ∧ a.data.data.length < 2 ^ 64 := fun a ha =>
    ⟨(h a ha).1, Nat.lt_trans (h a ha).2 (by decide)⟩
  refine ⟨_, he.toVec hs, he.lengths hs, fun i rest hi => ?_⟩
  obtain ⟨a, g1, g2, g3, g4, g5, g6, g7⟩ := he.any hs hi
  constructor
  · obtain ⟨bs', h1, h2⟩ := objs_full (parse := anyBer.parseBer) (fun a i rest ht hs hi => by
      obtain ⟨b, q1, _, q3⟩ := any_back a i rest ht hs hi
      exact ⟨b, by rw [anyBer_parseBer]; exact q1, q3⟩) as h' a.data g7
    exact ⟨bs', (C66_any_sequence_accepts tag i _ bs').1.mpr ⟨a, _, g1, g5, g4, h1⟩, h2⟩
  · obtain ⟨bs', h1, h2⟩ := objs_full (parse := anyDer.parseDer) (fun a i rest ht hs hi => by
      obtain ⟨b, _, q2, q3⟩ := any_back a i rest ht hs hi
      exact ⟨b, by rw [anyDer_parseDer]; exact q2, q3⟩) as h' a.data g7
    exact ⟨bs', (C66_any_sequence_accepts tag i _ bs').2.mpr ⟨a, _, g2, g5, g4, h1⟩, h2⟩

/-- A case: two objects of other classes, one of them with a two-byte tag. -/
example : ∃ a b : Any, (∀ x ∈ [a, b], x.header.tag < 2 ^ 32 ∧ x.data.data.length < 2 ^ 24) ∧
    (listToBer 16 anyToBer).contentLen [a, b] = .definite 8 ∧
    (listToBer 16 anyToBer).toVec [a, b] = .ok [0x30, 8, 0x82, 2, 7, 8, 0xdf, 0x22, 1, 9] :=
  ⟨⟨⟨.contextSpecific, false, 2, .definite 2, none, none⟩, Input.fromSlice [7, 8]⟩,
    ⟨⟨.priv, false, 34, .definite 1, none, none⟩, Input.fromSlice [9]⟩, by
      intro x hx
      simp only [List.mem_cons, List.not_mem_nil, or_false] at hx
      rcases hx with rfl | rfl <;> decide, by decide +kernel, by decide +kernel⟩

/-! ### Large items -/

/-- **C30** Deviation: for every value of a universal type with `2^24` to `2^32 - 1` content bytes,
the list with this single item is written (without an error) with a length one too small, and the
decoders refuse the result. -/
theorem C30_large_deviation {c : Codec α} {v : α} (h : UniversalValue c v) (n : Nat)
    (hn : c.enc.contentLen v = .definite n) (h1 : 2 ^ 24 ≤ n) (h2 : n < 2 ^ 32)
    (tag : Nat) (htag : tag < 2 ^ 32) :
    ∃ bs, (listToBer tag c.enc).toVec [v] = .ok bs ∧
      (fromBerWith (seqTryFrom tag (fromBer c.ber)) bs).isOk = false ∧
      (seqFromDer tag (fromDer c.ber c.check) bs).isOk = false := by
  obtain ⟨cs, hw, hl, ht⟩ := universal_works h
  rw [hl] at hn; injection hn with hn; subst hn
  have hlt : cs.length < 2 ^ 64 := by omega
  have htg := hw.tag
  have hwr := hw.enc.encode hlt
  have hlen : (c.enc.fullOf v cs).length = cs.length + 6 := by
    unfold ToBer.fullOf full
    rw [htg]
    simp only [List.length_append, lenOctets_five h1 h2, identOctets_one _ _ ht]; omega
  have hcl : (listToBer tag c.enc).contentLen [v] = .definite (cs.length + 5) := by
    have hb : berLengthLength (.definite cs.length) = .ok 4 := by
      simp only [berLengthLength]
      rw [if_neg (by omega), if_neg (by omega), if_neg (by omega), if_pos (by omega)]
    have htl : berTagLength c.tag = 1 := by
      rw [berTagLength_eq .universal false (by omega), identOctets_one _ _ ht]
    have : c.enc.totalLen v = .definite (cs.length + 5) := by
      show berTotalLength (c.enc.tagInfo v).2.2 (c.enc.contentLen v) = _
      rw [hl, htg]
      unfold berTotalLength berHeaderLength
      rw [hb, htl]
      rfl
    show Length.add (.definite 0) (c.enc.totalLen v) = _
    rw [this]
    simp [Length.add]
  obtain ⟨last, hlast⟩ : ∃ y, c.enc.fullOf v cs = (c.enc.fullOf v cs).take (cs.length + 5) ++ [y] := by
    have : ((c.enc.fullOf v cs).drop (cs.length + 5)).length = 1 := by
      rw [List.length_drop, hlen]; omega
    obtain ⟨y, hy⟩ := List.length_eq_one_iff.mp this
    exact ⟨y, by rw [← hy, List.take_append_drop]⟩
  have hpl : ((c.enc.fullOf v cs).take (cs.length + 5)).length = cs.length + 5 := by
    rw [List.length_take, hlen]; omega
  generalize hpre : (c.enc.fullOf v cs).take (cs.length + 5) = pre at hlast hpl
  have henc : (listToBer tag c.enc).toVec [v] = .ok (full .universal true tag pre ++ [last]) := by
    have hh := header_writes (t := listToBer tag c.enc) hcl (by omega) htag rfl
    have hc : Writes ((listToBer tag c.enc).writeContent [v]) _ _ :=
      hwr.bind (f := fun sz => (pure (0 + sz) : Wr Nat)) (writes_pure _)
    have := hh.bind (f := fun n1 => (listToBer tag c.enc).writeContent [v] >>=
      fun n2 => (pure (n1 + n2) : Wr Nat)) (hc.bind (writes_pure _))
    rw [hlast] at this
    unfold ToBer.toVec
    have h3 : ((listToBer tag c.enc).encode [v]).exec = _ := this
    rw [h3]
    show Except.ok _ = Except.ok _
    unfold full
    rw [hpl]
    simp [listToBer]
  have no : ∀ {ε β : Type} {x : Except ε β}, (∀ y, x ≠ .ok y) → x.isOk = false := by
    intro ε β x hx
    cases x with
    | error e => rfl
    | ok y => exact absurd rfl (hx y)
  have hi : (Input.fromSlice (full .universal true tag pre ++ [last])).data =
    full .universal true tag pre ++ [last] := rfl
  have hb := parseBerAny_full _ .universal true tag pre [last] htag (by omega) hi
  have hd := parseDerAny_full _ .universal true tag pre [last] htag (by omega) hi
  have hcont : (first (after (Input.fromSlice (full .universal true tag pre ++ [last]))
      ((full .universal true tag pre).length - pre.length)) pre.length).data = pre := by
    rw [first_data, full_content _ _ _ _ pre [last] hi]; simp
  obtain ⟨a0, p1, p2, -⟩ := hw.enc.any hlt (i := Input.fromSlice (pre ++ [last])) (rest := [])
    (by rw [← hlast]; simp [Input.fromSlice])
  have hrem : (after (Input.fromSlice (pre ++ [last])) (c.enc.fullOf v cs).length).data = [] := by
    rw [after_data, hlast]; simp [Input.fromSlice]
  have hne : pre ≠ [] := by intro hh; rw [hh] at hpl; simp at hpl
  refine ⟨_, henc, no fun ⟨r, w⟩ hh => ?_, no fun ⟨r, w⟩ hh => ?_⟩
  · obtain ⟨r', a', k1, k0, k2⟩ := fromBerWith_ok.mp hh
    rw [hb] at k1; simp at k1
    obtain ⟨_, rfl⟩ := k1
    obtain ⟨_, _, k5⟩ := seqTryFrom_ok.mp k2
    rw [hcont] at k5
    cases (collectItems_ok (endsIn_fromBer _)).mp k5 with
    | nil => exact hne rfl
    | cons _ k6 _ =>
      obtain ⟨r2, a2, _, q1, _⟩ := fromBer_ok.mp k6
      exact (C07_no_truncation pre [last] (by simp) _ a0).1 p1 hrem _ q1
  · obtain ⟨r', a', k1, k0, k2, k5⟩ := seqFromDer_ok.mp hh
    rw [hd] at k1; simp at k1
    obtain ⟨_, rfl⟩ := k1
    rw [hcont] at k5
    cases (collectItems_ok (endsIn_fromDer _ _)).mp k5 with
    | nil => exact hne rfl
    | cons _ k6 _ =>
      obtain ⟨r2, a2, _, q1, _⟩ := fromDer_ok.mp k6
      exact (C07_no_truncation pre [last] (by simp) _ a0).2 p2 hrem _ q1

/-- A case: an OCTET STRING of `2^24` bytes. -/
example : UniversalValue octetC (List.replicate (2 ^ 24) 0) ∧
    octetC.enc.contentLen (List.replicate (2 ^ 24) 0) = .definite (2 ^ 24) :=
  ⟨.octetString, congrArg Length.definite List.length_replicate⟩

end Asn1

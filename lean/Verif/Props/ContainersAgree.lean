import Verif.Proofs.LocalTypes
/-!
# The two APIs of the containers agree (C38); DER is within BER (C11)
-/
namespace Asn1
open Spec

variable {α σ : Type}

/-! ### Moving an object -/

theorem berAny_move {i j r : Input} {a : Any} (hij : i.data = j.data)
    (h : parseBerAny i = .ok (r, a)) : ∃ r' a', parseBerAny j = .ok (r', a') ∧ r'.data = r.data ∧
      SameHdr a.header a'.header ∧ a'.data.data = a.data.data := by
  obtain ⟨e, _, h2, _, h4⟩ := parseBerAny_local h
  refine ⟨_, _, h4 j r.data (hij ▸ h2), ?_, sameHdr_rebase _ _ _, rfl⟩
  rw [after_data, ← hij, h2, List.drop_left' rfl]

theorem derAny_move {i j r : Input} {a : Any} (hij : i.data = j.data)
    (h : parseDerAny i = .ok (r, a)) : ∃ r' a', parseDerAny j = .ok (r', a') ∧ r'.data = r.data ∧
      SameHdr a.header a'.header ∧ a'.data.data = a.data.data := by
  obtain ⟨e, _, h2, _, h4⟩ := parseDerAny_local h
  refine ⟨_, _, h4 j r.data (hij ▸ h2), ?_, sameHdr_rebase _ _ _, rfl⟩
  rw [after_data, ← hij, h2, List.drop_left' rfl]

/-- A type whose content parser does not look at positions: its two BER decoders agree everywhere. -/
theorem sameDecoder_ber {p : Parser α} (hl : p.Local) : SameDecoder p.parseBer (fromBer p) := by
  intro i rem v
  rw [C38_ber_apis_agree]
  constructor
  · rintro ⟨r, h1, rfl⟩
    obtain ⟨e, _, h2, _, h4⟩ := parseBer_local hl h1
    refine ⟨_, h4 i r.data h2, ?_⟩
    have h2 : i.data = e ++ r.data := h2
    rw [after_data, h2, List.drop_left' rfl]
  · rintro ⟨r, h1, rfl⟩
    obtain ⟨e, _, h2, _, h4⟩ := parseBer_local hl h1
    refine ⟨_, h4 (Input.fromSlice i.data) r.data h2, ?_⟩
    show List.drop e.length i.data = r.data
    rw [h2, List.drop_left' rfl]

/-- The same for DER, if they agree on slices. -/
theorem sameDecoder_der {p : Parser α} {g : Bytes → Except SErr (Bytes × α)} (hl : p.Local)
    (h : ∀ bytes rem v, g bytes = .ok (rem, v) ↔
      ∃ r, p.parseDer (Input.fromSlice bytes) = .ok (r, v) ∧ r.data = rem) :
    SameDecoder p.parseDer g := by
  intro i rem v
  rw [h]
  constructor
  · rintro ⟨r, h1, rfl⟩
    obtain ⟨e, _, h2, _, h4⟩ := parseDer_local hl h1
    refine ⟨_, h4 i r.data h2, ?_⟩
    have h2 : i.data = e ++ r.data := h2
    rw [after_data, h2, List.drop_left' rfl]
  · rintro ⟨r, h1, rfl⟩
    obtain ⟨e, _, h2, _, h4⟩ := parseDer_local hl h1
    refine ⟨_, h4 (Input.fromSlice i.data) r.data h2, ?_⟩
    show List.drop e.length i.data = r.data
    rw [h2, List.drop_left' rfl]

theorem repeats_agree {f : Input → PRes α} {g : Bytes → Except SErr (Bytes × α)}
    (h : SameDecoder f g) {i : Input} {vs : List α} :
    RepeatsB g i.data vs ↔ ∃ e, Repeats f i vs e := by
  constructor
  · intro hb
    generalize hbs : i.data = b at hb
    induction hb generalizing i with
    | nil => exact ⟨i, .nil hbs⟩
    | cons hb hp _ ih =>
      subst hbs
      obtain ⟨r, h1, rfl⟩ := (h _ _ _).mp hp
      obtain ⟨e, he⟩ := ih rfl
      exact ⟨e, .cons hb h1 he⟩
  · rintro ⟨e, he⟩
    induction he with
    | nil h => rw [h]; exact .nil
    | cons hne hp _ ih => exact .cons hne ((h _ _ _).mpr ⟨_, hp, rfl⟩) ih

theorem sameDecoder_endsIn {f : Input → PRes α} {g : Bytes → Except SErr (Bytes × α)}
    (h : SameDecoder f g) (hf : ∀ i r v, f i = .ok (r, v) → r.data <:+ i.data) : EndsIn g := by
  intro b rem v hb
  obtain ⟨r, h1, rfl⟩ := (h (Input.fromSlice b) rem v).mp hb
  exact hf _ _ _ h1

theorem parseBer_suffix (p : Parser α) (i r : Input) (v : α) (h : p.parseBer i = .ok (r, v)) :
    r.data <:+ i.data := by
  obtain ⟨a, x, h1, _⟩ := parseBer_ok.mp h
  obtain ⟨e, _, h2, _⟩ := parseBerAny_local h1
  exact ⟨e, h2.symm⟩

theorem parseDer_suffix (p : Parser α) (i r : Input) (v : α) (h : p.parseDer i = .ok (r, v)) :
    r.data <:+ i.data := by
  obtain ⟨a, x, h1, _⟩ := parseDer_ok.mp h
  obtain ⟨e, _, h2, _⟩ := parseDerAny_local h1
  exact ⟨e, h2.symm⟩

/-- A BER container over agreeing items: `p` parses its content, `f` its object. -/
theorem container_agree_ber {q : Parser σ} {f : Any → Except SErr σ} {tag : Nat}
    {it : Input → PRes α} {g : Bytes → Except SErr (Bytes × α)} {F : List α → σ}
    (hq : ∀ t, q.acceptTag t = true ↔ t = tag)
    (hc : ∀ h i e w, q.content h i = .ok (e, w) ↔
      h.constructed = true ∧ ∃ vs, Repeats it i vs e ∧ w = F vs)
    (hf : ∀ a w, f a = .ok w ↔ a.header.tag = tag ∧ a.header.constructed = true ∧
      ∃ vs, RepeatsB g a.data.data vs ∧ w = F vs)
    (hs : SameDecoder it g) : SameDecoder q.parseBer (fromBerWith f) := by
  intro i rem w
  rw [fromBerWith_ok]
  constructor
  · rintro ⟨r, a, h1, rfl, h2⟩
    obtain ⟨h3, h4, vs, h5, h6⟩ := (hf _ _).mp h2
    obtain ⟨r', a', g1, g2, g3, g4⟩ := berAny_move (i := Input.fromSlice i.data) (j := i) rfl h1
    rw [← g4] at h5
    obtain ⟨e, he⟩ := (repeats_agree hs).mp h5
    exact ⟨r', parseBer_ok.mpr ⟨a', e, g1, (hq _).mpr (g3.2.2.1 ▸ h3),
      (hc _ _ _ _).mpr ⟨g3.2.1 ▸ h4, vs, he, h6⟩⟩, g2⟩
  · rintro ⟨r, h1, rfl⟩
    obtain ⟨a, e, h1, h2, h3⟩ := parseBer_ok.mp h1
    obtain ⟨h4, vs, h5, h6⟩ := (hc _ _ _ _).mp h3
    obtain ⟨r', a', g1, g2, g3, g4⟩ := berAny_move (i := i) (j := Input.fromSlice i.data) rfl h1
    refine ⟨r', a', g1, g2, (hf _ _).mpr ⟨g3.2.2.1 ▸ (hq _).mp h2, g3.2.1 ▸ h4, vs, ?_, h6⟩⟩
    rw [g4]
    exact (repeats_agree hs).mpr ⟨e, h5⟩

theorem map_ok {β γ : Type} {x : Except SErr β} {F : β → γ} {w : γ} :
    (x >>= fun v => pure (F v)) = .ok w ↔ ∃ v, x = .ok v ∧ w = F v := by
  rw [bindS_eq_ok]
  constructor
  · rintro ⟨v, h1, h2⟩; simp [pure, Except.pure] at h2; exact ⟨v, h1, h2.symm⟩
  · rintro ⟨v, h1, rfl⟩; exact ⟨v, h1, rfl⟩

/-- **C38** (BER) If the two BER decoders of the items agree, so do those of `Vec<T>`, of
`SetOf<T>` and of the set collections. The conclusion has the form of the hypothesis, so that this
applies to lists of lists, and so on. -/
theorem C38_containers_ber (p : Parser α) (g : Bytes → Except SErr (Bytes × α))
    (h : SameDecoder p.parseBer g) :
    SameDecoder (vecBer p).parseBer (fromBerWith (seqTryFrom 16 g)) ∧
    SameDecoder (setItemsP anyBer.parseBer p).parseBer (fromBerWith (seqTryFrom 17 g)) ∧
    ∀ S : SetImpl α σ,
      SameDecoder (setP S anyBer.parseBer p).parseBer (fromBerWith (setTryFrom S g)) := by
  have hg := sameDecoder_endsIn h (parseBer_suffix p)
  refine ⟨?_, ?_, fun S => ?_⟩
  · refine container_agree_ber (F := id) (fun t => tagIs_iff) (fun h i e w => ?_) (fun a w => ?_) h
    · rw [vecBer_content]; simp
    · rw [seqTryFrom_ok, collectItems_ok hg]; simp
  · refine container_agree_ber (F := id) (fun t => tagIs_iff) (fun h i e w => ?_) (fun a w => ?_) h
    · rw [setItemsBer_content]; simp
    · rw [seqTryFrom_ok, collectItems_ok hg]; simp
  · refine container_agree_ber (tag := 17) (F := S.ofList) (fun t => tagIs_iff)
      (fun h i e w => ?_) (fun a w => ?_) h
    · unfold setP
      rw [map_content]
      constructor
      · rintro ⟨vs, h1, h2⟩
        obtain ⟨h3, h4⟩ := setItemsBer_content.mp h1
        exact ⟨h3, vs, h4, h2⟩
      · rintro ⟨h3, vs, h4, h2⟩
        exact ⟨vs, setItemsBer_content.mpr ⟨h3, h4⟩, h2⟩
    · unfold setTryFrom
      rw [bindS_eq_ok]
      constructor
      · rintro ⟨_, h1, h2⟩
        obtain ⟨_, h2, h3⟩ := bindS_eq_ok.mp h2
        obtain ⟨vs, h3, h4⟩ := map_ok.mp h3
        exact ⟨assertTagS_ok.mp h1, assertConstructedS_ok.mp h2, vs, (collectItems_ok hg).mp h3, h4⟩
      · rintro ⟨h1, h2, vs, h3, h4⟩
        exact ⟨(), assertTagS_ok.mpr h1, bindS_eq_ok.mpr ⟨(), assertConstructedS_ok.mpr h2,
          map_ok.mpr ⟨vs, (collectItems_ok hg).mpr h3, h4⟩⟩⟩

theorem container_agree_der {q : Parser σ} {G : Bytes → Except SErr (Bytes × σ)} {tag : Nat}
    {it : Input → PRes α} {g : Bytes → Except SErr (Bytes × α)} {F : List α → σ}
    (hq : ∀ t, q.acceptTag t = true ↔ t = tag)
    (hc : ∀ h i e w, q.content h i = .ok (e, w) ↔
      h.constructed = true ∧ ∃ vs, Repeats it i vs e ∧ w = F vs) (C : Bool → Prop)
    (hf : ∀ bytes rem w, G bytes = .ok (rem, w) ↔ ∃ r a,
      parseDerAny (Input.fromSlice bytes) = .ok (r, a) ∧ r.data = rem ∧ a.header.tag = tag ∧
      C a.header.constructed ∧ ∃ vs, RepeatsB g a.data.data vs ∧ w = F vs)
    (hC : C true) (hs : SameDecoder it g) (i : Input) (rem : Bytes) (w : σ) :
    (∃ r, q.parseDer i = .ok (r, w) ∧ r.data = rem) ↔ G i.data = .ok (rem, w) ∧
      ∃ r a, parseDerAny i = .ok (r, a) ∧ a.header.constructed = true := by
  rw [hf]
  constructor
  · rintro ⟨r, h1, rfl⟩
    obtain ⟨a, e, h1, h2, h3⟩ := parseDer_ok.mp h1
    obtain ⟨h4, vs, h5, h6⟩ := (hc _ _ _ _).mp h3
    obtain ⟨r', a', g1, g2, g3, g4⟩ := derAny_move (i := i) (j := Input.fromSlice i.data) rfl h1
    refine ⟨⟨r', a', g1, g2, g3.2.2.1 ▸ (hq _).mp h2, ?_, vs, ?_, h6⟩, r, a, h1, h4⟩
    · rw [← g3.2.1, h4]; exact hC
    · rw [g4]
      exact (repeats_agree hs).mpr ⟨e, h5⟩
  · rintro ⟨⟨r, a, h1, rfl, h2, _, vs, h5, h6⟩, r0, a0, h0, hcons⟩
    obtain ⟨r', a', g1, g2, g3, g4⟩ := derAny_move (i := Input.fromSlice i.data) (j := i) rfl h1
    rw [h0] at g1
    injection g1 with g1
    injection g1 with e1 e2
    subst e1 e2
    rw [← g4] at h5
    obtain ⟨e, he⟩ := (repeats_agree hs).mp h5
    exact ⟨r0, parseDer_ok.mpr ⟨a0, e, h0, (hq _).mpr (g3.2.2.1 ▸ h2),
      (hc _ _ _ _).mpr ⟨hcons, vs, he, h6⟩⟩, g2⟩

/-- **C38** (DER) If the two DER decoders of the items agree, then `parse_der` of `Vec<T>` and
`SetOf<T>` accepts what `from_der` accepts among the constructed objects, with the same result
(`from_der` takes primitive objects too: `C30_primitive_deviation`). For the set collections the two
agree on all inputs. -/
theorem C38_containers_der (p : Parser α) (g : Bytes → Except SErr (Bytes × α))
    (h : SameDecoder p.parseDer g) (i : Input) (rem : Bytes) :
    (∀ vs, (∃ r, (vecDer p).parseDer i = .ok (r, vs) ∧ r.data = rem) ↔
      seqFromDer 16 g i.data = .ok (rem, vs) ∧
        ∃ r a, parseDerAny i = .ok (r, a) ∧ a.header.constructed = true) ∧
    (∀ vs, (∃ r, (setItemsP anyDer.parseDer p).parseDer i = .ok (r, vs) ∧ r.data = rem) ↔
      seqFromDer 17 g i.data = .ok (rem, vs) ∧
        ∃ r a, parseDerAny i = .ok (r, a) ∧ a.header.constructed = true) ∧
    ∀ (S : SetImpl α σ), SameDecoder (setP S anyDer.parseDer p).parseDer (setFromDer S g) := by
  have hg := sameDecoder_endsIn h (parseDer_suffix p)
  have hseq : ∀ tag bytes rem w, seqFromDer tag g bytes = .ok (rem, w) ↔ ∃ r a,
      parseDerAny (Input.fromSlice bytes) = .ok (r, a) ∧ r.data = rem ∧ a.header.tag = tag ∧
      True ∧ ∃ vs, RepeatsB g a.data.data vs ∧ w = id vs := by
    intro tag bytes rem w
    rw [seqFromDer_ok]
    simp only [collectItems_ok hg, id, true_and, exists_eq_right']
  refine ⟨fun vs => ?_, fun vs => ?_, fun S i rem w => ?_⟩
  · exact container_agree_der (F := id) (fun t => tagIs_iff)
      (fun h i e w => by rw [vecDer_content]; simp) (fun _ => True) (hseq 16) trivial h i rem vs
  · exact container_agree_der (F := id) (fun t => tagIs_iff)
      (fun h i e w => by rw [setItemsDer_content]; simp) (fun _ => True) (hseq 17) trivial h i rem vs
  · have hset : ∀ bytes rem w, setFromDer S g bytes = .ok (rem, w) ↔ ∃ r a,
      parseDerAny (Input.fromSlice bytes) = .ok (r, a) ∧ r.data = rem ∧ a.header.tag = 17 ∧
      a.header.constructed = true ∧ ∃ vs, RepeatsB g a.data.data vs ∧ w = S.ofList vs := by
      intro bytes rem w
      unfold setFromDer
      rw [bindS_eq_ok]
      constructor
      · rintro ⟨⟨rm, a⟩, h1, h2⟩
        obtain ⟨r, h0, rfl⟩ := wrapBerParser_ok.mp h1
        obtain ⟨_, h3, h2⟩ := bindS_eq_ok.mp h2
        obtain ⟨_, h4, h2⟩ := bindS_eq_ok.mp h2
        obtain ⟨vs, h5, h6⟩ := map_ok.mp h2
        injection h6 with h6 h7
        exact ⟨r, a, h0, h6.symm, assertTagS_ok.mp h3, assertConstructedS_ok.mp h4, vs,
          (collectItems_ok hg).mp h5, h7⟩
      · rintro ⟨r, a, h1, rfl, h3, h4, vs, h5, rfl⟩
        exact ⟨(r.data, a), wrapBerParser_ok.mpr ⟨r, h1, rfl⟩, bindS_eq_ok.mpr
          ⟨(), assertTagS_ok.mpr h3, bindS_eq_ok.mpr ⟨(), assertConstructedS_ok.mpr h4,
            map_ok.mpr ⟨vs, (collectItems_ok hg).mpr h5, rfl⟩⟩⟩⟩
    have hc : ∀ h i e w, (setP S anyDer.parseDer p).content h i = .ok (e, w) ↔
        h.constructed = true ∧ ∃ vs, Repeats p.parseDer i vs e ∧ w = S.ofList vs := by
      intro h i e w
      unfold setP
      rw [map_content]
      constructor
      · rintro ⟨vs, h1, h2⟩
        obtain ⟨h3, h4⟩ := setItemsDer_content.mp h1
        exact ⟨h3, vs, h4, h2⟩
      · rintro ⟨h3, vs, h4, h2⟩
        exact ⟨vs, setItemsDer_content.mpr ⟨h3, h4⟩, h2⟩
    rw [container_agree_der (F := S.ofList) (fun t => tagIs_iff) hc (fun b => b = true) hset rfl h i rem w]
    constructor
    · intro hh
      refine ⟨hh, ?_⟩
      obtain ⟨r, a, h1, _, _, h4, _⟩ := (hset _ _ _).mp hh
      obtain ⟨r', a', g1, g2, g3, g4⟩ := derAny_move (i := Input.fromSlice i.data) (j := i) rfl h1
      exact ⟨r', a', g1, g3.2.1 ▸ h4⟩
    · exact fun hh => hh.1

/-- A case: a list of two INTEGERs. -/
example : (vecDer (uintDer 1)).parseDer (Input.fromSlice [0x30, 6, 2, 1, 5, 2, 1, 7, 9]) = .ok (⟨[9], 8, 9⟩, [5, 7]) ∧
    seqFromDer 16 (fromDer (uintBer 1) checkDerInt) [0x30, 6, 2, 1, 5, 2, 1, 7, 9] = .ok ([9], [5, 7]) := by
  decide +kernel

/-- **C38** The decoders of the universal types agree at every position (so that the theorems above
apply to containers of them). -/
theorem C38_universal_same (N : Nat) (hN : 1 ≤ N) :
    SameDecoder (uintBer N).parseBer (fromBer (uintBer N)) ∧
    SameDecoder (uintDer N).parseDer (fromDer (uintBer N) checkDerInt) ∧
    SameDecoder (intBer N).parseBer (fromBer (intBer N)) ∧
    SameDecoder (intDer N).parseDer (fromDer (intBer N) checkDerInt) ∧
    SameDecoder integerBer.parseBer (fromBer integerBer) ∧
    SameDecoder integerDer.parseDer (fromDer integerBer checkDerInt) ∧
    SameDecoder boolBer.parseBer (fromBer boolBer) ∧
    SameDecoder boolDer.parseDer (fromDer boolBer booleanCheck) ∧
    SameDecoder nullP.parseBer (fromBer nullP) ∧
    SameDecoder nullP.parseDer (fromDer nullP nullCheck) ∧
    SameDecoder enumeratedBer.parseBer (fromBer enumeratedBer) ∧
    SameDecoder octetBer.parseBer (fromBer octetBer) ∧
    SameDecoder octetDer.parseDer (fromDer octetBer octetCheck) ∧
    SameDecoder bitBer.parseBer (fromBer bitBer) ∧
    SameDecoder oidP.parseBer (fromBer oidP) ∧
    SameDecoder oidP.parseDer (fromDer oidP oidCheck) := by
  refine ⟨sameDecoder_ber (strong_uint N).1.loc, sameDecoder_der (strong_uint N).2.loc ?_,
    sameDecoder_ber (strong_int N).1.loc, sameDecoder_der (strong_int N).2.loc ?_,
    sameDecoder_ber strong_integer.1.loc, sameDecoder_der strong_integer.2.loc ?_,
    sameDecoder_ber strong_bool.1.loc, sameDecoder_der strong_bool.2.loc ?_,
    sameDecoder_ber strong_null.loc, sameDecoder_der strong_null.loc ?_,
    sameDecoder_ber strong_enum.1.loc,
    sameDecoder_ber strong_octet.1.loc, sameDecoder_der strong_octet.2.loc ?_,
    sameDecoder_ber strong_bit.1.loc,
    sameDecoder_ber strong_oid.loc, sameDecoder_der strong_oid.loc ?_⟩
  all_goals intro bs rem v
  · exact (C38_integer_apis_agree N hN bs rem).1 v
  · exact (C38_integer_apis_agree N hN bs rem).2.1 v
  · exact (C38_integer_apis_agree N hN bs rem).2.2 v
  · exact C38_bool_apis_agree bs rem v
  · exact C38_null_apis_agree bs rem
  · exact C38_octet_apis_agree bs rem v
  · exact C38_oid_apis_agree bs rem v

/-- Cases: the decoders of `Vec<Vec<u32>>` agree. -/
example : SameDecoder (vecBer (vecBer (uintBer 4))).parseBer
    (fromBerWith (seqTryFrom 16 (fromBerWith (seqTryFrom 16 (fromBer (uintBer 4)))))) :=
  (C38_containers_ber (σ := Unit) _ _ (C38_containers_ber (σ := Unit) _ _ (C38_universal_same 4 (by omega)).1).1).1

/-! ### Position independence -/

theorem onlyBytes_ber {p : Parser α} (hl : p.Local) : OnlyBytes p.parseBer := by
  intro i r v h
  obtain ⟨e, h1, h2⟩ := parseBer_local hl h
  exact ⟨e, by rintro rfl; simp at h1, h2⟩

theorem onlyBytes_der {p : Parser α} (hl : p.Local) : OnlyBytes p.parseDer := by
  intro i r v h
  obtain ⟨e, h1, h2⟩ := parseDer_local hl h
  exact ⟨e, by rintro rfl; simp at h1, h2⟩

theorem onlyBytes_move {f : Input → PRes α} (hf : OnlyBytes f) {i j r : Input} {v : α}
    (hd : i.data = j.data) (h : f i = .ok (r, v)) : ∃ r', f j = .ok (r', v) ∧ r'.data = r.data := by
  obtain ⟨e, _, h1, _, h2⟩ := hf _ _ _ h
  refine ⟨_, h2 j r.data (hd ▸ h1), ?_⟩
  rw [after_data, ← hd, h1, List.drop_left' rfl]

theorem repeats_move {f : Input → PRes α} (hf : OnlyBytes f) {i j e : Input} {vs : List α}
    (hd : i.data = j.data) (h : Repeats f i vs e) : ∃ e', Repeats f j vs e' := by
  induction h generalizing j with
  | nil h => exact ⟨j, .nil (hd ▸ h)⟩
  | cons hne hp _ ih =>
    obtain ⟨r', h1, h2⟩ := onlyBytes_move hf hd hp
    obtain ⟨e', he⟩ := ih h2.symm
    exact ⟨e', .cons (hd ▸ hne) h1 he⟩

theorem run_move {Ts : List Type} {fs : TupFns Ts} (hf : OnlyBytesAll fs) {i j r : Input}
    {v : Tup Ts} (hd : i.data = j.data) (h : fs.run i = .ok (r, v)) : ∃ r', fs.run j = .ok (r', v) := by
  induction hf generalizing i j r with
  | nil => obtain ⟨⟩ := v; exact ⟨j, rfl⟩
  | cons hf _ ih =>
    obtain ⟨⟨r1, v1⟩, h1, h2⟩ := bind_eq_ok.mp h
    obtain ⟨⟨r2, v2⟩, h3, h4⟩ := bind_eq_ok.mp h2
    obtain ⟨r1', g1, g2⟩ := onlyBytes_move hf hd h1
    obtain ⟨r2', g3⟩ := ih (i := r1) (j := r1') g2.symm h3
    injection h4 with h4
    injection h4 with _ h4
    exact ⟨r2', bind_eq_ok.mpr ⟨(r1', v1), g1, bind_eq_ok.mpr ⟨(r2', v2), g3,
      congrArg (fun w => Except.ok (r2', w)) h4⟩⟩⟩

/-- **C65** What the typed parsers return, for the universal types, their EXPLICIT and IMPLICIT
tags, and lists, sets, arrays and tuples of them, depends only on the bytes consumed, not on what
follows nor on the position of these bytes in the input. -/
theorem C65_only_consumed_bytes :
    (∀ N, OnlyBytes (uintBer N).parseBer ∧ OnlyBytes (uintDer N).parseDer ∧
      OnlyBytes (intBer N).parseBer ∧ OnlyBytes (intDer N).parseDer) ∧
    (OnlyBytes integerBer.parseBer ∧ OnlyBytes integerDer.parseDer) ∧
    (OnlyBytes boolBer.parseBer ∧ OnlyBytes boolDer.parseDer) ∧
    (OnlyBytes nullP.parseBer ∧ OnlyBytes nullP.parseDer) ∧
    (OnlyBytes enumeratedBer.parseBer ∧ OnlyBytes enumeratedDer.parseDer) ∧
    (OnlyBytes octetBer.parseBer ∧ OnlyBytes octetDer.parseDer) ∧
    (OnlyBytes sliceBer.parseBer ∧ OnlyBytes sliceDer.parseDer) ∧
    (OnlyBytes bitBer.parseBer ∧ OnlyBytes bitDer.parseDer) ∧
    (OnlyBytes oidP.parseBer ∧ OnlyBytes oidP.parseDer) ∧
    (∀ tag, OnlyBytes (rawP tag).parseBer ∧ OnlyBytes (rawP tag).parseDer) ∧
    (∀ (cls : Class) (tag : Nat) (f : Input → PRes α), OnlyBytes f →
      OnlyBytes (explicitP cls tag f).parseBer ∧ OnlyBytes (explicitP cls tag f).parseDer) ∧
    (∀ (cls : Class) (tag : Nat) (p : Parser α),
      (∀ h h' i j r v, h.cls = h'.cls → h.constructed = h'.constructed → h.tag = h'.tag →
        h.length = h'.length → h.rawTag = h'.rawTag → i.data = j.data →
        p.content h i = .ok (r, v) → ∃ r', p.content h' j = .ok (r', v)) →
      OnlyBytes (implicitP cls tag p).parseBer ∧ OnlyBytes (implicitP cls tag p).parseDer) ∧
    (∀ p : Parser α, OnlyBytes p.parseBer →
      OnlyBytes (vecBer p).parseBer ∧ OnlyBytes (setItemsP anyBer.parseBer p).parseBer ∧
      ∀ N, OnlyBytes (arrayP N anyBer.parseBer p).parseBer) ∧
    (∀ p : Parser α, OnlyBytes p.parseDer →
      OnlyBytes (vecDer p).parseDer ∧ OnlyBytes (setItemsP anyDer.parseDer p).parseDer ∧
      ∀ N, OnlyBytes (arrayP N anyDer.parseDer p).parseDer) ∧
    (∀ (Ts : List Type) (fs : TupFns Ts), OnlyBytesAll fs →
      OnlyBytes (tupleP fs).parseBer ∧ OnlyBytes (tupleP fs).parseDer) := by
  have both : ∀ {τ : Type} {p : Parser τ}, p.Local → OnlyBytes p.parseBer ∧ OnlyBytes p.parseDer :=
    fun h => ⟨onlyBytes_ber h, onlyBytes_der h⟩
  refine ⟨fun N => ⟨onlyBytes_ber (strong_uint N).1.loc, onlyBytes_der (strong_uint N).2.loc,
      onlyBytes_ber (strong_int N).1.loc, onlyBytes_der (strong_int N).2.loc⟩,
    ⟨onlyBytes_ber strong_integer.1.loc, onlyBytes_der strong_integer.2.loc⟩,
    ⟨onlyBytes_ber strong_bool.1.loc, onlyBytes_der strong_bool.2.loc⟩,
    both strong_null.loc,
    ⟨onlyBytes_ber strong_enum.1.loc, onlyBytes_der strong_enum.2.loc⟩,
    ⟨onlyBytes_ber strong_octet.1.loc, onlyBytes_der strong_octet.2.loc⟩,
    ⟨onlyBytes_ber strong_slice.1.loc, onlyBytes_der strong_slice.2.loc⟩,
    ⟨onlyBytes_ber strong_bit.1.loc, onlyBytes_der strong_bit.2.loc⟩,
    both strong_oid.loc, fun tag => both (strong_raw tag).loc,
    fun cls tag f hf => both (strong_explicit ?_).loc, fun cls tag p hp => both ?_,
    fun p hp => ⟨onlyBytes_ber ?_, onlyBytes_ber ?_, fun N => onlyBytes_ber ?_⟩,
    fun p hp => ⟨onlyBytes_der ?_, onlyBytes_der ?_, fun N => onlyBytes_der ?_⟩,
    fun Ts fs hfs => both ?_⟩
  · refine free_of_local fun i r v h => ?_
    obtain ⟨e, _, h1, _, h2⟩ := hf _ _ _ h
    exact ⟨e, h1, h2⟩
  · intro h h' i j r v hh hd hc
    have hc : (if _ then _ else _) = _ := hc
    by_cases hcls : h.cls ≠ cls
    · rw [if_pos hcls] at hc; simp [nomErr] at hc
    · rw [if_neg hcls] at hc
      obtain ⟨⟨x, v'⟩, h1, h2⟩ := bind_eq_ok.mp hc
      obtain ⟨x', g⟩ := hp _ _ _ _ _ _ hh.1 hh.2.1 hh.2.2.1 hh.2.2.2.1 hh.2.2.2.2 hd h1
      simp [pure, Except.pure] at h2
      refine ⟨x', ?_⟩
      show (if _ then _ else _) = _
      rw [if_neg (hh.1 ▸ hcls)]
      exact bind_eq_ok.mpr ⟨(x', v'), g, by simp [pure, Except.pure, h2.2]⟩
  all_goals intro h h' i j r v hh hd hc
  · obtain ⟨h1, h2⟩ := vecBer_content.mp hc
    obtain ⟨e, he⟩ := repeats_move hp hd h2
    exact ⟨e, vecBer_content.mpr ⟨hh.2.1 ▸ h1, he⟩⟩
  · obtain ⟨h1, h2⟩ := setItemsBer_content.mp hc
    obtain ⟨e, he⟩ := repeats_move hp hd h2
    exact ⟨e, setItemsBer_content.mpr ⟨hh.2.1 ▸ h1, he⟩⟩
  · obtain ⟨h1, h2⟩ := vecBer_content.mp (arrayP_content.mp hc)
    obtain ⟨e, he⟩ := repeats_move hp hd h2
    exact ⟨e, arrayP_content.mpr (vecBer_content.mpr ⟨hh.2.1 ▸ h1, he⟩)⟩
  · obtain ⟨h1, h2⟩ := vecDer_content.mp hc
    obtain ⟨e, he⟩ := repeats_move hp hd h2
    exact ⟨e, vecDer_content.mpr ⟨hh.2.1 ▸ h1, he⟩⟩
  · obtain ⟨h1, h2⟩ := setItemsDer_content.mp hc
    obtain ⟨e, he⟩ := repeats_move hp hd h2
    exact ⟨e, setItemsDer_content.mpr ⟨hh.2.1 ▸ h1, he⟩⟩
  · obtain ⟨h1, h2⟩ := vecDer_content.mp (arrayP_content.mp hc)
    obtain ⟨e, he⟩ := repeats_move hp hd h2
    exact ⟨e, arrayP_content.mpr (vecDer_content.mpr ⟨hh.2.1 ▸ h1, he⟩)⟩
  · exact run_move hfs hd hc

/-- A case: the same INTEGER, followed by other bytes and further on. -/
example : (uintDer 4).parseDer ⟨[2, 1, 5, 9], 0, 4⟩ = .ok (⟨[9], 3, 4⟩, 5) ∧
    (uintDer 4).parseDer ⟨[2, 1, 5], 77, 80⟩ = .ok (⟨[], 80, 80⟩, 5) := by decide +kernel

/-! ### DER within BER -/

theorem repeats_accepts {f f' : Input → PRes α} (h : Accepts f f') {i e : Input} {vs : List α}
    (hr : Repeats f i vs e) : Repeats f' i vs e := by
  induction hr with
  | nil h => exact .nil h
  | cons hne hp _ ih => exact .cons hne (h _ _ _ hp) ih

theorem run_accepts {Ts : List Type} {fs fs' : TupFns Ts} (h : AcceptsAll fs fs') :
    Accepts fs.run fs'.run := by
  induction h with
  | nil => exact fun _ _ _ h => h
  | cons h _ ih =>
    intro i r v hv
    obtain ⟨⟨r1, v1⟩, h1, h2⟩ := bind_eq_ok.mp hv
    obtain ⟨⟨r2, v2⟩, h3, h4⟩ := bind_eq_ok.mp h2
    exact bind_eq_ok.mpr ⟨(r1, v1), h _ _ _ h1, bind_eq_ok.mpr ⟨(r2, v2), ih _ _ _ h3, h4⟩⟩

/-- **C11** What `parse_der` accepts of a `Vec`, `SetOf`, set collection, array or tuple, `parse_ber`
accepts with the same result, if this holds of the items. -/
theorem C11_containers (pb pd : Parser α) (h : Accepts pd.parseDer pb.parseBer) :
    Accepts (vecDer pd).parseDer (vecBer pb).parseBer ∧
    Accepts (setItemsP anyDer.parseDer pd).parseDer (setItemsP anyBer.parseBer pb).parseBer ∧
    (∀ S : SetImpl α σ,
      Accepts (setP S anyDer.parseDer pd).parseDer (setP S anyBer.parseBer pb).parseBer) ∧
    (∀ N, Accepts (arrayP N anyDer.parseDer pd).parseDer (arrayP N anyBer.parseBer pb).parseBer) ∧
    ∀ (Ts : List Type) (fd fb : TupFns Ts), AcceptsAll fd fb →
      Accepts (tupleP fd).parseDer (tupleP fb).parseBer := by
  have key : ∀ {τ : Type} {qd qb : Parser τ}, (∀ t, qd.acceptTag t = true → qb.acceptTag t = true) →
      (∀ h i e w, qd.content h i = .ok (e, w) → qb.content h i = .ok (e, w)) →
      Accepts qd.parseDer qb.parseBer := by
    intro τ qd qb h1 h2 i r v hv
    obtain ⟨a, x, g1, g2, g3⟩ := parseDer_ok.mp hv
    exact parseBer_ok.mpr ⟨a, x, C11_der_subset_ber_any _ _ _ g1, h1 _ g2, h2 _ _ _ _ g3⟩
  have hvec : ∀ hd i e w, (vecDer pd).content hd i = .ok (e, w) →
      (vecBer pb).content hd i = .ok (e, w) := by
    intro hd i e w hv
    obtain ⟨h1, h2⟩ := vecDer_content.mp hv
    exact vecBer_content.mpr ⟨h1, repeats_accepts h h2⟩
  have hset : ∀ hd i e w, (setItemsP anyDer.parseDer pd).content hd i = .ok (e, w) →
      (setItemsP anyBer.parseBer pb).content hd i = .ok (e, w) := by
    intro hd i e w hv
    obtain ⟨h1, h2⟩ := setItemsDer_content.mp hv
    exact setItemsBer_content.mpr ⟨h1, repeats_accepts h h2⟩
  refine ⟨key (fun _ h => h) hvec, key (fun _ h => h) hset, fun S => key (fun _ h => h) ?_,
    fun N => key (fun _ h => h) ?_, fun Ts fd fb hh => key (fun _ h => h) ?_⟩
  · intro hd i e w hv
    obtain ⟨vs, h1, h2⟩ := map_content.mp hv
    exact map_content.mpr ⟨vs, hset _ _ _ _ h1, h2⟩
  · intro hd i e w hv
    exact arrayP_content.mpr (hvec _ _ _ _ (arrayP_content.mp hv))
  · intro hd i e w hv
    exact run_accepts hh _ _ _ hv

/-- A case: `BTreeSet<u32>` and a tuple of two `u32` fields. -/
example : Accepts (uintDer 4).parseDer (uintBer 4).parseBer ∧
    AcceptsAll (.cons (uintDer 4).parseDer .nil : TupFns [Nat]) (.cons (uintBer 4).parseBer .nil) := by
  have h : Accepts (uintDer 4).parseDer (uintBer 4).parseBer := fun i r => (C11_der_subset_ber_integer 4 i r).1
  exact ⟨h, .cons h .nil⟩

end Asn1

import Verif.Spec.Twins
import Verif.Proofs.Canonical
/-!
# Inputs that DER decoding does not tell apart: proofs
-/
namespace Asn1
open Spec

variable {α β : Type}

/-- What a header says. -/
def says (h : Header) : Identity := (h.cls, h.constructed, h.tag)

theorem written_any {i r : Input} {a : Any} (h : parseDerAny i = .ok (r, a)) :
    ∃ o, i.data = o ++ r.data ∧ Written (says a.header) a.data.data o := by
  obtain ⟨r1, n, h1, h2, h3, rfl, h5⟩ := parseDerAny_ok.mp h
  obtain ⟨id, len, g1, g2, g3, _⟩ := parseHeader_ok.mp h1
  have hl : a.data.data.length = n := by
    rw [h5]
    simp [first, h3]
  refine ⟨id ++ len ++ a.data.data, ?_, id, len, g1, ?_, rfl⟩
  · rw [g3, List.append_assoc _ a.data.data]
    congr 1
    rw [h5]
    simp [first, after]
  · rw [hl, ← h2]
    exact g2

/-- What holds of a type. -/
structure Twin (pd : Parser β) (T : Nat → Prop) (A : β → Identity → Bytes → Identity → Bytes → Prop) : Prop where
  accepts : ∀ t, pd.acceptTag t = true → T t
  value : ∀ h h' i i' x x' w, Consistent h i → Consistent h' i' → pd.content h i = .ok (x, w) →
    pd.content h' i' = .ok (x', w) → A w (says h) i.data (says h') i'.data

section
variable {pd : Parser β} {T : Nat → Prop} {A : β → Identity → Bytes → Identity → Bytes → Prop}

theorem Twin.parse (ih : Twin pd T A) {i i' r r' : Input} {w : β} (h : pd.parseDer i = .ok (r, w))
    (h' : pd.parseDer i' = .ok (r', w)) :
    ∃ o o', i.data = o ++ r.data ∧ i'.data = o' ++ r'.data ∧ TwinObject T (A w) o o' := by
  obtain ⟨a, x, h1, h2, h3⟩ := parseDer_ok.mp h
  obtain ⟨a', x', h1', h2', h3'⟩ := parseDer_ok.mp h'
  obtain ⟨o, e, g⟩ := written_any h1
  obtain ⟨o', e', g'⟩ := written_any h1'
  exact ⟨o, o', e, e', _, _, _, _, g, g', ih.accepts _ h2, ih.accepts _ h2',
    ih.value _ _ _ _ _ _ _ (consistent_der h1) (consistent_der h1') h3 h3'⟩

theorem Twin.first (ih : Twin pd T A) {i i' r r' : Input} {w : β} (h : pd.parseDer i = .ok (r, w))
    (h' : pd.parseDer i' = .ok (r', w)) : TwinFirst T (A w) i.data i'.data := by
  obtain ⟨o, o', h1, h2, h3⟩ := ih.parse h h'
  exact ⟨o, _, o', _, h1, h2, h3⟩

theorem Twin.repeats (ih : Twin pd T A) {i i' e e' : Input} {ws : List β} (h : Repeats pd.parseDer i ws e)
    (h' : Repeats pd.parseDer i' ws e') : TwinEach T A ws i.data i'.data := by
  induction h generalizing i' with
  | nil h =>
    cases h' with
    | nil h' => exact ⟨h, h'⟩
  | cons _ hp _ iht =>
    cases h' with
    | cons _ hp' ht' =>
      obtain ⟨o, o', h1, h2, h3⟩ := ih.parse hp hp'
      exact ⟨o, _, o', _, h1, h2, h3, iht ht'⟩

theorem twin_leaf {c : Codec α} {Ok : α → Prop} {K : Bytes → Prop} (hc : CanonLeaf c Ok K)
    (ha : ∀ t, c.der.acceptTag t = true → LeafTag c t) :
    Twin c.der (LeafTag c) fun w _ cs _ cs' => Ok w → K cs → K cs' → cs = cs' := by
  refine ⟨ha, fun h h' i i' x x' w hh hh' hp hp' hw hk hk' => ?_⟩
  obtain ⟨cs, h1, _, h3⟩ := leaf_value hc hh hp hw
  obtain ⟨cs', h1', _, h3'⟩ := leaf_value hc hh' hp' hw
  have : cs = cs' := congrArg Prod.fst (h1.content.symm.trans h1'.content)
  rw [h3 hk, h3' hk', this]

theorem leaf_only {c : Codec α} {Ok : α → Prop} {K : Bytes → Prop} (hc : CanonLeaf c Ok K) (t : Nat)
    (h : c.der.acceptTag t = true) : LeafTag c t := by
  cases hc with
  | oid =>
    have h : (tagIs 6 t || tagIs 13 t) = true := h
    rcases Bool.or_eq_true_iff.mp h with h | h
    · exact .inl (tagIs_iff.mp h)
    · exact .inr ⟨rfl, tagIs_iff.mp h⟩
  | _ => exact .inl (tagIs_iff.mp h)

theorem twin_universalString : Twin univC.der (· = 28) fun _ _ cs _ cs' => cs = cs' := by
  refine ⟨fun _ => tagIs_iff.mp, fun h h' i i' x x' w hh hh' hp hp' => ?_⟩
  obtain ⟨_, _, h2⟩ := (univDer_contents h i w hh).mp ⟨x, hp⟩
  obtain ⟨_, _, h2'⟩ := (univDer_contents h' i' w hh').mp ⟨x', hp'⟩
  exact h2.trans h2'.symm

theorem any_all {h : Header} {i x : Input} {w : Any} (hh : Consistent h i) (hp : anyDer.content h i = .ok (x, w)) :
    w.header = h ∧ w.data.data = i.data := by
  have hp : (derContent h i >>= fun z => (pure (z.1, Any.mk h z.2) : PRes Any)) = .ok (x, w) := hp
  obtain ⟨n, hl⟩ : ∃ n, h.length = .definite n := by
    cases hl : h.length with
    | definite n => exact ⟨n, rfl⟩
    | indefinite => rw [derContent, hl] at hp; simp [nomErr] at hp
  rw [derContent_all (by rw [hl, hh.1 _ hl])] at hp
  injection hp with hp
  injection hp with _ hp
  rw [← hp]
  simp [first_data]

theorem twin_any : Twin anyDer (fun _ => True) fun _ x cs x' cs' => x = x' ∧ cs = cs' := by
  refine ⟨fun _ _ => trivial, fun h h' i i' x x' w hh hh' hp hp' => ?_⟩
  obtain ⟨h1, h2⟩ := any_all hh hp
  obtain ⟨h1', h2'⟩ := any_all hh' hp'
  exact ⟨by rw [← h1, ← h1'], by rw [← h2, ← h2']⟩

theorem twin_vec (ih : Twin pd T A) : Twin (vecDer pd) (· = 16) fun ws x cs x' cs' =>
    x.2.1 = true ∧ x'.2.1 = true ∧ TwinEach T A ws cs cs' := by
  refine ⟨fun _ => tagIs_iff.mp, fun h h' i i' x x' w _ _ hp hp' => ?_⟩
  obtain ⟨h1, h2⟩ := vecDer_content.mp hp
  obtain ⟨h1', h2'⟩ := vecDer_content.mp hp'
  exact ⟨h1, h1', ih.repeats h2 h2'⟩

theorem twin_sequenceOf (ih : Twin pd T A) : Twin (sequenceOfP anyDer.parseDer pd) (· = 16) fun s x cs x' cs' =>
    x.2.1 = true ∧ x'.2.1 = true ∧ TwinEach T A s.items cs cs' := by
  refine ⟨fun _ => tagIs_iff.mp, fun h h' i i' x x' w _ _ hp hp' => ?_⟩
  rw [sequenceOf_map] at hp hp'
  obtain ⟨v, hq, rfl⟩ := map_content.mp hp
  obtain ⟨v', hq', e⟩ := map_content.mp hp'
  injection e with e
  subst e
  obtain ⟨h1, h2⟩ := vecDer_content.mp hq
  obtain ⟨h1', h2'⟩ := vecDer_content.mp hq'
  exact ⟨h1, h1', ih.repeats h2 h2'⟩

theorem twin_setOf (ih : Twin pd T A) : Twin (setOfP anyDer.parseDer pd) (· = 17) fun s x cs x' cs' =>
    x.2.1 = true ∧ x'.2.1 = true ∧ TwinEach T A s.items cs cs' := by
  refine ⟨fun _ => tagIs_iff.mp, fun h h' i i' x x' w _ _ hp hp' => ?_⟩
  obtain ⟨v, hq, rfl⟩ := map_content.mp hp
  obtain ⟨v', hq', e⟩ := map_content.mp hp'
  injection e with e
  subst e
  obtain ⟨h1, h2⟩ := setItemsDer_content.mp hq
  obtain ⟨h1', h2'⟩ := setItemsDer_content.mp hq'
  exact ⟨h1, h1', ih.repeats h2 h2'⟩

theorem repeats_objects {i e : Input} {ws : List β} (h : Repeats pd.parseDer i ws e) :
    ∃ zs : List (β × Bytes), zs.map (·.1) = ws ∧ i.data = (zs.map (·.2)).flatten ∧
      ∀ w o, (w, o) ∈ zs → ∃ j r, j.data = o ++ r.data ∧ pd.parseDer j = .ok (r, w) := by
  induction h with
  | nil h => exact ⟨[], rfl, h, by simp⟩
  | @cons i r e w ws _ hp _ iht =>
    obtain ⟨zs, h1, h2, h3⟩ := iht
    obtain ⟨a, x, g1, _, _⟩ := parseDer_ok.mp hp
    obtain ⟨o, g2, _⟩ := written_any g1
    refine ⟨(w, o) :: zs, by rw [List.map_cons, h1], by rw [g2, h2]; rfl, fun u b hu => ?_⟩
    rcases List.mem_cons.mp hu with hu | hu
    · injection hu with e1 e2
      subst e1; subst e2
      exact ⟨i, r, g2, hp⟩
    · exact h3 u b hu

theorem Twin.members (ih : Twin pd T A) {i i' e e' : Input} {ws ws' : List β} (h : Repeats pd.parseDer i ws e)
    (h' : Repeats pd.parseDer i' ws' e') (hs : ∀ w, w ∈ ws ↔ w ∈ ws') : TwinMembers T A i.data i'.data := by
  obtain ⟨zs, h1, h2, h3⟩ := repeats_objects h
  obtain ⟨zs', h1', h2', h3'⟩ := repeats_objects h'
  refine ⟨zs, zs', h2, h2', by rw [h1, h1']; exact hs, fun w o o' hw hw' => ?_⟩
  obtain ⟨j, r, g1, g2⟩ := h3 w o hw
  obtain ⟨j', r', g1', g2'⟩ := h3' w o' hw'
  obtain ⟨b, b', k1, k2, k3⟩ := ih.parse g2 g2'
  rw [g1] at k1
  rw [g1'] at k2
  rw [List.append_cancel_right k1, List.append_cancel_right k2]
  exact k3

theorem set_members {σ : Type} (S : SetImpl β σ) (ih : Twin pd T A) {h h' : Header} {i i' x x' : Input} {s s' : σ}
    (he : S.eqv s s') (hp : (setP S anyDer.parseDer pd).content h i = .ok (x, s))
    (hp' : (setP S anyDer.parseDer pd).content h' i' = .ok (x', s')) :
    h.constructed = true ∧ h'.constructed = true ∧ TwinMembers T A i.data i'.data := by
  obtain ⟨v, hq, rfl⟩ := map_content.mp hp
  obtain ⟨v', hq', rfl⟩ := map_content.mp hp'
  obtain ⟨h1, h2⟩ := setItemsDer_content.mp hq
  obtain ⟨h1', h2'⟩ := setItemsDer_content.mp hq'
  exact ⟨h1, h1', ih.members h2 h2' fun w => by rw [← S.mem v, ← S.mem v']; exact (S.eqv_iff _ _).mp he w⟩

theorem twin_set {σ : Type} (S : SetImpl β σ) (ih : Twin pd T A) :
    Twin (setP S anyDer.parseDer pd) (· = 17) fun _ x cs x' cs' =>
      x.2.1 = true ∧ x'.2.1 = true ∧ TwinMembers T A cs cs' :=
  ⟨fun _ => tagIs_iff.mp, fun _ _ _ _ _ _ _ _ _ hp hp' => set_members S ih ((S.eqv_iff _ _).mpr fun _ => .rfl) hp hp'⟩

theorem twin_array (N : Nat) (ih : Twin pd T A) : Twin (arrayP N anyDer.parseDer pd) (· = 16) fun w x cs x' cs' =>
    x.2.1 = true ∧ x'.2.1 = true ∧ TwinEach T A w.val cs cs' := by
  refine ⟨fun _ => tagIs_iff.mp, fun h h' i i' x x' w _ _ hp hp' => ?_⟩
  have hp : (vecDer pd).content h i = .ok (x, w.val) := arrayP_content.mp hp
  have hp' : (vecDer pd).content h' i' = .ok (x', w.val) := arrayP_content.mp hp'
  obtain ⟨h1, h2⟩ := vecDer_content.mp hp
  obtain ⟨h1', h2'⟩ := vecDer_content.mp hp'
  exact ⟨h1, h1', ih.repeats h2 h2'⟩

theorem twin_raw (tag : Nat) : Twin (rawP tag) (· = tag) fun _ x cs x' cs' =>
    x.2.1 = true ∧ x'.2.1 = true ∧ cs = cs' := by
  refine ⟨fun _ => tagIs_iff.mp, fun h h' i i' x x' w _ _ hp hp' => ?_⟩
  obtain ⟨h1, rfl, _⟩ := raw_content.mp hp
  obtain ⟨h1', e, _⟩ := raw_content.mp hp'
  injection e with e
  exact ⟨h1, h1', e⟩

theorem twin_explicit (cls : Class) (tag : Nat) (ih : Twin pd T A) :
    Twin (explicitP cls tag pd.parseDer) (· = tag) fun w => Enclosed cls T (A w.inner) := by
  refine ⟨fun _ => tagIs_iff.mp, fun h h' i i' x x' w _ _ hp hp' => ?_⟩
  obtain ⟨h1, h2, _, h3⟩ := explicitP_content.mp hp
  obtain ⟨h1', h2', _, h3'⟩ := explicitP_content.mp hp'
  exact ⟨⟨h2, h1⟩, ⟨h2', h1'⟩, ih.first h3 h3'⟩

theorem twin_implicit (cls : Class) (tag : Nat) (ih : Twin pd T A) :
    Twin (implicitP cls tag pd) (· = tag) fun w => Renamed cls (A w.inner) := by
  refine ⟨fun _ => tagIs_iff.mp, fun h h' i i' x x' w hh hh' hp hp' => ?_⟩
  obtain ⟨h1, h2⟩ := implicitP_content.mp hp
  obtain ⟨h1', h2'⟩ := implicitP_content.mp hp'
  exact ⟨h1, h1', ih.value _ _ _ _ _ _ _ hh hh' h2 h2'⟩

theorem enum_reads {ds : List Nat} (hn : ds.Nodup) {h : Header} {i x : Input} {k : Fin ds.length}
    (hp : (enumP enumeratedDer ds).content h i = .ok (x, k)) : ∃ y, enumeratedDer.content h i = .ok (y, ds[k]) := by
  have hp : (h.assertPrimitive i >>= fun _ => enumeratedDer.content h i >>= fun z =>
    match ds.finIdxOf? z.2 with
    | some k => (.ok (z.1, k) : PRes (Fin ds.length))
    | none => nomErr i (.unexpectedTag none h.tag)) = .ok (x, k) := hp
  obtain ⟨_, _, hp⟩ := bind_eq_ok.mp hp
  obtain ⟨⟨y, n⟩, h1, hp⟩ := bind_eq_ok.mp hp
  have h2 : ds[k] = n := by
    cases e : ds.finIdxOf? n with
    | none => simp [e, nomErr] at hp
    | some j =>
      simp only [e, Except.ok.injEq, Prod.mk.injEq] at hp
      rw [← hp.2]
      exact (finIdxOf_ok hn).mp e
  exact ⟨y, h2 ▸ h1⟩

theorem twin_enum {ds : List Nat} (hn : ds.Nodup) :
    Twin (enumP enumeratedDer ds) (· = 10) fun _ _ cs _ cs' => cs = cs' := by
  refine ⟨fun _ => tagIs_iff.mp, fun h h' i i' x x' k hh hh' hp hp' => ?_⟩
  obtain ⟨y, h1⟩ := enum_reads hn hp
  obtain ⟨y', h1'⟩ := enum_reads hn hp'
  obtain ⟨g1, _, _, g4, _⟩ := (uintDer_content (by decide)).mp (enumDer_content.mp h1)
  obtain ⟨g1', _, _, g4', _⟩ := (uintDer_content (by decide)).mp (enumDer_content.mp h1')
  exact minimal_unique g1 g1' (g4.symm.trans g4')

theorem twin_alias (ih : Twin pd T A) : Twin (aliasP pd) T fun w => A w.inner := by
  refine ⟨ih.accepts, fun h h' i i' x x' w hh hh' hp hp' => ?_⟩
  have key : ∀ {h : Header} {i x : Input}, (aliasP pd).content h i = .ok (x, w) → pd.content h i = .ok (x, w.inner) := by
    intro h i x hp
    obtain ⟨⟨y, v⟩, h1, h2⟩ := bind_eq_ok.mp hp
    injection h2 with h2
    injection h2 with h2 h3
    subst h2; subst h3; exact h1
  exact ih.value _ _ _ _ _ _ _ hh hh' (key hp) (key hp')

theorem twin_other (pd : Parser β) : Twin pd (fun _ => True) fun _ _ _ _ _ => True :=
  ⟨fun _ _ => trivial, fun _ _ _ _ _ _ _ _ _ _ _ => trivial⟩

/-- A field that was read twice. -/
theorem twin_field (ih : Twin pd T A) {tag : FieldTag} {i i' r r' : Input} {w : β} (h : ReadsAs .der pd tag i w r)
    (h' : ReadsAs .der pd tag i' w r') :
    ∃ o o', i.data = o ++ r.data ∧ i'.data = o' ++ r'.data ∧ TwinField tag T (A w) o o' := by
  cases h with
  | untagged h =>
    cases h' with
    | untagged h' => exact ih.parse h h'
  | explicit h hcls htag hc hi =>
    cases h' with
    | explicit h' hcls' htag' hc' hi' =>
      obtain ⟨o, e, g⟩ := written_any h
      obtain ⟨o', e', g'⟩ := written_any h'
      exact ⟨o, o', e, e', _, _, _, _, g, g', htag, htag', ⟨hcls, hc⟩, ⟨hcls', hc'⟩, ih.first hi hi'⟩
  | implicit h hcls htag hi =>
    cases h' with
    | implicit h' hcls' htag' hi' =>
      obtain ⟨o, e, g⟩ := written_any h
      obtain ⟨o', e', g'⟩ := written_any h'
      exact ⟨o, o', e, e', _, _, _, _, g, g', htag, htag', hcls, hcls',
        ih.value _ _ _ _ _ _ _ (consistent_der h) (consistent_der h') hi hi'⟩

end

/-- What holds of the components of a tuple. -/
def TwinInOrder {Us : List Type} (fs : TupFns Us) (As : Tup Us → Bytes → Bytes → Prop) : Prop :=
  ∀ i i' e e' ws, InOrder fs i ws e → InOrder fs i' ws e' → As ws i.data i'.data

/-- What holds of the fields. -/
def TwinReads {Us : List Type} (fd : Fields Us) (As : Tup Us → Bytes → Bytes → Prop) : Prop :=
  ∀ i i' e e' ws, ReadsFields .der fd i ws e → ReadsFields .der fd i' ws e' → As ws i.data i'.data

/-- What holds of the variants. -/
def TwinChoice (k : ChoiceKind) {Us : List Type} (vd : Variants Us)
    (As : HSum Us → Identity → Bytes → Identity → Bytes → Prop) : Prop :=
  ∀ a a' y, Consistent a.header a.data → Consistent a'.header a'.data → ReadsChoice .der k vd a y →
    ReadsChoice .der k vd a' y → As y (says a.header) a.data.data (says a'.header) a'.data.data

section
variable {U : Type} {Us : List Type} {pd : Parser U} {T : Nat → Prop}
  {A : U → Identity → Bytes → Identity → Bytes → Prop}

theorem twin_component {fs : TupFns Us} {As : Tup Us → Bytes → Bytes → Prop} (ih : Twin pd T A)
    (iht : TwinInOrder fs As) :
    TwinInOrder (.cons pd.parseDer fs) fun w bs bs' => ∃ o rest o' rest', bs = o ++ rest ∧ bs' = o' ++ rest' ∧
      TwinObject T (A w.1) o o' ∧ As w.2 rest rest' := by
  rintro i i' e e' ⟨w, ws⟩ h h'
  cases h with
  | cons h ht =>
    cases h' with
    | cons h' ht' =>
      obtain ⟨o, o', h1, h2, h3⟩ := ih.parse h h'
      exact ⟨o, _, o', _, h1, h2, h3, iht _ _ _ _ _ ht ht'⟩

theorem twin_tuple {fs : TupFns Us} {As : Tup Us → Bytes → Bytes → Prop} (ih : TwinInOrder fs As) :
    Twin (tupleP fs) (· = 16) fun ws _ cs _ cs' => As ws cs cs' := by
  refine ⟨fun _ => tagIs_iff.mp, fun h h' i i' x x' w _ _ hp hp' => ?_⟩
  exact ih _ _ _ _ _ (run_ok.mp hp) (run_ok.mp hp')

variable {fd : Fields Us} {As : Tup Us → Bytes → Bytes → Prop}

theorem twin_required {tag : FieldTag} (ih : Twin pd T A) (iht : TwinReads fd As) :
    TwinReads (.cons (.required tag pd) fd) fun w bs bs' => ∃ o rest o' rest', bs = o ++ rest ∧
        bs' = o' ++ rest' ∧ TwinField tag T (A w.1) o o' ∧ As w.2 rest rest' := by
  rintro i i' e e' ⟨w, ws⟩ h h'
  cases h with
  | cons h ht =>
    cases h' with
    | cons h' ht' =>
      obtain ⟨o, o', h1, h2, h3⟩ := twin_field ih h h'
      exact ⟨o, _, o', _, h1, h2, h3, iht _ _ _ _ _ ht ht'⟩

theorem twin_optional {tag : FieldTag} (ih : Twin pd T A) (iht : TwinReads fd As) :
    TwinReads (.cons (.optional tag pd) fd) fun w bs bs' => ∃ o rest o' rest', bs = o ++ rest ∧
        bs' = o' ++ rest' ∧ As w.2 rest rest' ∧
        match w.1 with
        | some v => TwinField tag T (A v) o o'
        | none => o = [] ∧ o' = [] := by
  rintro i i' e e' ⟨w, ws⟩ h h'
  cases h with
  | cons h ht =>
    cases h' with
    | cons h' ht' =>
      rcases h with ⟨v, rfl, h, _⟩ | ⟨rfl, rfl, _⟩ <;> rcases h' with ⟨v', e1, h', _⟩ | ⟨e1, e2, _⟩
      · injection e1 with e1
        subst e1
        obtain ⟨o, o', h1, h2, h3⟩ := twin_field ih h h'
        exact ⟨o, _, o', _, h1, h2, iht _ _ _ _ _ ht ht', h3⟩
      · cases e1
      · cases e1
      · subst e2
        exact ⟨[], _, [], _, rfl, rfl, iht _ _ _ _ _ ht ht', rfl, rfl⟩

theorem readsAs_data {tag : FieldTag} {i r : Input} {w : U} (h : ReadsAs .der pd tag i w r) :
    ∃ o, i.data = o ++ r.data := by
  cases h with
  | untagged h =>
    obtain ⟨a, x, h1, _, _⟩ := parseDer_ok.mp h
    obtain ⟨o, e, _⟩ := written_any h1
    exact ⟨o, e⟩
  | explicit h => obtain ⟨o, e, _⟩ := written_any h; exact ⟨o, e⟩
  | implicit h => obtain ⟨o, e, _⟩ := written_any h; exact ⟨o, e⟩

theorem twin_default {tag : FieldTag} {x : U} (ih : Twin pd T A) (iht : TwinReads fd As) :
    TwinReads (.cons (.default tag pd x) fd) fun w bs bs' => ∃ o rest o' rest', bs = o ++ rest ∧
        bs' = o' ++ rest' ∧ As w.2 rest rest' ∧ (TwinField tag T (A w.1) o o' ∨ w.1 = x ∧ (o = [] ∨ o' = [])) := by
  rintro i i' e e' ⟨w, ws⟩ h h'
  cases h with
  | cons h ht =>
    cases h' with
    | cons h' ht' =>
      rcases h with ⟨h, _⟩ | ⟨e1, rfl, _⟩ <;> rcases h' with ⟨h', _⟩ | ⟨e1', rfl, _⟩
      · obtain ⟨o, o', h1, h2, h3⟩ := twin_field ih h h'
        exact ⟨o, _, o', _, h1, h2, iht _ _ _ _ _ ht ht', .inl h3⟩
      · obtain ⟨o, h1⟩ := readsAs_data h
        exact ⟨o, _, [], _, h1, rfl, iht _ _ _ _ _ ht ht', .inr ⟨e1', .inr rfl⟩⟩
      · obtain ⟨o, h1⟩ := readsAs_data h'
        exact ⟨[], _, o, _, rfl, h1, iht _ _ _ _ _ ht ht', .inr ⟨e1, .inl rfl⟩⟩
      · exact ⟨[], _, [], _, rfl, rfl, iht _ _ _ _ _ ht ht', .inr ⟨e1, .inl rfl⟩⟩

theorem twin_custom {f : Input → PRes U} {C : U → Bytes → Bytes → Prop}
    (h : ∀ i i' r r' w, f i = .ok (r, w) → f i' = .ok (r', w) →
      ∃ o o', i.data = o ++ r.data ∧ i'.data = o' ++ r'.data ∧ C w o o') (iht : TwinReads fd As) :
    TwinReads (.cons (.custom f) fd) fun w bs bs' => ∃ o rest o' rest', bs = o ++ rest ∧ bs' = o' ++ rest' ∧
        C w.1 o o' ∧ As w.2 rest rest' := by
  rintro i i' e e' ⟨w, ws⟩ g g'
  cases g with
  | cons g gt =>
    cases g' with
    | cons g' gt' =>
      obtain ⟨o, o', h1, h2, h3⟩ := h _ _ _ _ _ g g'
      exact ⟨o, _, o', _, h1, h2, h3, iht _ _ _ _ _ gt gt'⟩

theorem twin_struct (tag : Nat) (ih : TwinReads fd As) :
    Twin (structP .der tag fd) (· = tag) fun ws x cs x' cs' => x.2.1 = true ∧ x'.2.1 = true ∧ As ws cs cs' := by
  refine ⟨fun _ => tagIs_iff.mp, fun h h' i i' x x' w _ _ hp hp' => ?_⟩
  obtain ⟨_, h1, h2⟩ := bind_eq_ok.mp hp
  obtain ⟨_, h1', h2'⟩ := bind_eq_ok.mp hp'
  exact ⟨assertConstructed_ok.mp h1, assertConstructed_ok.mp h1', ih _ _ _ _ _ (fields_run_ok.mp h2)
    (fields_run_ok.mp h2')⟩

theorem twin_variant {k : ChoiceKind} {n : Nat} {vd : Variants Us}
    {As : HSum Us → Identity → Bytes → Identity → Bytes → Prop} (ih : Twin pd T A) (iht : TwinChoice k vd As) :
    TwinChoice k (.cons n pd vd)
      (Sum.elim (fun w => TwinVariant k n T (A w)) As : U ⊕ HSum Us → Identity → Bytes → Identity → Bytes → Prop) := by
  rintro a a' (w | y) hh hh' ⟨h1, h2⟩ ⟨h1', h2'⟩
  · cases k with
    | explicit =>
      obtain ⟨hc, x, h2⟩ := h2
      obtain ⟨hc', x', h2'⟩ := h2'
      exact ⟨⟨hc, h1⟩, ⟨hc', h1'⟩, ih.first h2 h2'⟩
    | implicit =>
      obtain ⟨x, h2⟩ := h2
      obtain ⟨x', h2'⟩ := h2'
      exact ⟨h1, h1', ih.value _ _ _ _ _ _ _ hh hh' h2 h2'⟩
    | untagged =>
      obtain ⟨x, h2⟩ := h2
      obtain ⟨x', h2'⟩ := h2'
      exact ⟨ih.accepts _ h1, ih.accepts _ h1', ih.value _ _ _ _ _ _ _ hh hh' h2 h2'⟩
  · exact iht a a' y hh hh' h2 h2'

theorem twin_choice {k : ChoiceKind} {vd : Variants Us}
    {As : HSum Us → Identity → Bytes → Identity → Bytes → Prop} (ih : TwinChoice k vd As) :
    Twin (choiceP .der k vd) (fun _ => True) As := by
  refine ⟨fun _ _ => trivial, fun h h' i i' x x' y hh hh' hp hp' => ?_⟩
  exact ih ⟨h, i⟩ ⟨h', i'⟩ y hh hh' (choice_content_ok.mp ⟨x, hp⟩) (choice_content_ok.mp ⟨x', hp'⟩)

end

theorem twins {pd : Parser β} {T : Nat → Prop} {A : β → Identity → Bytes → Identity → Bytes → Prop}
    (h : Twins pd T A) : Twin pd T A := by
  refine Twins.rec
    (motive_1 := fun {_} pd T A _ => Twin pd T A)
    (motive_2 := fun {_} fs As _ => TwinInOrder fs As)
    (motive_3 := fun {_} fd As _ => TwinReads fd As)
    (motive_4 := fun k {_} vd As _ => TwinChoice k vd As)
    ?_ ?_ ?_ ?_ ?_ ?_ ?_ ?_ ?_ ?_ ?_ ?_ ?_ ?_ ?_ ?_ ?_ ?_ ?_ ?_ ?_ ?_ ?_ ?_ ?_ ?_ h
  · intro _ _ _ _ h; exact twin_leaf h (leaf_only h)
  · exact twin_universalString
  · exact twin_any
  · intros; exact twin_vec ‹_›
  · intros; exact twin_sequenceOf ‹_›
  · intros; exact twin_setOf ‹_›
  · intro _ _ S _ _ _ _ ih; exact twin_set S ih
  · intro _ _ _ _ N _ ih; exact twin_array N ih
  · exact twin_raw
  · intro _ _ _ _ cls tag _ ih; exact twin_explicit cls tag ih
  · intro _ _ _ _ cls tag _ ih; exact twin_implicit cls tag ih
  · intro _ _ _ _ ih; exact twin_tuple ih
  · intro _ _ _ tag _ ih; exact twin_struct tag ih
  · intro _ _ _ k _ ih; exact twin_choice ih
  · intro ds hn; exact twin_enum hn
  · intro _ _ _ _ _ ih; exact twin_alias ih
  · intro _ pd; exact twin_other pd
  · intro _ _ _ _ _ _ _; trivial
  · intro _ _ _ _ _ _ _ _ _ ih iht; exact twin_component ih iht
  · intro _ _ _ _ _ _ _; trivial
  · intro _ _ _ _ _ _ _ tag _ _ ih iht; exact twin_required ih iht
  · intro _ _ _ _ _ _ _ tag _ _ ih iht; exact twin_optional ih iht
  · intro _ _ _ _ _ _ _ tag x _ _ ih iht; exact twin_default ih iht
  · intro _ _ _ _ _ _ h _ iht; exact twin_custom h iht
  · intro _ _ _ _ y; exact nomatch y
  · intro _ _ _ _ _ _ _ _ n _ _ ih iht; exact twin_variant ih iht

end Asn1

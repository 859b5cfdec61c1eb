import Verif.Spec.TwoWayUpTo
import Verif.Proofs.TwoWay
/-!
# Decoded values can be encoded, and an equal value comes back
-/
namespace Asn1
open Spec

variable {α β : Type} {m : Rules}

/-- What holds of every type that can be decoded and encoded. -/
structure ReturnsEqual (m : Rules) (r : Bool) (t : ToBer α) (pb pd : Parser β) (rep : β → α) (Ok : β → Prop)
    (eq : β → β → Prop) : Prop where
  tags : ∀ n, pd.acceptTag n = pb.acceptTag n
  value : ∀ h i x w, Consistent h i → (m.pick pb pd).content h i = .ok (x, w) → Ok w →
    (∃ w', eq w w' ∧ Value r t pb pd (rep w) w') ∧
    (pb.acceptTag h.tag = true → TagKept (t.tagInfo (rep w)).2.2 h.tag)

section
variable {r : Bool} {t : ToBer α} {pb pd : Parser β} {rep : β → α} {Ok : β → Prop} {eq : β → β → Prop}

theorem ReturnsEqual.parse (h : ReturnsEqual m r t pb pd rep Ok eq) {i x : Input} {w : β}
    (hp : m.parse (m.pick pb pd) i = .ok (x, w)) (hw : Ok w) : ∃ w', eq w w' ∧ Value r t pb pd (rep w) w' := by
  obtain ⟨a, y, h1, _, h3⟩ := rules_parse hp
  exact (h.value _ _ _ _ (consistent_any h1) h3 hw).1

theorem ReturnsEqual.repeats (h : ReturnsEqual m r t pb pd rep Ok eq) {i e : Input} {ws : List β}
    (hp : Repeats (m.parse (m.pick pb pd)) i ws e) (hw : ∀ w ∈ ws, Ok w) :
    ∃ ws', Pointwise eq ws ws' ∧ Values t pb pd (ws.map rep) ws' := by
  induction hp with
  | nil _ => exact ⟨[], .nil, .nil⟩
  | cons _ h1 _ ih =>
    obtain ⟨w', g1, g2⟩ := h.parse h1 (hw _ (by simp))
    obtain ⟨ws', g3, g4⟩ := ih fun w hm => hw w (by simp [hm])
    exact ⟨w' :: ws', .cons g1 g3, .cons g2 g4⟩

theorem returns_same (ih : Restores m r t pb pd rep Ok) : ReturnsEqual m r t pb pd rep Ok (· = ·) :=
  ⟨ih.tags, fun h i x w hh hp hw =>
    ⟨⟨w, rfl, (ih.value h i x w hh hp hw).1⟩, (ih.value h i x w hh hp hw).2⟩⟩

theorem returns_set {σ : Type} {t : ToBer α} {pb pd : Parser α} {Ok : α → Prop} (S : SetImpl α σ)
    (ih : Restores m r t pb pd id Ok) :
    ReturnsEqual m true (setToBer S t) (setP S anyBer.parseBer pb) (setP S anyDer.parseDer pd) id
      (fun s => (∀ w ∈ S.toList s, Ok w) ∧ SmallContent (setToBer S t) s) S.eqv := by
  refine ⟨fun _ => rfl, fun h i x w _ hp hs => ⟨?_, kept_tag rfl⟩⟩
  obtain ⟨v, h1, rfl⟩ := pick_map hp
  refine ⟨S.ofList (S.toList (S.ofList v)), (S.eqv_iff _ _).mpr fun x => (S.mem _ x).symm,
    .set S S (values_id (r := r) fun u hu => ?_) hs.2⟩
  obtain ⟨j, y, h2⟩ := repeats_mem (pick_setItems h1) u ((S.mem v u).mp hu)
  exact ih.parse h2 (hs.1 u hu)

theorem returns_vec (ih : ReturnsEqual m r t pb pd rep Ok eq) :
    ReturnsEqual m true (listToBer 16 t) (vecBer pb) (vecDer pd) (List.map rep) (fun ws =>
      (∀ w ∈ ws, Ok w) ∧ SmallContent (listToBer 16 t) (ws.map rep)) (Pointwise eq) := by
  refine ⟨fun _ => rfl, fun _ _ _ _ _ hp hs => ⟨?_, kept_tag rfl⟩⟩
  obtain ⟨ws', h1, h2⟩ := ih.repeats (pick_vec hp) hs.1
  exact ⟨ws', h1, .vec h2 hs.2⟩

theorem returns_sequenceOf (ih : ReturnsEqual m r t pb pd rep Ok eq) :
    ReturnsEqual m true (listToBer 16 t) (sequenceOfP anyBer.parseBer pb) (sequenceOfP anyDer.parseDer pd)
      (fun s => s.items.map rep) (fun s =>
      (∀ w ∈ s.items, Ok w) ∧ SmallContent (listToBer 16 t) (s.items.map rep))
      fun s s' => Pointwise eq s.items s'.items := by
  refine ⟨fun _ => rfl, fun h i x w _ hp hs => ⟨?_, kept_tag rfl⟩⟩
  have hq := hp
  rw [sequenceOf_map, sequenceOf_map] at hq
  obtain ⟨v, h1, rfl⟩ := pick_map hq
  obtain ⟨ws', h2, h3⟩ := ih.repeats (pick_vec h1) hs.1
  exact ⟨⟨ws'⟩, h2, .sequenceOf h3 hs.2⟩

theorem returns_setOf (ih : ReturnsEqual m r t pb pd rep Ok eq) :
    ReturnsEqual m true (listToBer 17 t) (setOfP anyBer.parseBer pb) (setOfP anyDer.parseDer pd)
      (fun s => s.items.map rep) (fun s =>
      (∀ w ∈ s.items, Ok w) ∧ SmallContent (listToBer 17 t) (s.items.map rep))
      fun s s' => Pointwise eq s.items s'.items := by
  refine ⟨fun _ => rfl, fun h i x w _ hp hs => ⟨?_, kept_tag rfl⟩⟩
  obtain ⟨v, h1, rfl⟩ := pick_map hp
  obtain ⟨ws', h2, h3⟩ := ih.repeats (pick_setItems h1) hs.1
  exact ⟨⟨ws'⟩, h2, .setOf h3 hs.2⟩

theorem returns_array (N : Nat) (ih : ReturnsEqual m r t pb pd rep Ok eq) :
    ReturnsEqual m true (arrayToBer N t) (arrayP N anyBer.parseBer pb) (arrayP N anyDer.parseDer pd)
      (fun w => ⟨w.val.map rep, by rw [List.length_map, w.property]⟩) (fun w =>
      (∀ x ∈ w.val, Ok x) ∧ SmallContent (arrayToBer N t) ⟨w.val.map rep, by rw [List.length_map, w.property]⟩)
      fun w w' => Pointwise eq w.val w'.val := by
  refine ⟨fun _ => rfl, fun h i x w _ hp hs => ⟨?_, kept_tag rfl⟩⟩
  have h1 : (m.pick (vecBer pb) (vecDer pd)).content h i = .ok (x, w.val) := by
    cases m <;> exact arrayP_content.mp hp
  obtain ⟨ws', h2, h3⟩ := ih.repeats (pick_vec h1) hs.1
  exact ⟨⟨ws', (pointwise_length h2).symm.trans w.property⟩, h2, .array N h3 hs.2⟩

theorem returns_explicit (cls : Class) {tag : Nat} (htag : tag < 2 ^ 32) {dynTag : α → Nat}
    (hdyn : ∀ v, dynTag v = (t.tagInfo v).2.2) (ih : ReturnsEqual m r t pb pd rep Ok eq) :
    ReturnsEqual m false (explicitToBer cls tag dynTag t) (explicitP cls tag pb.parseBer)
      (explicitP cls tag pd.parseDer) (fun w => ⟨rep w.inner⟩) (fun w =>
      Ok w.inner ∧ SmallContent (explicitToBer cls tag dynTag t) ⟨rep w.inner⟩)
      fun w w' => eq w.inner w'.inner := by
  refine ⟨fun _ => rfl, fun h i x w _ hp hs => ⟨?_, kept_tag rfl⟩⟩
  have h1 : (explicitP cls tag (m.parse (m.pick pb pd))).content h i = .ok (x, w) := by cases m <;> exact hp
  obtain ⟨w', h2, h3⟩ := ih.parse (explicitP_content.mp h1).2.2.2 hs.1
  exact ⟨⟨w'⟩, h2, .explicit cls tag htag (hdyn _) h3 hs.2⟩

theorem returns_implicit (cls : Class) {tag : Nat} (htag : tag < 2 ^ 32) {dynC : α → Bool}
    (hdyn : ∀ v, dynC v = (t.tagInfo v).2.1) (ih : ReturnsEqual m true t pb pd rep Ok eq) :
    ReturnsEqual m false (implicitToBer cls tag dynC t) (implicitP cls tag pb) (implicitP cls tag pd)
      (fun w => ⟨rep w.inner⟩) (fun w => Ok w.inner) fun w w' => eq w.inner w'.inner := by
  refine ⟨fun _ => rfl, fun h i x w hh hp hs => ⟨?_, kept_tag rfl⟩⟩
  have h1 : (m.pick pb pd).content h i = .ok (x, w.inner) := by cases m <;> exact (implicitP_content.mp hp).2
  obtain ⟨w', h2, h3⟩ := (ih.value _ _ _ _ hh h1 hs).1
  exact ⟨⟨w'⟩, h2, .implicit cls tag htag (hdyn _) h3⟩

theorem returns_alias (ih : ReturnsEqual m r t pb pd rep Ok eq) :
    ReturnsEqual m r (aliasToBer t) (aliasP pb) (aliasP pd) (fun w => ⟨rep w.inner⟩) (fun w => Ok w.inner)
      fun w w' => eq w.inner w'.inner := by
  refine ⟨ih.tags, fun h i x w hh hp hs => ?_⟩
  have h1 : (m.pick pb pd).content h i = .ok (x, w.inner) := by
    cases m <;> (obtain ⟨⟨y, v⟩, h1, h2⟩ := bind_eq_ok.mp hp; injection h2 with h2; injection h2 with h2 h3;
                 subst h2; subst h3; exact h1)
  obtain ⟨⟨w', h2, h3⟩, h4⟩ := ih.value _ _ _ _ hh h1 hs
  exact ⟨⟨⟨w'⟩, h2, .alias h3⟩, h4⟩

end

/-- What holds of the fields. -/
def ReturnsFields (m : Rules) {Ts Us : List Type} (es : EncFields Ts) (fb fd : Fields Us) (rep : Tup Us → Tup Ts)
    (Ok : Tup Us → Prop) (eq : Tup Us → Tup Us → Prop) : Prop :=
  ∀ i ws e, ReadsFields m (m.pickFields fb fd) i ws e → Ok ws → ∃ ws', eq ws ws' ∧ FieldValues es fb fd (rep ws) ws'

section
variable {r : Bool} {t : ToBer α} {pb pd : Parser β} {rep : β → α} {Ok : β → Prop} {eq : β → β → Prop}

theorem returns_field (ih : ReturnsEqual m r t pb pd rep Ok eq) {tag : FieldTag} {i x : Input} {w : β}
    (h : ReadsAs m (m.pick pb pd) tag i w x) (hw : Ok w) : ∃ w', eq w w' ∧ Value r t pb pd (rep w) w' := by
  cases h with
  | untagged h => exact ih.parse h hw
  | explicit _ _ _ _ h => exact ih.parse h hw
  | implicit h1 _ _ h => exact (ih.value _ _ _ _ (consistent_any h1) h hw).1

variable {Ts Us : List Type} {es : EncFields Ts} {fb fd : Fields Us} {reps : Tup Us → Tup Ts} {Oks : Tup Us → Prop}
  {eqs : Tup Us → Tup Us → Prop}

theorem returns_required {tag : FieldTag} (hv : FieldTag.Valid tag) (ih : ReturnsEqual m r t pb pd rep Ok eq)
    (hr : (∃ cls n, tag = .implicit cls n) → r = true) (iht : ReturnsFields m es fb fd reps Oks eqs) :
    ReturnsFields m (.cons tag t es) (.cons (.required tag pb) fb) (.cons (.required tag pd) fd)
      (fun w => (rep w.1, reps w.2)) (fun w => (Ok w.1 ∧ (tag ≠ .untagged →
        ∀ n, t.totalLen (rep w.1) = .definite n → n < 2 ^ 24)) ∧ Oks w.2)
      fun w w' => eq w.1 w'.1 ∧ eqs w.2 w'.2 := by
  rintro i ⟨w, ws⟩ e h ⟨⟨h1, h2⟩, h3⟩
  have e1 : m.pickFields (.cons (.required tag pb) fb) (.cons (.required tag pd) fd) =
      .cons (.required tag (m.pick pb pd)) (m.pickFields fb fd) := by cases m <;> rfl
  rw [e1] at h
  cases h with
  | cons h ht =>
    obtain ⟨w', g1, g2⟩ := returns_field ih h h1
    obtain ⟨ws', g3, g4⟩ := iht _ _ _ ht h3
    exact ⟨(w', ws'), ⟨g1, g3⟩, .required tag hv g2 hr h2 g4⟩

theorem returns_default {tag : FieldTag} {d : β} (hv : FieldTag.Valid tag)
    (ih : ReturnsEqual m r t pb pd rep Ok eq) (hr : (∃ cls n, tag = .implicit cls n) → r = true)
    (hx : ∃ d', eq d d' ∧ Value r t pb pd (rep d) d') (iht : ReturnsFields m es fb fd reps Oks eqs) :
    ReturnsFields m (.cons tag t es) (.cons (.default tag pb d) fb) (.cons (.default tag pd d) fd)
      (fun w => (rep w.1, reps w.2)) (fun w => (Ok w.1 ∧ (tag ≠ .untagged →
        ∀ n, t.totalLen (rep w.1) = .definite n → n < 2 ^ 24)) ∧ Oks w.2)
      fun w w' => eq w.1 w'.1 ∧ eqs w.2 w'.2 := by
  rintro i ⟨w, ws⟩ e h ⟨⟨h1, h2⟩, h3⟩
  have e1 : m.pickFields (.cons (.default tag pb d) fb) (.cons (.default tag pd d) fd) =
      .cons (.default tag (m.pick pb pd) d) (m.pickFields fb fd) := by cases m <;> rfl
  rw [e1] at h
  cases h with
  | cons h ht =>
    have hw : ∃ w', eq w w' ∧ Value r t pb pd (rep w) w' := by
      rcases h with ⟨h, _⟩ | ⟨rfl, _, _⟩
      · exact returns_field ih h h1
      · exact hx
    obtain ⟨w', g1, g2⟩ := hw
    obtain ⟨ws', g3, g4⟩ := iht _ _ _ ht h3
    exact ⟨(w', ws'), ⟨g1, g3⟩, .default tag d hv g2 hr h2 g4⟩

theorem returns_struct {tag : Nat} (htag : tag < 2 ^ 32) (ih : ReturnsFields m es fb fd reps Oks eqs) :
    ReturnsEqual m true (structToBer tag es) (structP .ber tag fb) (structP .der tag fd) reps (fun ws =>
      Oks ws ∧ overcount es (reps ws) = 0 ∧ SmallContent (structToBer tag es) (reps ws)) eqs := by
  refine ⟨fun _ => rfl, fun h i x w _ hp hs => ⟨?_, kept_tag rfl⟩⟩
  have h1 : (structP m tag (m.pickFields fb fd)).content h i = .ok (x, w) := by cases m <;> exact hp
  obtain ⟨_, _, h2⟩ := bind_eq_ok.mp h1
  obtain ⟨w', h3, h4⟩ := ih _ _ _ (fields_run_ok.mp h2) hs.1
  exact ⟨w', h3, .struct tag htag h4 hs.2.1 hs.2.2⟩

end

/-- What holds of the variants. -/
structure ReturnsVariants (m : Rules) (k : ChoiceKind) {Ts Us : List Type} (es : EncVariants Ts)
    (vb vd : Variants Us) (rep : HSum Us → HSum Ts) (Ok : HSum Us → Prop) (eq : HSum Us → HSum Us → Prop) : Prop where
  tags : ∀ n, vd.accept k n = vb.accept k n
  value : ∀ a y, Consistent a.header a.data → ReadsChoice m k (m.pickVariants vb vd) a y → Ok y →
    ∃ y' g, eq y y' ∧ VariantValue k es vb vd (rep y) y' g ∧ (es.info k (rep y)).2.2 = g ∧
      TagKept g a.header.tag ∧ (k ≠ .untagged → g = a.header.tag)

section
variable {r : Bool} {t : ToBer α} {pb pd : Parser β} {rep : β → α} {Ok : β → Prop} {eq : β → β → Prop}
variable {Ts Us : List Type} {es : EncVariants Ts} {vb vd : Variants Us} {reps : HSum Us → HSum Ts}
  {Oks : HSum Us → Prop} {eqs : HSum Us → HSum Us → Prop} {k : ChoiceKind}

theorem returns_variant {n : Nat} (hn : n < 2 ^ 32) {dyn : α → Class × Bool × Nat}
    (hdyn : ∀ v, dyn v = t.tagInfo v) (ih : ReturnsEqual m r t pb pd rep Ok eq) (hr : k = .implicit → r = true)
    (ho : k = .untagged → pb.acceptTag 6 = true → pb.acceptTag 13 = true)
    (iht : ReturnsVariants m k es vb vd reps Oks eqs) :
    ReturnsVariants m k (.cons n dyn t es) (.cons n pb vb) (.cons n pd vd)
      (Sum.map rep reps : β ⊕ HSum Us → α ⊕ HSum Ts) (Sum.elim Ok Oks : β ⊕ HSum Us → Prop)
      (SumEq eq eqs : β ⊕ HSum Us → β ⊕ HSum Us → Prop) := by
  constructor
  · intro j
    show (variantAccept k n pd j || vd.accept k j) = (variantAccept k n pb j || vb.accept k j)
    rw [iht.tags]
    cases k with
    | untagged => show (pd.acceptTag j || _) = (pb.acceptTag j || _); rw [ih.tags]
    | _ => rfl
  · intro a y hh h hw
    have e1 : m.pickVariants (.cons n pb vb) (.cons n pd vd) =
        .cons n (m.pick pb pd) (m.pickVariants vb vd) := by cases m <;> rfl
    have e2 : (m.pick pb pd).acceptTag a.header.tag = pb.acceptTag a.header.tag := by
      cases m
      · rfl
      · exact ih.tags _
    rw [e1] at h
    rcases y with w | y
    · obtain ⟨h1, h2⟩ := h
      have hw : Ok w := hw
      cases k with
      | explicit =>
        obtain ⟨_, x, h2⟩ := h2
        obtain ⟨w', g1, g2⟩ := ih.parse h2 hw
        exact ⟨.inl w', n, g1, .here hn (hdyn _) g2 hr, rfl, .inl h1.symm, fun _ => h1.symm⟩
      | implicit =>
        obtain ⟨x, h2⟩ := h2
        obtain ⟨w', g1, g2⟩ := (ih.value _ _ _ _ hh h2 hw).1
        exact ⟨.inl w', n, g1, .here hn (hdyn _) g2 hr, rfl, .inl h1.symm, fun _ => h1.symm⟩
      | untagged =>
        obtain ⟨x, h2⟩ := h2
        obtain ⟨⟨w', g1, g2⟩, h4⟩ := ih.value _ _ _ _ hh h2 hw
        refine ⟨.inl w', (t.tagInfo (rep w)).2.2, g1, .here hn (hdyn _) g2 hr, ?_, h4 (e2 ▸ h1), by simp⟩
        show (dyn (rep w)).2.2 = _
        rw [hdyn]
    · obtain ⟨h1, h2⟩ := h
      obtain ⟨y', g, g0, g1, g2, g3, g4⟩ := iht.value a y hh h2 hw
      have hb : ¬ Selects k n pb g := by
        cases k with
        | untagged =>
          have h1 : ¬ ((m.pick pb pd).acceptTag a.header.tag = true) := h1
          rw [e2] at h1
          intro hg
          have hg : pb.acceptTag g = true := hg
          rcases g3 with rfl | ⟨rfl, g3⟩
          · exact h1 hg
          · rw [g3] at h1; exact h1 (ho rfl hg)
        | explicit => rw [g4 (by simp)]; exact h1
        | implicit => rw [g4 (by simp)]; exact h1
      have hd : ¬ Selects k n pd g := by
        cases k with
        | untagged =>
          intro hg
          have hg : pd.acceptTag g = true := hg
          exact hb ((ih.tags g).symm.trans hg)
        | explicit => exact hb
        | implicit => exact hb
      exact ⟨.inr y', g, g0, .there hb hd g1, g2, g3, g4⟩

theorem returns_choice (ih : ReturnsVariants m k es vb vd reps Oks eqs) :
    ReturnsEqual m false (choiceToBer k es) (choiceP .ber k vb) (choiceP .der k vd) reps (fun y =>
      Oks y ∧ SmallContent (choiceToBer k es) (reps y)) eqs := by
  refine ⟨ih.tags, fun h i x w hh hp hs => ?_⟩
  have h1 : (choiceP m k (m.pickVariants vb vd)).content h i = .ok (x, w) := by cases m <;> exact hp
  obtain ⟨w', g, g0, g1, g2, g3, _⟩ := ih.value ⟨h, i⟩ w hh (choice_content_ok.mp ⟨x, h1⟩) hs.1
  refine ⟨⟨w', g0, .choice k g1 hs.2⟩, fun _ => ?_⟩
  show TagKept (es.info k (reps w)).2.2 _
  rw [g2]; exact g3

end

theorem returns {r : Bool} {t : ToBer α} {pb pd : Parser β} {rep : β → α} {Ok : β → Prop} {eq : β → β → Prop}
    (h : TwoWayUpTo m r t pb pd rep Ok eq) : ReturnsEqual m r t pb pd rep Ok eq := by
  refine TwoWayUpTo.rec
    (motive_1 := fun r {_ _} t pb pd rep Ok eq _ => ReturnsEqual m r t pb pd rep Ok eq)
    (motive_2 := fun {_ _} es fb fd rep Ok eq _ => ReturnsFields m es fb fd rep Ok eq)
    (motive_3 := fun k {_ _} es vb vd rep Ok eq _ => ReturnsVariants m k es vb vd rep Ok eq)
    ?_ ?_ ?_ ?_ ?_ ?_ ?_ ?_ ?_ ?_ ?_ ?_ ?_ ?_ ?_ ?_ h
  · intro _ _ _ _ _ _ _ _ h; exact returns_same (restores h)
  · intro _ _ _ _ _ _ _ S h; exact returns_set S (restores h)
  · intros; exact returns_vec ‹_›
  · intros; exact returns_sequenceOf ‹_›
  · intros; exact returns_setOf ‹_›
  · intro _ _ _ _ _ _ _ _ _ N _ ih; exact returns_array N ih
  · intro _ _ _ _ _ _ _ _ _ cls tag htag _ hdyn _ ih; exact returns_explicit cls htag hdyn ih
  · intro _ _ _ _ _ _ _ _ cls tag htag _ hdyn _ ih; exact returns_implicit cls htag hdyn ih
  · intro _ _ _ _ _ _ _ _ tag htag _ ih; exact returns_struct htag ih
  · intro _ _ _ _ _ _ _ _ k _ ih; exact returns_choice ih
  · intro _ _ _ _ _ _ _ _ _ _ ih; exact returns_alias ih
  · intro i ws e _ _; exact ⟨(), trivial, .nil⟩
  · intro _ _ _ _ _ _ _ _ _ _ _ _ _ _ _ _ _ tag hv _ hr _ ih iht; exact returns_required hv ih hr iht
  · intro _ _ _ _ _ _ _ _ _ _ _ _ _ _ _ _ _ tag x hv _ hr hx _ ih iht; exact returns_default hv ih hr hx iht
  · intros; exact ⟨fun _ => rfl, fun _ y => nomatch y⟩
  · intro _ _ _ _ _ _ _ _ _ _ _ _ _ _ _ _ _ _ _ hn _ hdyn _ hr ho _ ih iht
    exact returns_variant hn hdyn ih hr ho iht

/-! ### The equality is one -/

theorem pointwise_equality {eq : β → β → Prop} (h : Equivalence eq) : Equivalence (Pointwise eq) := by
  refine ⟨fun l => ?_, fun {a b} hab => ?_, fun {a b c} hab => ?_⟩
  · induction l with
    | nil => exact .nil
    | cons x l ih => exact .cons (h.refl x) ih
  · induction hab with
    | nil => exact .nil
    | cons g _ ih => exact .cons (h.symm g) ih
  · induction hab generalizing c with
    | nil => exact fun g => g
    | cons g _ ih =>
      intro hbc
      cases hbc with
      | cons g' hbc => exact .cons (h.trans g g') (ih hbc)

theorem comap_equality {γ : Type} {eq : β → β → Prop} (f : γ → β) (h : Equivalence eq) :
    Equivalence fun a b => eq (f a) (f b) :=
  ⟨fun a => h.refl (f a), fun g => h.symm g, fun g g' => h.trans g g'⟩

theorem pair_equality {γ : Type} {eq : β → β → Prop} {eqs : γ → γ → Prop} (h : Equivalence eq)
    (hs : Equivalence eqs) : Equivalence fun a b : β × γ => eq a.1 b.1 ∧ eqs a.2 b.2 :=
  ⟨fun _ => ⟨h.refl _, hs.refl _⟩, fun g => ⟨h.symm g.1, hs.symm g.2⟩,
    fun g g' => ⟨h.trans g.1 g'.1, hs.trans g.2 g'.2⟩⟩

theorem sum_equality {γ : Type} {eq : β → β → Prop} {eqs : γ → γ → Prop} (h : Equivalence eq)
    (hs : Equivalence eqs) : Equivalence (SumEq eq eqs) := by
  refine ⟨fun a => ?_, fun {a b} g => ?_, fun {a b c} g g' => ?_⟩
  · cases a
    · exact h.refl _
    · exact hs.refl _
  · cases a <;> cases b <;> first | exact h.symm g | exact hs.symm g | exact g.elim
  · cases a <;> cases b <;> cases c <;> first | exact h.trans g g' | exact hs.trans g g' | exact g.elim | exact g'.elim

theorem equality {r : Bool} {t : ToBer α} {pb pd : Parser β} {rep : β → α} {Ok : β → Prop} {eq : β → β → Prop}
    (h : TwoWayUpTo m r t pb pd rep Ok eq) : Equivalence eq := by
  refine TwoWayUpTo.rec
    (motive_1 := fun r {_ _} t pb pd rep Ok eq _ => Equivalence eq)
    (motive_2 := fun {_ _} es fb fd rep Ok eq _ => Equivalence eq)
    (motive_3 := fun k {_ _} es vb vd rep Ok eq _ => Equivalence eq)
    ?_ ?_ ?_ ?_ ?_ ?_ ?_ ?_ ?_ ?_ ?_ ?_ ?_ ?_ ?_ ?_ h
  · intros; exact ⟨fun _ => rfl, Eq.symm, Eq.trans⟩
  · intro _ _ _ _ _ _ _ S _
    exact ⟨fun s => (S.eqv_iff s s).mpr fun _ => Iff.rfl,
      fun g => (S.eqv_iff _ _).mpr fun x => ((S.eqv_iff _ _).mp g x).symm,
      fun g g' => (S.eqv_iff _ _).mpr fun x => ((S.eqv_iff _ _).mp g x).trans ((S.eqv_iff _ _).mp g' x)⟩
  · intros; exact pointwise_equality ‹_›
  · intros; exact comap_equality _ (pointwise_equality ‹_›)
  · intros; exact comap_equality _ (pointwise_equality ‹_›)
  · intros; exact comap_equality _ (pointwise_equality ‹_›)
  · intros; exact comap_equality _ ‹_›
  · intros; exact comap_equality _ ‹_›
  · intros; assumption
  · intros; assumption
  · intros; exact comap_equality _ ‹_›
  · exact ⟨fun _ => trivial, fun _ => trivial, fun _ _ => trivial⟩
  · intros; exact pair_equality ‹_› ‹_›
  · intros; exact pair_equality ‹_› ‹_›
  · intros; exact ⟨fun y => Empty.elim y, fun {y} _ => Empty.elim y, fun {y} _ => Empty.elim y⟩
  · intros; exact sum_equality ‹_› ‹_›

end Asn1

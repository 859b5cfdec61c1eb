import Verif.Model.Strings
import Verif.Spec.Segmented
import Verif.Props.Iterator
/-!
# Facts about segmented strings
-/
namespace Asn1
open Spec

variable {α : Type}

/-- Objects read from an input, and from its bytes. -/
theorem objects_of_objs {i e : Input} {as : List Any} {stop : Any → Bool}
    (hstop : ∀ a, stop a = decide (a.header.tag = 0))
    (h : Objs parseBerAny stop i as e) : Objects i.data (as.map Obj.of) := by
  induction h with
  | nil h => rw [h]; exact .nil
  | stop h hp hs =>
    obtain ⟨e, _, h2, _, h4⟩ := parseBerAny_local hp
    have := h4 (Input.fromSlice _) _ h2
    refine .eoc this ?_
    rw [hstop] at hs; exact of_decide_eq_true hs
  | @cons i r a as e h hp hs ht ih =>
    obtain ⟨e, _, h2, _, h4⟩ := parseBerAny_local hp
    have := h4 (Input.fromSlice _) _ h2
    rw [List.map_cons, show Obj.of a = Obj.of (a.rebase i.start 0) from rfl]
    refine .cons this ?_ ?_
    · rw [hstop] at hs; exact of_decide_eq_false hs
    · have : (after (Input.fromSlice i.data) e.length).data = r.data := by
        show List.drop _ i.data = _
        rw [h2, List.drop_left' rfl]
      rw [this]; exact ih

theorem parse_nil_fails (i : Input) (h : i.data = []) (v) : parseBerAny i ≠ .ok v := by
  intro hp
  have := objParser_ber.lt (by rw [anyBer_parseBer]; exact hp)
  rw [h] at this; simp at this

theorem objs_of_objects {bs : Bytes} {os : List Obj} {stop : Any → Bool}
    (hstop : ∀ a, stop a = decide (a.header.tag = 0)) (h : Objects bs os) :
    ∀ i : Input, i.data = bs → ∃ as e, Objs parseBerAny stop i as e ∧ as.map Obj.of = os := by
  induction h with
  | nil => intro i hi; exact ⟨[], i, .nil hi, rfl⟩
  | @eoc bs r a hp h0 =>
    intro i hi
    obtain ⟨e, _, h2, _, h4⟩ := parseBerAny_local hp
    refine ⟨[], _, .stop ?_ (h4 i r.data (by rw [hi]; exact h2)) ?_, rfl⟩
    · intro hn; exact parse_nil_fails _ (hi ▸ hn) _ hp
    · rw [hstop]; exact decide_eq_true h0
  | @cons bs r a os hp h0 ht ih =>
    intro i hi
    obtain ⟨e, _, h2, _, h4⟩ := parseBerAny_local hp
    have hp2 := h4 i r.data (by rw [hi]; exact h2)
    obtain ⟨as, e', h5, h6⟩ := ih (after i e.length) (by
      rw [after_data, hi]; simp only [Input.fromSlice] at h2; rw [h2, List.drop_left' rfl])
    refine ⟨_ :: as, e', .cons ?_ hp2 ?_ h5, ?_⟩
    · intro hn; exact parse_nil_fails _ (hi ▸ hn) _ hp
    · rw [hstop]; exact decide_eq_false h0
    · rw [List.map_cons, h6]; rfl

/-- What is known of the headers of objects found in a content. -/
def Consistent (h : Header) (i : Input) : Prop :=
  (∀ n, h.length = .definite n → n = i.data.length) ∧
  (h.constructed = false → h.length = .definite i.data.length)

theorem consistent_ber {i r : Input} {a : Any} (h : parseBerAny i = .ok (r, a)) :
    Consistent a.header a.data :=
  ⟨fun _ hn => (berAny_definite h hn).symm, fun hc => berAny_primitive h hc⟩

theorem consistent_objs {i e : Input} {as : List Any} {stop : Any → Bool}
    (h : Objs parseBerAny stop i as e) : ∀ a ∈ as, Consistent a.header a.data := by
  induction h with
  | nil _ => simp
  | stop _ _ _ => simp
  | cons _ hp _ _ ih =>
    intro a ha
    rcases List.mem_cons.mp ha with rfl | ha
    · exact consistent_ber hp
    · exact ih a ha

theorem berGetContent_all {h : Header} {i : Input} (hl : h.length = .definite i.data.length) :
    berGetContent h i = .ok (after i i.data.length, first i i.data.length) := by
  unfold berGetContent
  rw [show MAX_RECURSION = 49 + 1 from rfl, berContent_ok, hl]
  exact ⟨Nat.le_refl _, rfl, rfl⟩

theorem segContent_all {h : Header} {i : Input} (hc : Consistent h i) :
    segContent h i = .ok (after i i.data.length, first i i.data.length) := by
  unfold segContent
  cases hl : h.length with
  | definite n =>
    simp only [Length.isDefinite, if_true]
    exact berGetContent_all (by rw [hl, hc.1 n hl])
  | indefinite =>
    simp only [Length.isDefinite, Bool.false_eq_true, if_false]
    rw [takeSplit_eq, if_pos (by simp [Input.len])]; rfl

/-- The update part of `segStep`. -/
def segUpd (acceptTag : Nat → Bool) (append : α → α → α) (rec : Header → Input → PRes α)
    (v : α) (a : Any) : Except PErr α :=
  if !acceptTag a.header.tag then nomErr a.data .invalidTag
  else if a.data.isEmpty then .ok v
  else
    match rec a.header a.data with
    | .ok (_, part) => .ok (append v part)
    | .error e => .error e

theorem segStep_eq (acceptTag : Nat → Bool) (append : α → α → α)
    (rec : Header → Input → PRes α) (v : α) (a : Any) :
    segStep acceptTag append rec v a = if decide (a.header.tag = 0) then .ok (false, v)
      else (segUpd acceptTag append rec v a).map (true, ·) := by
  unfold segStep segUpd tagEndOfContent
  by_cases h0 : a.header.tag = 0
  · simp [h0]
  · simp only [h0, if_false, decide_false, Bool.false_eq_true]
    by_cases h1 : acceptTag a.header.tag = true
    · by_cases h2 : a.data.isEmpty = true
      · simp [h1, h2, Except.map]
      · simp only [h1, h2, Bool.not_true, Bool.false_eq_true, if_false]
        cases rec a.header a.data <;> rfl
    · simp [h1, nomErr, Except.map]

theorem segFold {acceptTag : Nat → Bool} {append : α → α → α} {rec : Header → Input → PRes α}
    {tag : Nat} (hacc : ∀ t, acceptTag t = true ↔ t = tag) {P : Bool → Bytes → α → Prop}
    (as : List Any)
    (hrec : ∀ a ∈ as, ∀ w, (∃ r, rec a.header a.data = .ok (r, w)) ↔
      P a.header.constructed a.data.data w) (s s' : α) :
    as.foldlM (segUpd acceptTag append rec) s = .ok s' ↔
      (∀ o ∈ as.map Obj.of, o.tag = tag) ∧ ∃ vs, Pointwise (fun o w => P o.constructed o.content w)
        ((as.map Obj.of).filter (fun o => o.content ≠ [])) vs ∧ s' = vs.foldl append s := by
  induction as generalizing s with
  | nil =>
    constructor
    · intro h; simp at h; exact ⟨by simp, [], .nil, h.symm⟩
    · rintro ⟨_, vs, h1, h2⟩; cases h1; simp [h2]
  | cons a as ih =>
    have ih := ih (fun a ha => hrec a (List.mem_cons_of_mem _ ha))
    have hreca := hrec a List.mem_cons_self
    rw [List.foldlM_cons, bind_eq_ok]
    simp only [ih, List.map_cons]
    by_cases h1 : a.header.tag = tag
    · by_cases h2 : a.data.data = []
      · have hu : ∀ s, segUpd acceptTag append rec s a = .ok s := by
          intro s; simp [segUpd, (hacc _).mpr h1, Input.isEmpty, h2]
        rw [List.filter_cons_of_neg (by simp [Obj.of, h2])]
        constructor
        · rintro ⟨s1, h3, h4, h5⟩
          rw [hu] at h3; simp at h3; subst h3
          refine ⟨fun o ho => ?_, h5⟩
          rcases List.mem_cons.mp ho with rfl | ho
          · exact h1
          · exact h4 o ho
        · rintro ⟨h4, h5⟩
          exact ⟨s, hu s, fun o ho => h4 o (List.mem_cons_of_mem _ ho), h5⟩
      · have hu : ∀ s s1, segUpd acceptTag append rec s a = .ok s1 ↔
            ∃ w, P a.header.constructed a.data.data w ∧ s1 = append s w := by
          intro s s1
          simp only [segUpd, (hacc _).mpr h1, Input.isEmpty, h2, Bool.not_true, Bool.false_eq_true,
            if_false, List.isEmpty_iff]
          constructor
          · intro h
            split at h <;> simp at h
            rename_i r w hr
            exact ⟨w, (hreca w).mp ⟨_, hr⟩, h.symm⟩
          · rintro ⟨w, hw, rfl⟩
            obtain ⟨r, hr⟩ := (hreca w).mpr hw
            rw [hr]
        rw [List.filter_cons_of_pos (by simp [Obj.of, h2])]
        constructor
        · rintro ⟨s1, h3, h4, vs, h5, h6⟩
          obtain ⟨w, hw, rfl⟩ := (hu s s1).mp h3
          refine ⟨fun o ho => ?_, w :: vs, .cons hw h5, h6⟩
          rcases List.mem_cons.mp ho with rfl | ho
          · exact h1
          · exact h4 o ho
        · rintro ⟨h4, vs, h5, h6⟩
          cases h5 with
          | cons hw h5 =>
            exact ⟨_, (hu s _).mpr ⟨_, hw, rfl⟩, fun o ho => h4 o (List.mem_cons_of_mem _ ho), _,
              h5, h6⟩
    · have hu : ∀ s s1, segUpd acceptTag append rec s a ≠ .ok s1 := by
        intro s s1
        have : acceptTag a.header.tag = false := by
          cases hc : acceptTag a.header.tag with
          | false => rfl
          | true => exact absurd ((hacc _).mp hc) h1
        simp [segUpd, this, nomErr]
      constructor
      · rintro ⟨s1, h3, _⟩; exact absurd h3 (hu s s1)
      · rintro ⟨h4, _⟩; exact absurd (h4 (Obj.of a) List.mem_cons_self) h1

/-- `parseSegmented` computes the specified value. -/
theorem parseSegmented_ok {acceptTag : Nat → Bool} {empty : α} {append : α → α → α}
    {leaf : Header → Input → PRes α} {tag : Nat} {Leaf : Bytes → α → Prop} {join : List α → α}
    (hacc : ∀ t, acceptTag t = true ↔ t = tag)
    (hjoin : ∀ vs, vs.foldl append empty = join vs)
    (hleaf : ∀ h i w, h.constructed = false → h.length = .definite i.data.length →
      ((∃ r, leaf h i = .ok (r, w)) ↔ Leaf i.data w))
    (d : Nat) : ∀ (h : Header) (i : Input) (v : α), Consistent h i →
      ((∃ r, parseSegmented acceptTag empty append leaf d h i = .ok (r, v)) ↔
        Segs tag Leaf join d h.constructed i.data v) := by
  induction d with
  | zero => intro h i v _; simp [parseSegmented, nomErr, Segs]
  | succ d ih =>
    intro h i v hcons
    unfold parseSegmented
    by_cases he : i.data = []
    · rw [if_pos (by simp [Input.isEmpty, he])]
      simp only [nomErr, reduceCtorEq, exists_false, false_iff]
      intro hs
      cases hc : h.constructed <;> rw [hc] at hs <;> exact hs.1 he
    · rw [if_neg (by simp [Input.isEmpty, he])]
      cases hc : h.constructed with
      | false =>
        simp only [Bool.false_eq_true, if_false]
        have hl := hcons.2 hc
        rw [berGetContent_all hl, bind_ok]
        have h1 : (first i i.data.length).data = i.data := by simp
        have := hleaf h (first i i.data.length) v hc (by rw [h1]; exact hl)
        rw [h1] at this
        constructor
        · rintro ⟨r, h2⟩
          obtain ⟨⟨x, w⟩, h3, h4⟩ := bind_eq_ok.mp h2
          simp at h4
          obtain ⟨_, rfl⟩ := h4
          exact ⟨he, this.mp ⟨x, h3⟩⟩
        · rintro ⟨_, h2⟩
          obtain ⟨x, h3⟩ := this.mpr h2
          exact ⟨_, bind_eq_ok.mpr ⟨_, h3, rfl⟩⟩
      | true =>
        simp only [if_true]
        rw [segContent_all hcons]
        simp only [bind_ok, AnyIter.new]
        have hfi : ∀ it v, forIter anyBer.parseBer (segStep acceptTag append
            (fun h i => parseSegmented acceptTag empty append leaf d h i))
            ((first i i.data.length).len + 1) ⟨first i i.data.length, false⟩ empty = .ok (it, v) ↔ _ :=
          fun it v => forIter_ok objParser_ber (segStep_eq _ _ _) (by simp [Input.len])
        rw [anyBer_parseBer] at hfi
        rw [anyBer_parseBer]
        constructor
        · rintro ⟨r, h2⟩
          obtain ⟨⟨it, w⟩, h3, h4⟩ := bind_eq_ok.mp h2
          simp at h4
          obtain ⟨_, rfl⟩ := h4
          obtain ⟨as, e, h5, _, h6⟩ := (hfi it w).mp h3
          obtain ⟨h7, vs, h8, h9⟩ := (segFold hacc as
            (fun a ha w => ih a.header a.data w (consistent_objs h5 a ha)) _ _).mp h6
          refine ⟨he, as.map Obj.of, vs, ?_, h7, h8, by rw [h9, hjoin]⟩
          have := objects_of_objs (fun a => rfl) h5
          simpa using this
        · rintro ⟨_, os, vs, h5, h7, h8, rfl⟩
          obtain ⟨as, e, h6, rfl⟩ := objs_of_objects (stop := fun a => decide (a.header.tag = 0))
            (fun a => rfl) h5 (first i i.data.length) (by simp)
          refine ⟨_, bind_eq_ok.mpr ⟨(⟨e, false⟩, join vs), (hfi _ _).mpr ⟨as, e, h6, rfl, ?_⟩, rfl⟩⟩
          exact (segFold hacc as
            (fun a ha w => ih a.header a.data w (consistent_objs h6 a ha)) _ _).mpr
            ⟨h7, vs, h8, (hjoin vs).symm⟩

theorem noPanic_berContent (h : Header) (i : Input) : NoPanic (berGetContent h i) :=
  ⟨(good_berContent h _).noPanic i, (good_berContent h _).noDiverge i⟩

theorem noPanic_takeAll (i : Input) : NoPanic (i.takeSplit i.len) := by
  rw [takeSplit_eq, if_pos (by simp [Input.len])]; exact noPanic_ok _

theorem parseSegmented_safe {acceptTag : Nat → Bool} {empty : α} {append : α → α → α}
    {leaf : Header → Input → PRes α} (hleaf : ∀ h i, NoPanic (leaf h i)) (d : Nat) :
    ∀ h i, NoPanic (parseSegmented acceptTag empty append leaf d h i) := by
  induction d with
  | zero => intro h i; exact noPanic_nomErr _ _
  | succ d ih =>
    intro h i
    unfold parseSegmented
    split
    · exact noPanic_nomErr _ _
    · split
      · refine NoPanic.bind ?_ fun x _ => NoPanic.bind ?_ fun y _ => noPanic_ok _
        · unfold segContent; split
          · exact noPanic_berContent _ _
          · exact noPanic_takeAll _
        · refine forIter_safe objParser_ber (fun s a => ?_) (by simp [Input.len])
          unfold segStep
          split
          · exact noPanic_ok _
          · split
            · exact noPanic_nomErr _ _
            · split
              · exact noPanic_ok _
              · have := ih a.header a.data
                split
                · exact noPanic_ok _
                · rename_i e he; simp only at he; rw [he] at this; simpa [NoPanic] using this
      · exact NoPanic.bind (noPanic_berContent _ _) fun x _ => NoPanic.bind (hleaf _ _)
          fun y _ => noPanic_ok _

end Asn1

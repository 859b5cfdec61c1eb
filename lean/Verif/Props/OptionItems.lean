import Verif.Spec.OptionItems
import Verif.Props.ContainersSafe
import Verif.Props.DeriveOption
/-!
# `Option<T>` inside lists and tagged values (C124)
-/
namespace Asn1
open Spec Wr

variable {α : Type}

/-! ### Decoding lists -/

/-- The content of an object of definite length is read once more as it is. -/
theorem optionContent_definite {p : Parser α} {h : Header} {i : Input} (hw : WF i)
    (hl : h.length = .definite i.data.length) (ha : p.acceptTag h.tag = true) :
    optionContent p h i = (p.content h i).map fun x => (after i i.data.length, some x.2) := by
  unfold optionContent
  have hb : berContent h i MAX_RECURSION = .ok (after i i.data.length, first i i.data.length) := by
    rw [show MAX_RECURSION = 49 + 1 from rfl, berContent_ok, hl]
    exact ⟨Nat.le_refl _, rfl, rfl⟩
  have hf : first i i.data.length = i := by
    unfold first
    rw [List.take_length, ← hw]
  simp only [ha, Bool.not_true, Bool.false_eq_true, if_false, hb, hf, bind_ok]
  cases p.content h i with
  | error e => rfl
  | ok x => rfl

/-- The content of an object of indefinite length does not contain its end marker. -/
theorem berContent_again {h : Header} {r r1 data : Input} (hi : h.length = .indefinite)
    (h1 : berContent h r MAX_RECURSION = .ok (r1, data)) (x : Input × Input) :
    berContent h data MAX_RECURSION ≠ .ok x := by
  obtain ⟨r3, data'⟩ := x
  intro h5
  obtain ⟨e, k, g1, g2, g3, g4, g5⟩ := berContent_local (d := 49) h5
  have hb := h1
  rw [show MAX_RECURSION = 49 + 1 from rfl, berContent_ok, hi] at hb
  obtain ⟨_, _, items, eoc, q1, q2, q3, q4⟩ := hb
  have heoc : 2 ≤ eoc.length := by
    have : LaxEoc eoc := by
      clear q2 q3 q4
      induction q1 with
      | _ => assumption
    obtain ⟨c', p', id', len', e1, e2, e3⟩ := this
    rw [e3, List.length_append]
    cases e1 <;> cases e2 <;> simp <;> omega
  have hlen : data.data.length = items.flatten.length + eoc.length - 2 := by
    rw [q4, first_data, List.length_take, q2]
    simp only [List.length_append]; omega
  have hr : r.data = e ++ (r3.data ++ r.data.drop data.data.length) := by
    rw [← List.append_assoc, ← g2, q4, first_data, List.length_take, q2]
    rw [Nat.min_eq_left (by simp only [List.length_append]; omega)]
    exact (List.take_append_drop _ _).symm
  have hs := g5 h r _ rfl rfl hr
  rw [show (49 + 1 : Nat) = MAX_RECURSION from rfl, h1] at hs
  have hs : r1 = after r e.length := by
    simp only [Except.ok.injEq, Prod.mk.injEq] at hs
    exact hs.1
  rw [q3] at hs
  have := congrArg Input.start hs
  have he : e.length ≤ data.data.length := by rw [g2]; simp
  simp only [after] at this
  omega

/-- What the items of a container are: definite with all their content, or indefinite. -/
theorem anyBer_item {i r : Input} {a : Any} (h : anyBer.parseBer i = .ok (r, a)) :
    (a.header.length = .definite a.data.data.length ∧ WF a.data) ∨
    (a.header.length = .indefinite ∧ ∃ r1, berContent a.header r1 MAX_RECURSION = .ok (r, a.data)) := by
  rw [anyBer_parseBer] at h
  obtain ⟨r1, h1, h2⟩ := parseBerAny_ok.mp h
  cases hl : a.header.length with
  | indefinite => exact .inr ⟨rfl, r1, h2⟩
  | definite n =>
    have h3 := h2
    rw [show MAX_RECURSION = 49 + 1 from rfl, berContent_ok, hl] at h3
    obtain ⟨g1, _, g3⟩ := h3
    refine .inl ⟨?_, ?_⟩
    · rw [g3, first_data, List.length_take, Nat.min_eq_left g1]
    · rw [g3]; unfold WF first
      simp only [List.length_take, Nat.min_eq_left g1]

theorem anyDer_item {i r : Input} {a : Any} (h : anyDer.parseDer i = .ok (r, a)) :
    a.header.length = .definite a.data.data.length ∧ WF a.data := by
  rw [anyDer_parseDer] at h
  obtain ⟨r1, n, _, hl, g1, _, g3⟩ := parseDerAny_ok.mp h
  refine ⟨?_, ?_⟩
  · rw [g3, first_data, List.length_take, Nat.min_eq_left g1, hl]
  · rw [g3]; unfold WF first
    simp only [List.length_take, Nat.min_eq_left g1]

theorem optionStep_definite {p : Parser α} {a : Any} (l : List α)
    (hl : a.header.length = .definite a.data.data.length) (hw : WF a.data) :
    parseCollectStep (optionItem p) (l.map some) a =
      (parseCollectStep p l a).map fun x => (x.1, x.2.map some) := by
  unfold parseCollectStep optionItem
  by_cases ha : p.acceptTag a.header.tag = true
  · simp only [ha, Bool.not_true, Bool.false_eq_true, if_false, optionContent_definite hw hl ha]
    cases p.content a.header a.data with
    | error e => rfl
    | ok x => simp [Except.map]
  · simp only [Bool.not_eq_true] at ha
    simp only [ha, Bool.not_false, if_true]
    rfl

theorem optionStep_indefinite {p : Parser α} {a : Any} {r r1 : Input} (l : List (Option α))
    (hi : a.header.length = .indefinite) (h1 : berContent a.header r1 MAX_RECURSION = .ok (r, a.data))
    (x : Bool × List (Option α)) : parseCollectStep (optionItem p) l a ≠ .ok x := by
  unfold parseCollectStep optionItem
  by_cases ha : p.acceptTag a.header.tag = true
  · simp only [ha, Bool.not_true, Bool.false_eq_true, if_false]
    intro h
    have : ∀ y, optionContent p a.header a.data ≠ .ok y := by
      intro y hy
      unfold optionContent at hy
      simp only [ha, Bool.not_true, Bool.false_eq_true, if_false] at hy
      obtain ⟨z, hz, _⟩ := bind_eq_ok.mp hy
      exact berContent_again hi h1 z hz
    split at h
    · rename_i hy; exact this _ hy
    · cases h
  · simp only [Bool.not_eq_true] at ha
    simp only [ha, Bool.not_false, if_true]
    intro h; cases h

theorem forIter_option_der (p : Parser α) (fuel : Nat) : ∀ it l,
    forIter anyDer.parseDer (parseCollectStep (optionItem p)) fuel it (l.map some) =
      (forIter anyDer.parseDer (parseCollectStep p) fuel it l).map fun x => (x.1, x.2.map some) := by
  induction fuel with
  | zero => intro it l; rfl
  | succ fuel ih =>
    intro it l
    obtain ⟨i, b⟩ := it
    unfold forIter
    cases b with
    | true => rw [next_fused]; rfl
    | false =>
      by_cases hne : i.data = []
      · rw [next_nil hne]; rfl
      · cases hpi : anyDer.parseDer i with
        | error e =>
          obtain ⟨j, f', hn⟩ := next_err objParser_der hne hpi
          rw [hn]; rfl
        | ok x =>
          obtain ⟨r, a⟩ := x
          rw [next_ok objParser_der hne hpi]
          obtain ⟨h1, h2⟩ := anyDer_item hpi
          simp only [optionStep_definite l h1 h2]
          cases hs : parseCollectStep p l a with
          | error e => rfl
          | ok y =>
            obtain ⟨b, l'⟩ := y
            cases b with
            | true => exact ih _ _
            | false => rfl

theorem forIter_appends (fuel : Nat) : ∀ it (s s' : List Any) it',
    forIter anyBer.parseBer (fun l a => .ok (true, l ++ [a])) fuel it s = .ok (it', s') →
    ∃ t, s' = s ++ t := by
  induction fuel with
  | zero => intro it s s' it' h; cases h
  | succ fuel ihf =>
    intro it s s' it' h
    unfold forIter at h
    split at h
    · cases h
    · simp only [Except.ok.injEq, Prod.mk.injEq] at h; exact ⟨[], by simp [h.2]⟩
    · cases h
    · obtain ⟨t, ht⟩ := ihf _ _ _ _ h
      exact ⟨_ :: t, by rw [ht, List.append_assoc]; rfl⟩

theorem forIter_option_ber (p : Parser α) (fuel : Nat) : ∀ it l os it' vs,
    forIter anyBer.parseBer (parseCollectStep (optionItem p)) fuel it (l.map some) = .ok (it', vs) ↔
      ∃ ws as it'', vs = ws.map some ∧
        forIter anyBer.parseBer (parseCollectStep p) fuel it l = .ok (it', ws) ∧
        forIter anyBer.parseBer (fun l a => .ok (true, l ++ [a])) fuel it os = .ok (it'', os ++ as) ∧
        ∀ a ∈ as, a.header.length ≠ .indefinite := by
  induction fuel with
  | zero =>
    intro it l os it' vs
    constructor
    · intro h; cases h
    · rintro ⟨_, _, _, _, h, _⟩; cases h
  | succ fuel ih =>
    intro it l os it' vs
    have hend : ∀ it0 : AnyIter, (.ok (it0, l.map some) : Except PErr (AnyIter × List (Option α))) = .ok (it', vs) ↔
        ∃ ws as it'', vs = ws.map some ∧ (.ok (it0, l) : Except PErr _) = .ok (it', ws) ∧
          (.ok (it0, os) : Except PErr (AnyIter × List Any)) = .ok (it'', os ++ as) ∧
          ∀ a ∈ as, a.header.length ≠ .indefinite := by
      intro it0
      simp only [Except.ok.injEq, Prod.mk.injEq]
      constructor
      · rintro ⟨rfl, rfl⟩
        exact ⟨l, [], it0, rfl, ⟨rfl, rfl⟩, ⟨rfl, by simp⟩, by simp⟩
      · rintro ⟨ws, as, _, rfl, ⟨rfl, rfl⟩, _, _⟩
        exact ⟨rfl, rfl⟩
    obtain ⟨i, b⟩ := it
    unfold forIter
    cases b with
    | true => rw [next_fused]; exact hend _
    | false =>
      by_cases hne : i.data = []
      · rw [next_nil hne]; exact hend _
      · cases hpi : anyBer.parseBer i with
        | error e =>
          obtain ⟨j, f', hn⟩ := next_err objParser_ber hne hpi
          rw [hn]
          constructor
          · intro h; cases h
          · rintro ⟨_, _, _, _, h, _⟩; cases h
        | ok x =>
          obtain ⟨r, a⟩ := x
          rw [next_ok objParser_ber hne hpi]
          simp only
          rcases anyBer_item hpi with ⟨h1, h2⟩ | ⟨h1, r1, h2⟩
          · simp only [optionStep_definite l h1 h2]
            cases hs : parseCollectStep p l a with
            | error e =>
              constructor
              · intro h; cases h
              · rintro ⟨_, _, _, _, h, _⟩; cases h
            | ok y =>
              obtain ⟨b, l'⟩ := y
              have hb : b = true := by
                unfold parseCollectStep at hs
                split at hs
                · cases hs
                · split at hs
                  · simp only [Except.ok.injEq, Prod.mk.injEq] at hs; exact hs.1.symm
                  · cases hs
              subst hb
              simp only [Except.map]
              rw [ih ⟨r, false⟩ l' (os ++ [a])]
              constructor
              · rintro ⟨ws, as, it'', k1, k2, k3, k4⟩
                refine ⟨ws, a :: as, it'', k1, k2, by rw [k3, List.append_assoc]; rfl, ?_⟩
                intro c hc
                rcases List.mem_cons.mp hc with rfl | hc
                · rw [h1]; simp
                · exact k4 c hc
              · rintro ⟨ws, as, it'', k1, k2, k3, k4⟩
                obtain ⟨as', has'⟩ := forIter_appends _ _ _ _ _ k3
                have has : as = a :: as' := by
                  rw [List.append_assoc] at has'
                  exact List.append_cancel_left has'
                subst has
                exact ⟨ws, as', it'', k1, k2, by rw [k3, List.append_assoc]; rfl,
                  fun c hc => k4 c (List.mem_cons_of_mem _ hc)⟩
          · constructor
            · intro h
              split at h
              · cases h
              · rename_i hst; exact absurd hst (optionStep_indefinite _ h1 h2 _)
              · rename_i hst; exact absurd hst (optionStep_indefinite _ h1 h2 _)
            · rintro ⟨ws, as, it'', k1, k2, k3, k4⟩
              exfalso
              obtain ⟨t, ht⟩ := forIter_appends _ _ _ _ _ k3
              have has : as = a :: t := by
                rw [List.append_assoc] at ht
                exact List.append_cancel_left ht
              exact k4 a (by rw [has]; simp) h1

/-- Two parsers that accept the same tags and have the same contents up to `g`. -/
theorem parseDer_mapped {β γ : Type} {p : Parser β} {q : Parser γ} {g : γ → β}
    (ha : p.acceptTag = q.acceptTag)
    (hc : ∀ h j, p.content h j = (q.content h j).map fun x => (x.1, g x.2)) (i : Input) :
    p.parseDer i = (q.parseDer i).map fun x => (x.1, g x.2) := by
  unfold Parser.parseDer
  cases parseHeaderDer i with
  | error e => rfl
  | ok x =>
    obtain ⟨r, h⟩ := x
    simp only [bind_ok]
    rw [ha]
    cases definiteInner h.length i with
    | error e => rfl
    | ok n =>
      simp only [bind_ok]
      by_cases hb : (!q.acceptTag h.tag) = true
      · rw [if_pos hb, if_pos hb]; rfl
      · rw [if_neg hb, if_neg hb]
        cases takeS n r with
        | error e => rfl
        | ok y =>
          simp only [bind_ok, hc]
          cases q.content h y.2 with
          | error e => rfl
          | ok z => rfl

theorem collect_option_der (p : Parser α) (j : Input) :
    (AnyIter.new j).tryParseCollect anyDer.parseDer (optionItem p) =
      ((AnyIter.new j).tryParseCollect anyDer.parseDer p).map fun x => (x.1, x.2.map some) := by
  unfold AnyIter.tryParseCollect
  have := forIter_option_der p (j.len + 1) (AnyIter.new j) []
  rw [List.map_nil] at this
  rw [show ((AnyIter.new j).input.len + 1) = j.len + 1 from rfl, this]
  cases forIter anyDer.parseDer (parseCollectStep p) (j.len + 1) (AnyIter.new j) [] with
  | error e => rfl
  | ok x => rfl

theorem vecDer_option_content (p : Parser α) (h : Header) (j : Input) :
    (vecP anyDer.parseDer (optionItem p)).content h j =
      ((vecP anyDer.parseDer p).content h j).map fun x => (x.1, x.2.map some) := by
  show (h.assertConstructed j >>= fun _ => _) = (h.assertConstructed j >>= fun _ => _).map _
  cases h.assertConstructed j with
  | error e => rfl
  | ok u =>
    simp only [bind_ok]
    split
    · rfl
    · exact collect_option_der p j

theorem setItemsDer_option_content (p : Parser α) (h : Header) (j : Input) :
    (setItemsP anyDer.parseDer (optionItem p)).content h j =
      ((setItemsP anyDer.parseDer p).content h j).map fun x => (x.1, x.2.map some) := by
  show (h.assertConstructed j >>= fun _ => _) = (h.assertConstructed j >>= fun _ => _).map _
  cases h.assertConstructed j with
  | error e => rfl
  | ok u => exact collect_option_der p j

theorem map_content_eq {β γ : Type} (p : Parser β) (f : β → γ) (h : Header) (j : Input) :
    (p.map f).content h j = (p.content h j).map fun x => (x.1, f x.2) := by
  show (match p.content h j with | .ok (rem, a) => .ok (rem, f a) | .error e => .error e : PRes γ) = _
  cases p.content h j <;> rfl

/-- **C124** `parse_der` of a list of `Option<T>` is `parse_der` of the list of `T`, with every element
present: the same results and the same errors. For `Vec`, `SequenceOf`, `SetOf` and the arrays. -/
theorem C124_parse_der (p : Parser α) (i : Input) :
    (vecDer (optionItem p)).parseDer i =
      ((vecDer p).parseDer i).map (fun x => (x.1, x.2.map some)) ∧
    (sequenceOfP anyDer.parseDer (optionItem p)).parseDer i =
      ((sequenceOfP anyDer.parseDer p).parseDer i).map (fun x => (x.1, SequenceOf.mk (x.2.items.map some))) ∧
    (setOfP anyDer.parseDer (optionItem p)).parseDer i =
      ((setOfP anyDer.parseDer p).parseDer i).map (fun x => (x.1, SetOf.mk (x.2.items.map some))) ∧
    ∀ N, (arrayP N anyDer.parseDer (optionItem p)).parseDer i =
      ((arrayP N anyDer.parseDer p).parseDer i).map
        (fun x => (x.1, ⟨x.2.val.map some, by rw [List.length_map]; exact x.2.property⟩)) := by
  refine ⟨parseDer_mapped (g := List.map some) rfl (vecDer_option_content p) i,
    parseDer_mapped (g := fun x : SequenceOf α => SequenceOf.mk (x.items.map some)) rfl (fun h j => ?_) i,
    parseDer_mapped (g := fun x : SetOf α => SetOf.mk (x.items.map some)) rfl (fun h j => ?_) i,
    fun N => parseDer_mapped (g := fun x : Arr α N => (⟨x.val.map some, by
      rw [List.length_map]; exact x.property⟩ : Arr (Option α) N)) rfl (fun h j => ?_) i⟩
  · show ((vecP anyDer.parseDer (optionItem p)).content h j >>= _) =
      ((vecP anyDer.parseDer p).content h j >>= _).map _
    rw [vecDer_option_content]
    cases (vecP anyDer.parseDer p).content h j <;> rfl
  · unfold setOfP
    rw [map_content_eq, map_content_eq, setItemsDer_option_content]
    cases (setItemsP anyDer.parseDer p).content h j <;> rfl
  · show ((vecP anyDer.parseDer (optionItem p)).content h j >>= _) =
      ((vecP anyDer.parseDer p).content h j >>= _).map _
    rw [vecDer_option_content]
    cases (vecP anyDer.parseDer p).content h j with
    | error e => rfl
    | ok x =>
      simp only [Except.map, bind_ok, List.length_map]
      by_cases hN : x.2.length = N
      · rw [dif_pos hN, dif_pos hN]
      · rw [dif_neg hN, dif_neg hN]; rfl

/-- **C124** `parse_der` of a `BTreeSet` or `HashSet` of `Option<T>` fails as that of the set of `T` does,
and otherwise yields the set of the same members, all present. (`S` and `S'` are the collections of `T` and
of `Option<T>`.) -/
theorem C124_parse_der_sets {σ σ' : Type} (S : SetImpl α σ) (S' : SetImpl (Option α) σ') (p : Parser α)
    (i : Input) :
    (∀ e, (setP S' anyDer.parseDer (optionItem p)).parseDer i = .error e ↔
      (setP S anyDer.parseDer p).parseDer i = .error e) ∧
    ∀ r s', (setP S' anyDer.parseDer (optionItem p)).parseDer i = .ok (r, s') →
      ∃ s, (setP S anyDer.parseDer p).parseDer i = .ok (r, s) ∧
        ∀ x, x ∈ S'.toList s' ↔ ∃ y ∈ S.toList s, x = some y := by
  have h1 : (setP S anyDer.parseDer p).parseDer i =
      ((setItemsP anyDer.parseDer p).parseDer i).map fun x => (x.1, S.ofList x.2) :=
    parseDer_mapped (g := S.ofList) rfl (fun h j => map_content_eq _ _ h j) i
  have h2 : (setP S' anyDer.parseDer (optionItem p)).parseDer i =
      ((setItemsP anyDer.parseDer p).parseDer i).map fun x => (x.1, S'.ofList (x.2.map some)) :=
    parseDer_mapped (g := fun x : List α => S'.ofList (x.map some)) rfl (fun h j => by
      unfold setP
      rw [map_content_eq, setItemsDer_option_content]
      cases (setItemsP anyDer.parseDer p).content h j <;> rfl) i
  rw [h1, h2]
  cases (setItemsP anyDer.parseDer p).parseDer i with
  | error e => exact ⟨fun e' => by simp [Except.map], fun r s' h => by cases h⟩
  | ok x =>
    refine ⟨fun e' => by simp [Except.map], fun r s' h => ?_⟩
    simp only [Except.map, Except.ok.injEq, Prod.mk.injEq] at h
    obtain ⟨rfl, rfl⟩ := h
    refine ⟨_, rfl, fun y => ?_⟩
    rw [S'.mem]
    simp only [List.mem_map, S.mem]
    constructor
    · rintro ⟨z, hz, rfl⟩; exact ⟨z, hz, rfl⟩
    · rintro ⟨z, hz, rfl⟩; exact ⟨z, hz, rfl⟩

/-- The common part of `C124_parse_ber_partial` for the items of a SEQUENCE OF and of a SET OF. -/
theorem collect_option_ber (p : Parser α) (j x : Input) (us : List (Option α)) :
    (AnyIter.new j).tryParseCollect anyBer.parseBer (optionItem p) = .ok (x, us) ↔
      ∃ (ws : List α) (items : List Any) (x' : Input), us = ws.map some ∧
        (AnyIter.new j).tryParseCollect anyBer.parseBer p = .ok (x, ws) ∧
        (AnyIter.new j).tryCollect anyBer.parseBer = .ok (x', items) ∧
        ∀ a ∈ items, a.header.length ≠ .indefinite := by
  unfold AnyIter.tryParseCollect AnyIter.tryCollect
  have key := forIter_option_ber p (j.len + 1) (AnyIter.new j) [] []
  simp only [List.map_nil, List.nil_append] at key
  rw [show ((AnyIter.new j).input.len + 1) = j.len + 1 from rfl]
  constructor
  · intro h
    obtain ⟨⟨it', l⟩, k1, k2⟩ := bind_eq_ok.mp h
    simp only [pure, Except.pure, Except.ok.injEq, Prod.mk.injEq] at k2
    obtain ⟨ws, as, it'', g1, g2, g3, g4⟩ := (key it' l).mp k1
    refine ⟨ws, as, it''.input, by rw [← k2.2, g1], ?_, ?_, g4⟩
    · rw [g2]; simp [pure, Except.pure, k2.1]
    · rw [g3]; simp [pure, Except.pure]
  · rintro ⟨ws, as, x', rfl, k1, k2, k3⟩
    obtain ⟨⟨it1, l1⟩, g1, g2⟩ := bind_eq_ok.mp k1
    obtain ⟨⟨it2, l2⟩, g3, g4⟩ := bind_eq_ok.mp k2
    simp only [pure, Except.pure, Except.ok.injEq, Prod.mk.injEq] at g2 g4
    obtain ⟨rfl, rfl⟩ := g2
    obtain ⟨e1, rfl⟩ := g4
    rw [(key it1 (l1.map some)).mpr ⟨l1, l2, it2, rfl, g1, g3, k3⟩]
    rfl

theorem parseBer_items {p' : Parser (List (Option α))} {q : Parser (List α)} {s : Parser (List Any)}
    (hp : p'.acceptTag = q.acceptTag) (hs : s.acceptTag = q.acceptTag)
    (hc : ∀ h j x us, p'.content h j = .ok (x, us) ↔
      ∃ (ws : List α) (items : List Any) (x' : Input), us = ws.map some ∧
        q.content h j = .ok (x, ws) ∧ s.content h j = .ok (x', items) ∧
        ∀ a ∈ items, a.header.length ≠ .indefinite) (i r : Input) (vs : List (Option α)) :
    p'.parseBer i = .ok (r, vs) ↔
      ∃ ws items, vs = ws.map some ∧ q.parseBer i = .ok (r, ws) ∧ s.parseBer i = .ok (r, items) ∧
        ∀ a ∈ items, a.header.length ≠ .indefinite := by
  rw [parseBer_ok]
  constructor
  · rintro ⟨a, x, h1, h2, h3⟩
    obtain ⟨ws, items, x', k1, k2, k3, k4⟩ := (hc _ _ _ _).mp h3
    rw [hp] at h2
    exact ⟨ws, items, k1, parseBer_ok.mpr ⟨a, x, h1, h2, k2⟩,
      parseBer_ok.mpr ⟨a, x', h1, by rw [hs]; exact h2, k3⟩, k4⟩
  · rintro ⟨ws, items, k1, k2, k3, k4⟩
    obtain ⟨a, x, h1, h2, h3⟩ := parseBer_ok.mp k2
    obtain ⟨a', x', h1', h2', h3'⟩ := parseBer_ok.mp k3
    rw [h1] at h1'
    simp only [Except.ok.injEq, Prod.mk.injEq, true_and] at h1'
    subst h1'
    exact ⟨a, x, h1, by rw [hp]; exact h2, (hc _ _ _ _).mpr ⟨ws, items, x', k1, h3, h3', k4⟩⟩

/-- **C124** `parse_ber` of a list of `Option<T>` accepts what `parse_ber` of the list of `T` accepts, with
every element present, provided that no element has an indefinite length (the elements are those of
`AnySequence`). -/
theorem C124_parse_ber_partial (p : Parser α) (i r : Input) (vs : List (Option α)) :
    (vecBer (optionItem p)).parseBer i = .ok (r, vs) ↔
      ∃ ws items, vs = ws.map some ∧ (vecBer p).parseBer i = .ok (r, ws) ∧
        (anySeqP 16 anyBer.parseBer).parseBer i = .ok (r, items) ∧
        ∀ a ∈ items, a.header.length ≠ .indefinite := by
  refine parseBer_items (p' := vecBer (optionItem p)) (q := vecBer p) (s := anySeqP 16 anyBer.parseBer)
    (by rfl) (by rfl) ?_ i r vs
  intro h j x us
  show (h.assertConstructed j >>= fun _ => _) = _ ↔ ∃ (ws : List α) (items : List Any) (x' : Input),
    us = ws.map some ∧ (h.assertConstructed j >>= fun _ => _) = _ ∧
    (h.assertConstructed j >>= fun _ => _) = _ ∧ _
  cases h.assertConstructed j with
  | error e =>
    constructor
    · intro h; cases h
    · rintro ⟨_, _, _, _, h, _⟩; cases h
  | ok u =>
    simp only [bind_ok]
    by_cases he : j.isEmpty = true
    · have hd : j.data = [] := by simpa [Input.isEmpty] using he
      rw [if_pos he, if_pos he]
      have h3 : (AnyIter.new j).tryCollect anyBer.parseBer = .ok (j, []) := by
        unfold AnyIter.tryCollect AnyIter.new forIter
        rw [next_nil hd]; rfl
      rw [h3]
      simp only [Except.ok.injEq, Prod.mk.injEq]
      constructor
      · rintro ⟨rfl, rfl⟩
        exact ⟨[], [], _, rfl, ⟨rfl, rfl⟩, ⟨rfl, rfl⟩, by simp⟩
      · rintro ⟨ws, items, _, rfl, ⟨rfl, rfl⟩, _, _⟩; exact ⟨rfl, rfl⟩
    · rw [if_neg he, if_neg he]
      exact collect_option_ber p j x us

/-- **C124** The same for a SET OF; the list of the items is what `SetOf` keeps and what a `BTreeSet` or a
`HashSet` is built from. -/
theorem C124_parse_ber_set_partial (p : Parser α) (i r : Input) (vs : List (Option α)) :
    (setOfP anyBer.parseBer (optionItem p)).parseBer i = .ok (r, ⟨vs⟩) ↔
      ∃ ws items, vs = ws.map some ∧ (setOfP anyBer.parseBer p).parseBer i = .ok (r, ⟨ws⟩) ∧
        (anySeqP 17 anyBer.parseBer).parseBer i = .ok (r, items) ∧
        ∀ a ∈ items, a.header.length ≠ .indefinite := by
  have hm : ∀ {β : Type} (q : Parser β) (us : List β),
      (setOfP anyBer.parseBer q).parseBer i = .ok (r, ⟨us⟩) ↔
        (setItemsP anyBer.parseBer q).parseBer i = .ok (r, us) := by
    intro β q us
    rw [parseBer_ok, parseBer_ok]
    constructor
    · rintro ⟨a, x, h1, h2, h3⟩
      obtain ⟨ls, h4, h5⟩ := map_content.mp h3
      cases h5
      exact ⟨a, _, h1, h2, h4⟩
    · rintro ⟨a, x, h1, h2, h3⟩
      exact ⟨a, x, h1, h2, map_content.mpr ⟨_, h3, rfl⟩⟩
  simp only [hm]
  refine parseBer_items (p' := setItemsP anyBer.parseBer (optionItem p)) (q := setItemsP anyBer.parseBer p)
    (s := anySeqP 17 anyBer.parseBer) (by rfl) (by rfl) ?_ i r vs
  intro h j x us
  show (h.assertConstructed j >>= fun _ => _) = _ ↔ ∃ (ws : List α) (items : List Any) (x' : Input),
    us = ws.map some ∧ (h.assertConstructed j >>= fun _ => _) = _ ∧
    (h.assertConstructed j >>= fun _ => _) = _ ∧ _
  cases h.assertConstructed j with
  | error e =>
    constructor
    · intro h; cases h
    · rintro ⟨_, _, _, _, h, _⟩; cases h
  | ok u => exact collect_option_ber p j x us

/-! ### Decoding lists by the functions on bytes -/

section
variable {acc : Nat → Bool} {header : Input → PRes Header} {g : Bytes → Except SErr (Bytes × α)}

theorem optionFrom_other {b : Bytes} {r : Input} {h : Header} (hb : b ≠ [])
    (hh : header (Input.fromSlice b) = .ok (r, h)) (ha : acc h.tag = false) :
    optionFrom acc header g b = .ok (b, none) := by
  unfold optionFrom
  rw [if_neg (by simpa using hb), wrapBerParser_ok.mpr ⟨r, hh, rfl⟩]
  simp [ha]

theorem optionFrom_some (hg : TagShown acc header g) {b r : Bytes} {v : α} (hb : b ≠ [])
    (h : g b = .ok (r, v)) : optionFrom acc header g b = .ok (r, some v) := by
  obtain ⟨r', hd, h1, h2⟩ := hg _ _ _ h
  unfold optionFrom
  rw [if_neg (by simpa using hb), wrapBerParser_ok.mpr ⟨r', h1, rfl⟩]
  simp [h2, h]

theorem collect_stuck {β : Type} {f : Bytes → Except SErr (Bytes × β)} {b : Bytes} {v : β} (hb : b ≠ [])
    (h : f b = .ok (b, v)) (fuel : Nat) : SeqIter.collect f fuel ⟨b, false⟩ = .error .diverge := by
  have hn : SeqIter.next f ⟨b, false⟩ = .ok (some (.ok v), ⟨b, false⟩) := by
    unfold SeqIter.next
    rw [if_neg (by simpa using hb)]; simp only [h]
  induction fuel with
  | zero => rfl
  | succ n ih => unfold SeqIter.collect; rw [hn]; simp only [ih]

theorem collect_first {β : Type} {f : Bytes → Except SErr (Bytes × β)} {b r : Bytes} {v : β} (hb : b ≠ [])
    (h : f b = .ok (r, v)) (fuel : Nat) : SeqIter.collect f (fuel + 1) ⟨b, false⟩ =
      (SeqIter.collect f fuel ⟨r, false⟩).map (v :: ·) := by
  have hn : SeqIter.next f ⟨b, false⟩ = .ok (some (.ok v), ⟨r, false⟩) := by
    unfold SeqIter.next
    rw [if_neg (by simpa using hb)]; simp only [h]
  rw [SeqIter.collect, hn]
  simp only
  cases SeqIter.collect f fuel ⟨r, false⟩ <;> rfl

theorem optionFrom_cases (b : Bytes) (hb : b ≠ []) :
    optionFrom acc header g b = .ok (b, none) ∨
      optionFrom acc header g b = (g b).map fun x => (x.1, some x.2) := by
  unfold optionFrom
  rw [if_neg (by simpa using hb)]
  split
  · simp only
    split
    · exact .inl rfl
    · refine .inr ?_
      cases g b <;> rfl
  · refine .inr ?_
    simp only [Bool.false_eq_true, if_false]
    cases g b <;> rfl

/-- **C124** The byte-slice decoders have the property used below. -/
theorem C124_tag_shown (p : Parser α) (check : Any → Except SErr Unit) :
    TagShown p.acceptTag parseHeader (fromBer p) ∧
    TagShown p.acceptTag parseHeaderDer (fromDer p check) := by
  constructor
  · intro b r v h
    obtain ⟨x, a, y, h1, _, h2, _⟩ := fromBer_ok.mp h
    obtain ⟨r1, h3, _⟩ := parseBerAny_ok.mp h1
    exact ⟨_, _, h3, h2⟩
  · intro b r v h
    obtain ⟨x, a, y, h1, _, _, h2, _⟩ := fromDer_ok.mp h
    obtain ⟨r1, n, h3, h4, _⟩ := parseDerAny_ok.mp h1
    exact ⟨_, _, parseHeaderDer_ok.mpr ⟨h3, by rw [h4]; rfl⟩, h2⟩

/-- Cases: a list of `Option<u32>` that ends with a NULL: the DER decoders refuse it (`parse_der`) or do not
return (`from_der`); the list without the NULL is read. -/
example :
    LeadsTo (fromDer (uintBer 4) checkDerInt) [2, 1, 7, 5, 0] [7] [5, 0] ∧
    seqFromDer 16 (optionFrom (uintBer 4).acceptTag parseHeaderDer (fromDer (uintBer 4) checkDerInt))
      [0x30, 5, 2, 1, 7, 5, 0] = .error .diverge ∧
    seqFromDer 16 (optionFrom (uintBer 4).acceptTag parseHeaderDer (fromDer (uintBer 4) checkDerInt))
      [0x30, 6, 2, 1, 7, 2, 1, 9] = .ok ([], [some 7, some 9]) ∧
    (vecDer (optionItem (uintDer 4))).parseDer (Input.fromSlice [0x30, 6, 2, 1, 7, 2, 1, 9]) =
      .ok (⟨[], 8, 8⟩, [some 7, some 9]) ∧
    ((vecDer (optionItem (uintDer 4))).parseDer (Input.fromSlice [0x30, 5, 2, 1, 7, 5, 0])).isOk = false :=
  ⟨.item (by decide) (by decide +kernel) (.here _), by decide +kernel, by decide +kernel, by decide +kernel,
    by decide +kernel⟩

/-- **C124** `from_ber` and `from_der` of a list of `Option<T>`. They accept what those of the list of `T`
accept, with every element present. Deviation: on a content in which an object with another tag follows
after elements of `T`, they never return. -/
theorem C124_from_deviation (hg : TagShown acc header g) :
    (∀ b vs, collectItems (optionFrom acc header g) b = .ok vs ↔
      ∃ ws, vs = ws.map some ∧ collectItems g b = .ok ws) ∧
    (∀ b ws rest r h, LeadsTo g b ws rest → rest ≠ [] → header (Input.fromSlice rest) = .ok (r, h) →
      acc h.tag = false →
      (∀ fuel, SeqIter.collect (optionFrom acc header g) fuel (SeqIter.new b) = .error .diverge) ∧
      ∀ (a : Any) tag, a.header.tag = tag → a.header.constructed = true → a.data.data = b →
        seqTryFrom tag (optionFrom acc header g) a = .error .diverge) := by
  constructor
  · intro b vs
    unfold collectItems SeqIter.new
    generalize b.length + 1 = fuel
    induction fuel generalizing b vs with
    | zero =>
      constructor
      · intro h; cases h
      · rintro ⟨_, _, h⟩; cases h
    | succ fuel ih =>
      by_cases hb : b = []
      · subst hb
        have : ∀ {β : Type} (f : Bytes → Except SErr (Bytes × β)),
            SeqIter.collect f (fuel + 1) ⟨[], false⟩ = .ok [] := by
          intro β f; rw [SeqIter.collect, seqNext_nil]
        rw [this, this]
        constructor
        · intro h; cases h; exact ⟨[], rfl, rfl⟩
        · rintro ⟨ws, rfl, h⟩; cases h; rfl
      · have herr : ∀ {β : Type} {f : Bytes → Except SErr (Bytes × β)} {e}, f b = .error e →
            ∀ us, SeqIter.collect f (fuel + 1) ⟨b, false⟩ ≠ .ok us := by
          intro β f e hf us hc
          rw [SeqIter.collect] at hc
          unfold SeqIter.next at hc
          rw [if_neg (by simpa using hb)] at hc
          rw [hf] at hc
          cases e <;> cases hc
        constructor
        · intro h
          rcases optionFrom_cases (acc := acc) (header := header) (g := g) b hb with h1 | h1
          · rw [collect_stuck hb h1] at h; cases h
          · cases h2 : g b with
            | error e =>
              rw [h2] at h1
              exact absurd h (herr h1 _)
            | ok x =>
              obtain ⟨r, v⟩ := x
              rw [h2] at h1
              rw [collect_first hb h1] at h
              rw [collect_first hb h2]
              cases h3 : SeqIter.collect (optionFrom acc header g) fuel ⟨r, false⟩ with
              | error e => rw [h3] at h; cases h
              | ok us =>
                rw [h3] at h
                obtain ⟨ws, rfl, h4⟩ := (ih _ _).mp h3
                refine ⟨v :: ws, ?_, by rw [h4]; rfl⟩
                simpa [Except.map] using h.symm
        · rintro ⟨ws, rfl, h⟩
          cases h2 : g b with
          | error e => exact absurd h (herr h2 _)
          | ok x =>
            obtain ⟨r, v⟩ := x
            rw [collect_first hb h2] at h
            rw [collect_first hb (optionFrom_some hg hb h2)]
            cases h3 : SeqIter.collect g fuel ⟨r, false⟩ with
            | error e => rw [h3] at h; cases h
            | ok us =>
              rw [h3] at h
              rw [(ih r (us.map some)).mpr ⟨us, rfl, h3⟩]
              simp only [Except.map, Except.ok.injEq] at h ⊢
              rw [← h]; rfl
  · intro b ws rest r h hl hne hh ha
    have key : ∀ fuel, SeqIter.collect (optionFrom acc header g) fuel ⟨b, false⟩ = .error .diverge := by
      induction hl with
      | here b => exact collect_stuck hne (optionFrom_other hne hh ha)
      | item hb h1 _ ih =>
        intro fuel
        cases fuel with
        | zero => rfl
        | succ n => rw [collect_first hb (optionFrom_some hg hb h1), ih hne hh]; rfl
    refine ⟨key, fun a tag h1 h2 h3 => ?_⟩
    unfold seqTryFrom
    rw [show assertTagS a.header tag = .ok () from assertTagS_ok.mpr h1,
      show assertConstructedS a.header = .ok () from assertConstructedS_ok.mpr h2, h3]
    exact key _

end

/-! ### Encoding lists -/

theorem optionTotalLen_none (t : ToBer α) (fuel : Nat) :
    optionTotalLen t (fuel + 1) none = some (.definite 2) := by
  simp only [optionTotalLen, optionTag, Option.isSome_none, Bool.false_eq_true, if_false,
    Option.map_some, optionContentLen]
  decide

theorem optionTotalLen_some (t : ToBer α) (fuel : Nat) (v : α) : optionTotalLen t fuel (some v) = none := by
  simp [optionTotalLen, optionTag_some]

theorem optionItemsLen_some (t : ToBer α) (fuel : Nat) {vs : List (Option α)} (h : ∃ x, some x ∈ vs)
    (acc : Length) : optionItemsLen fuel t vs acc = none := by
  induction vs generalizing acc with
  | nil => obtain ⟨x, hx⟩ := h; cases hx
  | cons v vs ih =>
    rw [optionItemsLen]
    cases v with
    | some x => rw [optionTotalLen_some]
    | none =>
      cases optionTotalLen t fuel none with
      | none => rfl
      | some l =>
        obtain ⟨x, hx⟩ := h
        exact ih ⟨x, by simpa using hx⟩ _

theorem optionItemsLen_none (t : ToBer α) (fuel : Nat) (n k : Nat) :
    optionItemsLen (fuel + 1) t (List.replicate n none) (.definite k) = some (.definite (k + 2 * n)) := by
  induction n generalizing k with
  | zero => rfl
  | succ n ih =>
    rw [List.replicate_succ, optionItemsLen, optionTotalLen_none]
    show optionItemsLen (fuel + 1) t _ (.definite (k + 2)) = _
    rw [ih]; congr 2; omega

theorem optionItemsWrite_eq (t : ToBer α) (vs : List (Option α)) (acc : Nat) :
    optionItemsWrite t vs acc = t.writeItems (vs.filterMap id) acc := by
  induction vs generalizing acc with
  | nil => rfl
  | cons v vs ih =>
    cases v with
    | none => exact ih (acc + 0)
    | some x =>
      show (t.encode x >>= fun sz => optionItemsWrite t vs (acc + sz)) =
        (t.encode x >>= fun sz => t.writeItems (vs.filterMap id) (acc + sz))
      congr 1
      funext sz
      exact ih _

theorem toVec_of_writes {w : Wr Nat} {bs : Bytes} {n : Nat} (h : Writes w bs n) : w.toVec = .ok bs := by
  unfold Wr.toVec Writes at *
  rw [h]

/-- A header that announces more content than there is. -/
theorem header_only_refused {cls : Class} {b : Bool} {tag k : Nat} (ht : tag < 2 ^ 32) (hk : k < 2 ^ 64)
    (h0 : 0 < k) :
    let hd := identOctets cls b tag ++ lenOctets (.definite k)
    parseBerAny (Input.fromSlice hd) = .error (.incomplete k) ∧
    parseDerAny (Input.fromSlice hd) = .error (.incomplete k) := by
  intro hd
  have hp : parseHeader (Input.fromSlice hd) = .ok (after (Input.fromSlice hd) hd.length,
      ⟨cls, b, tag, .definite k, some (identOctets cls b tag), some (first (Input.fromSlice hd) hd.length)⟩) := by
    have e : hd.length = (identOctets cls b tag).length + (lenOctets (.definite k)).length :=
      List.length_append
    rw [e]
    refine parseHeader_ok.mpr ⟨_, _, identOctets_ident cls b ht,
      lenOctets_len (by intro n hn; simp at hn; omega) (by simp), ?_, rfl, rfl, rfl⟩
    simp only [after_data, Input.fromSlice]
    rw [← e, List.drop_length, List.append_nil]
  have hnil : (after (Input.fromSlice hd) hd.length).data = [] := by simp [after, Input.fromSlice]
  constructor
  · unfold parseBerAny
    rw [hp]
    simp only [bind_ok]
    rw [berContent_eq, show MAX_RECURSION = 49 + 1 from rfl, skipContent_def rfl, if_neg (by omega), takeS_eq,
      if_neg (by rw [hnil]; simp; omega), hnil]
    rfl
  · rw [parseDerAny_eq, parseHeaderDer_ok.mpr ⟨hp, rfl⟩]
    simp only [bind_ok]
    show (takeS k _ >>= _) = _
    rw [takeS_eq, if_neg (by rw [hnil]; simp; omega), hnil]
    rfl

/-- **C124** Deviation: a list, set or array in which a value is present cannot be encoded: however many
nested calls are allowed, the encoder has not returned. A list of `n` absent values is written as a header
that announces `2 * n` octets, and nothing else; no decoder accepts that unless the list is empty. -/
theorem C124_encode_deviation (t : ToBer α) (tag : Nat) (ht : tag < 2 ^ 32) :
    (∀ vs fuel, (∃ x, some x ∈ vs) → optionListToVec fuel tag t vs = none) ∧
    (∀ n fuel, 2 * n < 2 ^ 64 → ∃ hd, optionListToVec (fuel + 1) tag t (List.replicate n none) = some (.ok hd) ∧
      headerToBer.toVec (Header.new .universal true tag (.definite (2 * n))) = .ok hd ∧
      (0 < n → parseBerAny (Input.fromSlice hd) = .error (.incomplete (2 * n)) ∧
        parseDerAny (Input.fromSlice hd) = .error (.incomplete (2 * n)))) := by
  refine ⟨fun vs fuel h => ?_, fun n fuel hn => ?_⟩
  · unfold optionListToVec
    rw [optionItemsLen_some t fuel h]; rfl
  · refine ⟨_, ?_, header_toVec .universal true ht hn, fun h0 => header_only_refused ht hn (by omega)⟩
    unfold optionListToVec
    rw [optionItemsLen_none, Nat.zero_add]
    have h1 := (writeTag_spec .universal true tag ht).1
    have h2 := (writeLength_spec (.definite (2 * n)) (by intro k hk; simp at hk; omega)).1
    have h3 : Writes (optionItemsWrite t (List.replicate n none) 0) [] 0 := by
      rw [optionItemsWrite_eq]
      have : (List.replicate n (none : Option α)).filterMap id = [] := by
        induction n with
        | zero => rfl
        | succ n ih => rw [List.replicate_succ]; exact ih (by omega) (by
            exact (writeLength_spec (.definite (2 * n)) (by intro k hk; simp at hk; omega)).1)
      rw [this]; exact writes_pure 0
    simp only [Option.map_some, Option.some.injEq]
    have h4 := h3.bind (f := fun n3 => (pure ((identOctets .universal true tag).length +
      (lenOctets (.definite (2 * n))).length + n3) : Wr Nat)) (writes_pure _)
    have h5 := h2.bind (f := fun n2 => optionItemsWrite t (List.replicate n none) 0 >>= fun n3 =>
      (pure ((identOctets .universal true tag).length + n2 + n3) : Wr Nat)) h4
    have h6 := h1.bind (f := fun n1 => writeLength (.definite (2 * n)) >>= fun n2 =>
      optionItemsWrite t (List.replicate n none) 0 >>= fun n3 => (pure (n1 + n2 + n3) : Wr Nat)) h5
    exact toVec_of_writes (h6.congr (by simp) rfl)

/-- **C124** An `IndefiniteVec` of optional values is written as the `IndefiniteVec` of those present. -/
theorem C124_indefinite (t : ToBer α) (vs : List (Option α)) :
    optionIndefToVec t vs = (indefToBer t).toVec (vs.filterMap id) := by
  unfold optionIndefToVec ToBer.toVec ToBer.encode ToBer.writeHeader Wr.toVec
  rw [optionItemsWrite_eq]
  show (match (writeTagGeneric .universal true 16 >>= fun n1 => writeLength .indefinite >>= fun n2 =>
      t.writeItems (vs.filterMap id) 0 >>= fun n3 => Wr.writeAll [0, 0] >>= fun _ =>
        (pure (n1 + n2 + (n3 + 2)) : Wr Nat)).exec with | (bs, .ok _) => .ok bs | (_, .error e) => .error e : Except SerErr Bytes) =
    (match ((writeTagGeneric .universal true 16 >>= fun n1 => writeLength .indefinite >>= fun n2 =>
      (pure (n1 + n2) : Wr Nat)) >>= fun n1 => (t.writeItems (vs.filterMap id) 0 >>= fun sz =>
        Wr.writeAll [0, 0] >>= fun _ => (pure (sz + 2) : Wr Nat)) >>= fun n2 => (pure (n1 + n2) : Wr Nat)).exec with
      | (bs, .ok _) => .ok bs | (_, .error e) => .error e : Except SerErr Bytes)
  simp only [exec_bind]
  rcases (writeTagGeneric .universal true 16).exec with ⟨b1, e1 | n1⟩
  · rfl
  · simp only
    rcases (writeLength .indefinite).exec with ⟨b2, e2 | n2⟩
    · rfl
    · simp only [exec_pure]
      rcases (t.writeItems (vs.filterMap id) 0).exec with ⟨b3, e3 | n3⟩
      · simp
      · simp

/-! ### Tagged values -/

/-- **C124** Deviation: `TaggedExplicit<Option<T>>` cannot be encoded if the value is present; an absent value
is written as a header that announces two octets, which no decoder accepts. -/
theorem C124_explicit_deviation (t : ToBer α) (cls : Class) (tag : Nat) (ht : tag < 2 ^ 32) :
    (∀ v fuel, optionExplicitToVec fuel cls tag t (some v) = none) ∧
    ∀ fuel, ∃ hd, optionExplicitToVec (fuel + 1) cls tag t none = some (.ok hd) ∧
      headerToBer.toVec (Header.new cls true tag (.definite 2)) = .ok hd ∧
      parseBerAny (Input.fromSlice hd) = .error (.incomplete 2) ∧
      parseDerAny (Input.fromSlice hd) = .error (.incomplete 2) := by
  refine ⟨fun v fuel => ?_, fun fuel => ?_⟩
  · unfold optionExplicitToVec
    rw [optionTotalLen_some]; rfl
  · refine ⟨_, ?_, header_toVec cls true ht (by decide), header_only_refused ht (by decide) (by decide)⟩
    unfold optionExplicitToVec
    rw [optionTotalLen_none]
    have h1 := (writeTag_spec cls true tag ht).1
    have h2 := (writeLength_spec (.definite 2) (by intro k hk; simp at hk; omega)).1
    simp only [Option.map_some, Option.some.injEq]
    have h4 := (writes_pure 0).bind (f := fun n3 => (pure ((identOctets cls true tag).length +
      (lenOctets (.definite 2)).length + n3) : Wr Nat)) (writes_pure _)
    have h5 := h2.bind (f := fun n2 => (pure 0 : Wr Nat) >>= fun n3 =>
      (pure ((identOctets cls true tag).length + n2 + n3) : Wr Nat)) h4
    have h6 := h1.bind (f := fun n1 => writeLength (.definite 2) >>= fun n2 =>
      (pure 0 : Wr Nat) >>= fun n3 => (pure (n1 + n2 + n3) : Wr Nat)) h5
    exact toVec_of_writes (h6.congr (by simp) rfl)

/-- **C124** Deviation: `TaggedImplicit<Option<T>>` decodes every object of its class and tag as an absent
value, whatever its content, unless `T` accepts the implicit tag number itself; so a present value, which is
written as an object with that tag, is lost without an error. -/
theorem C124_implicit_deviation (p : Parser α) (cls : Class) (tag : Nat) (ha : p.acceptTag tag = false) :
    (∀ i r a, parseBerAny i = .ok (r, a) → a.header.cls = cls → a.header.tag = tag →
      (implicitP cls tag (optionItem p)).parseBer i = .ok (r, ⟨none⟩)) ∧
    (∀ i r a, parseDerAny i = .ok (r, a) → a.header.cls = cls → a.header.tag = tag →
      (implicitP cls tag (optionItem p)).parseDer i = .ok (r, ⟨none⟩)) ∧
    (∀ (t : ToBer α) (v : α) (cs : Bytes), Encodes t v cs → cs.length < 2 ^ 64 → tag < 2 ^ 32 →
      ∃ bs, optionImplicitToVec cls tag t (some v) = .ok bs ∧ ∀ rest (i : Input), i.data = bs ++ rest →
        (implicitP cls tag (optionItem p)).parseBer i = .ok (after i bs.length, ⟨none⟩) ∧
        (implicitP cls tag (optionItem p)).parseDer i = .ok (after i bs.length, ⟨none⟩)) := by
  have hc : ∀ a : Any, a.header.cls = cls → a.header.tag = tag →
      (implicitP cls tag (optionItem p)).content a.header a.data = .ok (a.data, ⟨none⟩) := by
    intro a h1 h2
    have h3 : (optionItem p).content a.header a.data = .ok (a.data, none) := by
      show optionContent p a.header a.data = _
      unfold optionContent
      rw [h2, ha]; rfl
    show (if a.header.cls ≠ cls then _ else _) = _
    rw [if_neg (by simpa using h1), h3]; rfl
  have hb : ∀ i r a, parseBerAny i = .ok (r, a) → a.header.cls = cls → a.header.tag = tag →
      (implicitP cls tag (optionItem p)).parseBer i = .ok (r, ⟨none⟩) := fun i r a h h1 h2 =>
    parseBer_ok.mpr ⟨a, _, h, tagIs_iff.mpr h2, hc a h1 h2⟩
  have hd : ∀ i r a, parseDerAny i = .ok (r, a) → a.header.cls = cls → a.header.tag = tag →
      (implicitP cls tag (optionItem p)).parseDer i = .ok (r, ⟨none⟩) := fun i r a h h1 h2 =>
    parseDer_ok.mpr ⟨a, _, h, tagIs_iff.mpr h2, hc a h1 h2⟩
  refine ⟨hb, hd, fun t v cs he hs ht => ⟨full cls false tag cs, ?_, fun rest i hi => ⟨?_, ?_⟩⟩⟩
  · unfold optionImplicitToVec
    have h1 := (writeTag_spec cls false tag ht).1
    have h2 := (writeLength_spec (.definite cs.length) (by intro k hk; simp at hk; omega)).1
    have hlen : optionContentLen t (some v) = .definite cs.length := he.len
    rw [hlen]
    have h4 := he.content.bind (f := fun n3 => (pure ((identOctets cls false tag).length +
      (lenOctets (.definite cs.length)).length + n3) : Wr Nat)) (writes_pure _)
    have h5 := h2.bind (f := fun n2 => t.writeContent v >>= fun n3 =>
      (pure ((identOctets cls false tag).length + n2 + n3) : Wr Nat)) h4
    have h6 := h1.bind (f := fun n1 => writeLength (.definite cs.length) >>= fun n2 =>
      t.writeContent v >>= fun n3 => (pure (n1 + n2 + n3) : Wr Nat)) h5
    exact toVec_of_writes (h6.congr (by simp [full]) rfl)
  · obtain ⟨a, g1, g2, g3, g4, g5, g6⟩ := rules_any_full .ber i cls false tag cs rest ht hs hi
    exact hb _ _ _ g1 g2 g4
  · obtain ⟨a, g1, g2, g3, g4, g5, g6⟩ := rules_any_full .der i cls false tag cs rest ht hs hi
    exact hd _ _ _ g1 g2 g4

/-- **C124** `TaggedExplicit<Option<T>>` decodes an empty content, and (deviation) a content that begins with an
object of another tag, as an absent value. -/
theorem C124_explicit_decoding (m : Rules) (p : Parser α) (cls : Class) (tag : Nat) (h : Header) (i : Input)
    (h1 : h.constructed = true) (h2 : h.cls = cls) (h3 : h.tag = tag) :
    (i.data = [] → (explicitP cls tag (optionParse m.header p)).content h i = .ok (i, ⟨none⟩)) ∧
    (∀ r hd, i.data ≠ [] → m.header i = .ok (r, hd) → p.acceptTag hd.tag = false →
      (explicitP cls tag (optionParse m.header p)).content h i = .ok (i, ⟨none⟩)) := by
  have key : optionParse m.header p i = .ok (i, none) →
      (explicitP cls tag (optionParse m.header p)).content h i = .ok (i, ⟨none⟩) := by
    intro hk
    unfold explicitP
    simp only
    rw [show h.assertConstructed i = .ok () from assertConstructed_ok.mpr h1]
    simp only [bind_ok]
    rw [if_neg (by simpa using h2), if_neg (by rw [h3]; simp [tagIs]), hk]
    rfl
  refine ⟨fun he => key ?_, fun r hd hne hh ha => key ?_⟩
  · unfold optionParse
    rw [if_pos (by simpa [Input.isEmpty] using he)]
  · unfold optionParse
    rw [if_neg (by simpa [Input.isEmpty] using hne), hh]
    simp [ha]

/-- Cases: absent values in a list and under an EXPLICIT tag; `[1] IMPLICIT` of a present BOOLEAN, which is
written and comes back as absent; an EXPLICIT tag around an INTEGER, read as an absent BOOLEAN. -/
example :
    optionListToVec 1 16 boolToBer [none, none] = some (.ok [0x30, 4]) ∧
    optionListToVec 1000 16 boolToBer [none, some true] = none ∧
    optionIndefToVec boolToBer [none, some true] = .ok [0x30, 0x80, 1, 1, 0xff, 0, 0] ∧
    optionExplicitToVec 1 .contextSpecific 0 boolToBer none = some (.ok [0xa0, 2]) ∧
    boolDer.acceptTag 2 = false ∧
    optionImplicitToVec .contextSpecific 2 boolToBer (some true) = .ok [0x82, 1, 0xff] ∧
    (implicitP .contextSpecific 2 (optionItem boolDer)).parseDer (Input.fromSlice [0x82, 1, 0xff]) =
      .ok (⟨[], 3, 3⟩, ⟨none⟩) ∧
    (explicitP .contextSpecific 0 (optionParse parseHeaderDer boolDer)).parseDer
      (Input.fromSlice [0xa0, 3, 2, 1, 7]) = .ok (⟨[], 5, 5⟩, ⟨none⟩) := by
  decide +kernel

/-- Cases for `C124_parse_ber_partial`: a list of lists of BOOLEAN, the inner one with the indefinite form,
which the list of `Option` refuses, and with the definite form. -/
example :
    ((vecBer (optionItem (vecBer boolBer))).parseBer
      (Input.fromSlice [0x30, 7, 0x30, 0x80, 1, 1, 0xff, 0, 0])).isOk = false ∧
    (vecBer (vecBer boolBer)).parseBer (Input.fromSlice [0x30, 7, 0x30, 0x80, 1, 1, 0xff, 0, 0]) =
      .ok (⟨[], 9, 9⟩, [[true]]) ∧
    (vecBer (optionItem (vecBer boolBer))).parseBer (Input.fromSlice [0x30, 5, 0x30, 3, 1, 1, 0xff]) =
      .ok (⟨[], 7, 7⟩, [some [true]]) := by
  decide +kernel

/-- Cases for the other lists: a SET OF and an array of two present BOOLEANs, and an array with one element
too few. -/
example :
    (setOfP anyDer.parseDer (optionItem boolDer)).parseDer
      (Input.fromSlice [0x31, 6, 1, 1, 0xff, 1, 1, 0]) = .ok (⟨[], 8, 8⟩, ⟨[some true, some false]⟩) ∧
    (arrayP 2 anyDer.parseDer (optionItem boolDer)).parseDer
      (Input.fromSlice [0x30, 6, 1, 1, 0xff, 1, 1, 0]) = .ok (⟨[], 8, 8⟩, ⟨[some true, some false], rfl⟩) ∧
    ((arrayP 2 anyDer.parseDer (optionItem boolDer)).parseDer
      (Input.fromSlice [0x30, 3, 1, 1, 0xff])).isOk = false ∧
    (setOfP anyBer.parseBer (optionItem (vecBer boolBer))).parseBer
      (Input.fromSlice [0x31, 0x80, 0x30, 3, 1, 1, 0xff, 0, 0]) = .ok (⟨[], 9, 9⟩, ⟨[some [true]]⟩) ∧
    ((setOfP anyBer.parseBer (optionItem (vecBer boolBer))).parseBer
      (Input.fromSlice [0x31, 7, 0x30, 0x80, 1, 1, 0xff, 0, 0])).isOk = false := by
  decide +kernel

end Asn1

import Verif.Proofs.Iterator
/-!
# Iterators over the objects of a content (C37)
-/
namespace Asn1
open Spec

/-- Parsing the bytes of one object alone gives the same object. -/
theorem ObjParser.exact {parse : Input → PRes Any} (hp : ObjParser parse) {i r : Input} {a : Any}
    (hw : WF i) (h : parse i = .ok (r, a)) :
    ∃ k, 2 ≤ k ∧ k ≤ i.data.length ∧ r = after i k ∧
      parse (first i k) = .ok (after (first i k) k, a) := by
  obtain ⟨e, h1, h2, h3, h4⟩ := hp.loc h
  have hl : e.length ≤ i.data.length := by rw [h2]; simp
  refine ⟨e.length, h1, hl, h3, ?_⟩
  have h5 := h4 (first i e.length) [] (by simp [h2])
  have h6 := hp.good.ext _ _ _ (i.data.drop e.length) h5
  have h7 : extend (first i e.length) (i.data.drop e.length) = i := by
    have : i.start + e.length + (i.data.length - e.length) = i.stop := by
      unfold WF at hw; omega
    simp [extend, first, this]
  rw [h7, h] at h6
  simp at h6
  rw [h5, first_start, ← h6.2]

theorem calls_none {parse : Input → PRes Any} {it : AnyIter} (h : it.next parse = .ok (none, it))
    (n : Nat) : calls parse n it = .ok (List.replicate n none) := by
  induction n with
  | zero => rfl
  | succ n ih => simp [calls, h, ih, List.replicate_succ]

theorem take_replicate_append {β : Type} (l : List β) (b : β) (n m : Nat) (h : n ≤ m) :
    (l ++ List.replicate m b).take n = (l ++ List.replicate n b).take n := by
  rw [List.take_append, List.take_append]
  simp [List.take_replicate]
  omega

/-- **C37** Successive calls to `next` (BER or DER) never panic. They answer objects `os`, then at
most one error, then `None` for ever. Every object took at least two bytes, so there are at
most `len/2 + 1` answers; its span parses to it, entirely; the spans follow each other from
the start of the content; there is no error exactly when they cover it. -/
theorem C37_iterators (parse : Input → PRes Any)
    (hparse : parse = anyBer.parseBer ∨ parse = anyDer.parseDer) (i : Input) (hw : WF i) :
    ∃ (os : List (Input × Any)) (err : Option (Input × InnerError)) (rest : Bytes),
      (∀ n, calls parse n (AnyIter.new i) =
        .ok ((answers os err ++ List.replicate n none).take n)) ∧
      2 * os.length + rest.length ≤ i.data.length ∧
      (∀ x ∈ os, parse x.1 = .ok (after x.1 x.1.data.length, x.2)) ∧
      i.data = (os.map (·.1.data)).flatten ++ rest ∧
      (err = none ↔ rest = []) := by
  have hp : ObjParser parse := by
    rcases hparse with rfl | rfl
    · exact objParser_ber
    · exact objParser_der
  clear hparse
  generalize hn : i.data.length = m
  induction m using Nat.strongRecOn generalizing i with
  | ind m ih =>
    subst hn
    by_cases hne : i.data = []
    · refine ⟨[], none, [], fun n => ?_, by simp, by simp, by simp [hne], by simp⟩
      rw [AnyIter.new, calls_none (next_nil hne)]
      simp [answers, List.take_replicate]
    · cases hpi : parse i with
      | error e =>
        obtain ⟨j, f, hnx⟩ := next_err hp hne hpi
        refine ⟨[], some (j, f), i.data, fun n => ?_, by simp, by simp, by simp, by simp [hne]⟩
        cases n with
        | zero => rfl
        | succ n =>
          rw [AnyIter.new, calls, hnx]
          simp only
          rw [calls_none next_fused]
          simp [answers, List.take_replicate]
          try omega
      | ok x =>
        obtain ⟨r, a⟩ := x
        obtain ⟨k, h1, h2, h3, h4⟩ := hp.exact hw hpi
        have hlt := hp.lt hpi
        obtain ⟨os, err, rest, g1, g2, g3, g4, g5⟩ := ih r.data.length (by omega) r
          (by rw [h3]; exact WF_after hw h2) rfl
        have hk : r.start - i.start = k := by rw [h3]; simp
        have hlen : (first i k).data.length = k := by simp [Nat.min_eq_left h2]
        refine ⟨(first i k, a) :: os, err, rest, fun n => ?_, ?_, ?_, ?_, g5⟩
        · cases n with
          | zero => rfl
          | succ n =>
            rw [AnyIter.new, calls, next_ok hp hne hpi]
            simp only
            have := g1 n
            rw [AnyIter.new] at this
            rw [this, hk]
            simp only [answers, List.map_cons, List.cons_append, List.take_succ_cons]
            rw [take_replicate_append _ _ n (n + 1) (by omega)]
        · simp; omega
        · intro x hx
          simp only [List.mem_cons] at hx
          rcases hx with rfl | hx
          · simp only [hlen]; exact h4
          · exact g3 x hx
        · have : r.data = i.data.drop k := by rw [h3]; rfl
          rw [List.map_cons, List.flatten_cons, List.append_assoc, ← g4, this]
          simp

/-- Two INTEGERs and a truncated object: two objects, one error, then nothing. -/
example : (calls anyBer.parseBer 5 (AnyIter.new
      (Input.fromSlice [0x02, 0x01, 0x05, 0x02, 0x00, 0x04, 0x07]))).map
      (·.map (·.map fun | .obj s a => (s.data, some a.data.data) | .err i _ => (i.data, none))) =
    .ok [some ([0x02, 0x01, 0x05], some [0x05]), some ([0x02, 0x00], some []),
      some ([0x04, 0x07], none), none, none] := by decide +kernel

/-- **C37** Collecting the objects succeeds exactly when the whole content is made of objects; it
returns them all, in order, and nothing remains. -/
theorem C37_try_collect (parse : Input → PRes Any)
    (hparse : parse = anyBer.parseBer ∨ parse = anyDer.parseDer) (i e : Input) (as : List Any) :
    (AnyIter.new i).tryCollect parse = .ok (e, as) ↔
      Objs parse (fun _ => false) i as e := by
  have hp : ObjParser parse := by
    rcases hparse with rfl | rfl
    · exact objParser_ber
    · exact objParser_der
  have hfold : ∀ (l acc : List Any),
      l.foldlM (fun l a => (.ok (l ++ [a]) : Except PErr (List Any))) acc = .ok (acc ++ l) := by
    intro l
    induction l with
    | nil => intro acc; simp
    | cons a l ih => intro acc; rw [List.foldlM_cons, bind_ok, ih]; simp
  unfold AnyIter.tryCollect
  rw [bind_eq_ok]
  simp only [AnyIter.new]
  constructor
  · rintro ⟨⟨it, l⟩, h1, h2⟩
    obtain ⟨as', e', h3, h4, h5⟩ := (forIter_ok hp (stop := fun _ => false)
      (g := fun l a => .ok (l ++ [a])) (fun s a => by simp [Except.map])
      (by simp [Input.len])).mp h1
    rw [hfold] at h5
    simp at h2 h5
    obtain ⟨rfl, rfl⟩ := h2
    subst h4 h5
    exact h3
  · intro h
    refine ⟨(⟨e, false⟩, as), ?_, rfl⟩
    exact (forIter_ok hp (stop := fun _ => false)
      (g := fun l a => .ok (l ++ [a])) (fun s a => by simp [Except.map])
      (by simp [Input.len])).mpr ⟨as, e, h, rfl, by rw [hfold]; simp⟩

/-- A case: two objects. -/
example : ((AnyIter.new (Input.fromSlice [2, 1, 5, 5, 0])).tryCollect anyDer.parseDer).map
    (fun x => (x.1.data, x.2.map (·.header.tag))) = .ok ([], [2, 5]) := by decide +kernel

/-- Without a stopping object, nothing remains. -/
theorem objs_end {parse : Input → PRes Any} {i e : Input} {as : List Any}
    (h : Objs parse (fun _ => false) i as e) : e.data = [] := by
  induction h with
  | nil h => exact h
  | stop _ _ h => simp at h
  | cons _ _ _ _ ih => exact ih

/-- The object is accepted by the typed parser, with value `v`. -/
def DecodesTo {α : Type} (p : Parser α) (a : Any) (v : α) : Prop :=
  p.acceptTag a.header.tag = true ∧ ∃ x, p.content a.header a.data = .ok (x, v)

/-- The state after one step of `parseCollectStep`. -/
def collectGo {α : Type} (p : Parser α) (l : List α) (a : Any) : Except PErr (List α) :=
  (parseCollectStep p l a).map (·.2)

theorem collectGo_ok {α : Type} {p : Parser α} {l l' : List α} {a : Any} :
    collectGo p l a = .ok l' ↔ ∃ v, DecodesTo p a v ∧ l' = l ++ [v] := by
  unfold collectGo parseCollectStep DecodesTo
  cases hacc : p.acceptTag a.header.tag with
  | false => simp [nomErr, Except.map]
  | true =>
    simp only [Bool.not_true, Bool.false_eq_true, if_false, true_and]
    cases hc : p.content a.header a.data with
    | error e => simp [Except.map]
    | ok x =>
      obtain ⟨r, v⟩ := x
      simp only [Except.map, Except.ok.injEq, Prod.mk.injEq]
      constructor
      · rintro rfl; exact ⟨v, ⟨r, rfl, rfl⟩, rfl⟩
      · rintro ⟨w, ⟨x, _, rfl⟩, rfl⟩; rfl

theorem foldl_collectGo {α : Type} {p : Parser α} {as : List Any} {acc l : List α} :
    as.foldlM (collectGo p) acc = .ok l ↔ ∃ vs, Pointwise (DecodesTo p) as vs ∧ l = acc ++ vs := by
  induction as generalizing acc with
  | nil =>
    simp only [List.foldlM_nil]
    constructor
    · intro h; simp [pure, Except.pure] at h; exact ⟨[], .nil, by simp [h]⟩
    · rintro ⟨vs, h, rfl⟩; cases h; simp [pure, Except.pure]
  | cons a as ih =>
    rw [List.foldlM_cons, bind_eq_ok]
    constructor
    · rintro ⟨l1, h1, h2⟩
      obtain ⟨v, hv, rfl⟩ := collectGo_ok.mp h1
      obtain ⟨vs, h3, rfl⟩ := ih.mp h2
      exact ⟨v :: vs, .cons hv h3, by simp⟩
    · rintro ⟨vs, h, rfl⟩
      cases h with
      | @cons _ v _ vs hv h3 =>
        exact ⟨acc ++ [v], collectGo_ok.mpr ⟨v, hv, rfl⟩, ih.mpr ⟨vs, h3, by simp⟩⟩

/-- **C37** Collecting typed items succeeds exactly when the whole content is made of objects that
the item type accepts; it returns their values, in order. -/
theorem C37_try_parse_collect {α : Type} (parse : Input → PRes Any) (p : Parser α)
    (hparse : parse = anyBer.parseBer ∨ parse = anyDer.parseDer) (i e : Input) (vs : List α) :
    (AnyIter.new i).tryParseCollect parse p = .ok (e, vs) ↔
      ∃ as, Objs parse (fun _ => false) i as e ∧ Pointwise (DecodesTo p) as vs := by
  have hp : ObjParser parse := by
    rcases hparse with rfl | rfl
    · exact objParser_ber
    · exact objParser_der
  have hf : ∀ (s : List α) (a : Any), parseCollectStep p s a =
      if (fun _ => false) a then .ok (false, s) else (collectGo p s a).map (true, ·) := by
    intro s a
    unfold collectGo parseCollectStep
    split
    · simp [nomErr, Except.map]
    · split <;> simp [Except.map, *]
  unfold AnyIter.tryParseCollect
  rw [bind_eq_ok]
  simp only [AnyIter.new]
  constructor
  · rintro ⟨⟨it, l⟩, h1, h2⟩
    obtain ⟨as', e', h3, h4, h5⟩ := (forIter_ok hp hf (by simp [Input.len])).mp h1
    obtain ⟨ws, h6, h7⟩ := foldl_collectGo.mp h5
    simp [pure, Except.pure] at h2 h7
    obtain ⟨rfl, rfl⟩ := h2
    subst h4 h7
    exact ⟨as', h3, h6⟩
  · rintro ⟨as, h, h'⟩
    refine ⟨(⟨e, false⟩, vs), ?_, rfl⟩
    exact (forIter_ok hp hf (by simp [Input.len])).mpr
      ⟨as, e, h, rfl, foldl_collectGo.mpr ⟨vs, h', by simp⟩⟩

/-- A case: two INTEGERs; and one followed by a BOOLEAN, which is refused. -/
example : (AnyIter.new (Input.fromSlice [0x02, 0x01, 0x05, 0x02, 0x01, 0x07])).tryParseCollect
      anyBer.parseBer (uintBer 1) = .ok (⟨[], 6, 6⟩, [5, 7]) ∧
    (AnyIter.new (Input.fromSlice [0x02, 0x01, 0x05, 0x01, 0x01, 0xff])).tryParseCollect
      anyBer.parseBer (uintBer 1) ≠ .ok (⟨[], 6, 6⟩, [5, 1]) := by decide +kernel

end Asn1

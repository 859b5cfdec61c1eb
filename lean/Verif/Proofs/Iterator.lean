import Verif.Proofs.Local
import Verif.Spec.Objects
/-!
# Facts about iterators
-/
namespace Asn1
open Spec

/-- What the iterators need from the object parser. -/
structure ObjParser (parse : Input → PRes Any) : Prop where
  good : Good parse
  loc : ∀ {i r a}, parse i = .ok (r, a) → ∃ e, 2 ≤ e.length ∧ i.data = e ++ r.data ∧
    r = after i e.length ∧ ∀ (j : Input) (rest : Bytes), j.data = e ++ rest →
      parse j = .ok (after j e.length, a.rebase i.start j.start)

theorem objParser_ber : ObjParser anyBer.parseBer := by
  rw [anyBer_parseBer]; exact ⟨good_parseBerAny, parseBerAny_local⟩
theorem objParser_der : ObjParser anyDer.parseDer := by
  rw [anyDer_parseDer]; exact ⟨good_parseDerAny, parseDerAny_local⟩

theorem ObjParser.lt {parse : Input → PRes Any} (hp : ObjParser parse) {i r : Input} {a : Any}
    (h : parse i = .ok (r, a)) : r.data.length + 2 ≤ i.data.length := by
  obtain ⟨e, h1, h2, _⟩ := hp.loc h
  rw [h2]; simp; omega

theorem next_ok {parse : Input → PRes Any} (hp : ObjParser parse) {i r : Input} {a : Any}
    (hne : i.data ≠ []) (h : parse i = .ok (r, a)) :
    (AnyIter.mk i false).next parse =
      .ok (some (.obj (first i (r.start - i.start)) a), ⟨r, false⟩) := by
  obtain ⟨e, h1, h2, h3, _⟩ := hp.loc h
  have hs : r.start = i.start + e.length := by rw [h3]; simp
  have hl : e.length ≤ i.data.length := by rw [h2]; simp
  unfold AnyIter.next
  rw [if_neg (by simp [Input.isEmpty, hne])]
  simp only [h]
  rw [if_neg (by omega), take_eq, if_pos (by omega)]
  rfl

theorem next_nil {parse : Input → PRes Any} {i : Input} {b : Bool} (h : i.data = []) :
    (AnyIter.mk i b).next parse = .ok (none, ⟨i, b⟩) := by
  unfold AnyIter.next
  rw [if_pos (by simp [Input.isEmpty, h])]

theorem next_fused {parse : Input → PRes Any} {i : Input} :
    (AnyIter.mk i true).next parse = .ok (none, ⟨i, true⟩) := by
  unfold AnyIter.next; rfl

theorem next_err {parse : Input → PRes Any} (hp : ObjParser parse) {i : Input} {e : PErr}
    (hne : i.data ≠ []) (h : parse i = .error e) :
    ∃ j f, (AnyIter.mk i false).next parse = .ok (some (.err j f), ⟨i, true⟩) := by
  unfold AnyIter.next
  rw [if_neg (by simp [Input.isEmpty, hne])]
  simp only [h]
  cases e with
  | incomplete n => exact ⟨_, _, rfl⟩
  | error j f => exact ⟨_, _, rfl⟩
  | panic => exact absurd h (hp.good.noPanic i)
  | diverge => exact absurd h (hp.good.noDiverge i)

variable {σ : Type}

/-- Loops whose body stops on `stop` and otherwise updates the state by `g`. -/
theorem forIter_ok {parse : Input → PRes Any} (hp : ObjParser parse)
    {f : σ → Any → Except PErr (Bool × σ)} {stop : Any → Bool} {g : σ → Any → Except PErr σ}
    (hf : ∀ s a, f s a = if stop a then .ok (false, s) else (g s a).map (true, ·))
    {fuel : Nat} {i : Input} {s s' : σ} {it' : AnyIter} (hfuel : i.data.length < fuel) :
    forIter parse f fuel ⟨i, false⟩ s = .ok (it', s') ↔
      ∃ as e, Objs parse stop i as e ∧ it' = ⟨e, false⟩ ∧ as.foldlM g s = .ok s' := by
  induction fuel generalizing i s with
  | zero => omega
  | succ fuel ih =>
    unfold forIter
    by_cases hne : i.data = []
    · rw [next_nil hne]
      simp only [Except.ok.injEq, Prod.mk.injEq]
      constructor
      · rintro ⟨h1, h2⟩
        exact ⟨[], i, .nil hne, h1.symm, by rw [h2]; rfl⟩
      · rintro ⟨as, e, h1, h2, h3⟩
        cases h1 with
        | nil _ => simp at h3; exact ⟨h2.symm, h3⟩
        | stop h _ _ => exact absurd hne h
        | cons h _ _ _ => exact absurd hne h
    · cases hpi : parse i with
      | error e =>
        obtain ⟨j, f', hn⟩ := next_err hp hne hpi
        rw [hn]
        simp only [reduceCtorEq, false_iff]
        rintro ⟨as, e, h1, _⟩
        cases h1 with
        | nil h => exact hne h
        | stop _ h _ => rw [hpi] at h; simp at h
        | cons _ h _ _ => rw [hpi] at h; simp at h
      | ok x =>
        obtain ⟨r, a⟩ := x
        rw [next_ok hp hne hpi]
        have hlt := hp.lt hpi
        simp only [hf]
        cases hs : stop a with
        | true =>
          simp only [if_true, Except.ok.injEq, Prod.mk.injEq]
          constructor
          · rintro ⟨h1, h2⟩
            exact ⟨[], r, .stop hne hpi hs, h1.symm, by rw [h2]; rfl⟩
          · rintro ⟨as, e, h1, h2, h3⟩
            cases h1 with
            | nil h => exact absurd h hne
            | stop _ h _ => rw [hpi] at h; simp at h h3; exact ⟨by rw [h2, h.1], h3⟩
            | cons _ h h' _ => rw [hpi] at h; simp at h; rw [← h.2, hs] at h'; simp at h'
        | false =>
          simp only [Bool.false_eq_true, if_false]
          have hcons : ∀ as e, Objs parse stop i as e ↔ ∃ bs, as = a :: bs ∧ Objs parse stop r bs e := by
            intro as e
            constructor
            · intro h
              cases h with
              | nil h => exact absurd h hne
              | stop _ h h' => rw [hpi] at h; simp at h; rw [← h.2, hs] at h'; simp at h'
              | cons _ h _ ht =>
                rw [hpi] at h; simp at h
                exact ⟨_, by rw [h.2], by rw [h.1]; exact ht⟩
            · rintro ⟨bs, rfl, h⟩; exact .cons hne hpi hs h
          cases hg : g s a with
          | error e =>
            simp only [Except.map, reduceCtorEq, false_iff]
            rintro ⟨as, e', h1, _, h3⟩
            obtain ⟨bs, rfl, _⟩ := (hcons as e').mp h1
            rw [List.foldlM_cons, hg] at h3; simp at h3
          | ok s1 =>
            simp only [Except.map]
            rw [ih (by omega)]
            constructor
            · rintro ⟨as, e, h1, h2, h3⟩
              exact ⟨a :: as, e, (hcons _ _).mpr ⟨as, rfl, h1⟩, h2, by rw [List.foldlM_cons, hg]; exact h3⟩
            · rintro ⟨as, e, h1, h2, h3⟩
              obtain ⟨bs, rfl, h4⟩ := (hcons as e).mp h1
              rw [List.foldlM_cons, hg] at h3
              exact ⟨bs, e, h4, h2, h3⟩

theorem forIter_safe {parse : Input → PRes Any} (hp : ObjParser parse)
    {f : σ → Any → Except PErr (Bool × σ)} (hf : ∀ s a, NoPanic (f s a))
    {fuel : Nat} {i : Input} {b : Bool} {s : σ} (hfuel : i.data.length < fuel) :
    NoPanic (forIter parse f fuel ⟨i, b⟩ s) := by
  induction fuel generalizing i b s with
  | zero => omega
  | succ fuel ih =>
    unfold forIter
    cases b with
    | true => rw [next_fused]; exact noPanic_ok _
    | false =>
      by_cases hne : i.data = []
      · rw [next_nil hne]; exact noPanic_ok _
      · cases hpi : parse i with
        | error e =>
          obtain ⟨j, f', hn⟩ := next_err hp hne hpi
          rw [hn]; simp [NoPanic]
        | ok x =>
          obtain ⟨r, a⟩ := x
          rw [next_ok hp hne hpi]
          have hlt := hp.lt hpi
          simp only
          have := hf s a
          cases hfa : f s a with
          | error e => rw [hfa] at this; simpa [NoPanic] using this
          | ok y =>
            obtain ⟨c, s'⟩ := y
            cases c with
            | true => exact ih (by omega)
            | false => exact noPanic_ok _

end Asn1

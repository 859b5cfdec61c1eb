import Verif.Spec.Refusal
import Verif.Props.Fault
import Verif.Props.DeriveRead
import Verif.Props.Place
import Verif.Props.Real32
import Verif.Proofs.Weight
/-!
# The error of a part is the error of the whole (C121)
-/
namespace Asn1
open Spec

variable {α : Type}

theorem objParser_any (m : Rules) : ObjParser m.any := by
  cases m with
  | ber => exact rulesAny_ber ▸ objParser_ber
  | der => exact rulesAny_der ▸ objParser_der

/-! ### From an input to an object -/

theorem parse_header_err {m : Rules} {p : Parser α} {i : Input} {e : PErr} (h : m.header i = .error e) :
    m.parse p i = .error e := by
  cases m with
  | ber => exact bind_eq_err.mpr (.inl h)
  | der => exact bind_eq_err.mpr (.inl h)

theorem parse_other_tag {m : Rules} {p : Parser α} {i r : Input} {h : Header} (hh : m.header i = .ok (r, h))
    (ht : p.acceptTag h.tag = false) : m.parse p i = .error (.error i (.unexpectedTag none h.tag)) := by
  cases m with
  | ber => exact (C113_unexpected_tag p ht).1 hh
  | der => exact (C113_unexpected_tag p ht).2 hh

theorem parse_any_unread {m : Rules} {p : Parser α} {i r : Input} {h : Header} {e : PErr}
    (hh : m.header i = .ok (r, h)) (ht : p.acceptTag h.tag = true) (ha : m.any i = .error e) :
    m.parse p i = .error e := by
  cases m with
  | ber =>
    have hh : parseHeader i = .ok (r, h) := hh
    have ha : parseBerAny i = .error e := ha
    unfold parseBerAny at ha
    refine bind_eq_err.mpr (.inr ⟨_, hh, ?_⟩)
    rw [hh, bind_ok] at ha
    simp only [ht, Bool.not_true, Bool.false_eq_true, if_false] at ha ⊢
    rcases bind_eq_err.mp ha with ha | ⟨_, _, ha⟩
    · exact bind_eq_err.mpr (.inl ha)
    · cases ha
  | der =>
    have hh : parseHeaderDer i = .ok (r, h) := hh
    have ha : parseDerAny i = .error e := ha
    have hl := (parseHeaderDer_ok.mp hh).2
    unfold parseDerAny at ha
    refine bind_eq_err.mpr (.inr ⟨_, hh, ?_⟩)
    rw [hh, bind_ok] at ha
    simp only at ha ⊢
    cases hn : h.length with
    | indefinite => rw [hn] at hl; cases hl
    | definite n =>
      simp only [hn, derContent, definiteInner, Length.isDefinite, ht, Bool.not_true, Bool.false_eq_true, if_false,
        bind_ok] at ha ⊢
      rcases bind_eq_err.mp ha with ha | ⟨_, _, ha⟩
      · exact bind_eq_err.mpr (.inl ha)
      · cases ha

/-- Every refusal of the content parser is explained. -/
def Explained (m : Rules) (p : Parser α) : Prop :=
  ∀ h c loc e, p.content h c = .error (.error loc e) → Refuses m p h c loc e

theorem fails_of_parse {m : Rules} {p : Parser α} (hp : Explained m p) {i loc : Input} {e : InnerError}
    (h : m.parse p i = .error (.error loc e)) : Fails m p i loc e := by
  cases hh : m.header i with
  | error e1 =>
    rw [parse_header_err hh] at h
    cases h
    exact .header hh
  | ok x =>
    obtain ⟨r, hd⟩ := x
    cases ht : p.acceptTag hd.tag with
    | false =>
      rw [parse_other_tag hh ht] at h
      cases h
      exact .tag hh ht
    | true =>
      cases ha : m.any i with
      | error e1 =>
        rw [parse_any_unread hh ht ha] at h
        cases h
        exact .content hh ht ha
      | ok y =>
        obtain ⟨r2, a⟩ := y
        obtain ⟨_, r1, h3⟩ := rules_any_header ha
        rw [hh] at h3
        cases h3
        cases hc : p.content a.header a.data with
        | ok z => rw [parse_of_content ha ht hc] at h; cases h
        | error e1 =>
          rw [parse_any_err ha ht hc] at h
          cases h
          exact .object ha ht (hp _ _ _ _ hc)

/-! ### Items -/

theorem collect_unread {m : Rules} {p : Parser α} {i loc : Input} {e : InnerError} (h0 : i.data ≠ [])
    (h : m.any i = .error (.error loc e)) (fuel : Nat) (l : List α) :
    forIter m.any (parseCollectStep p) (fuel + 1) ⟨i, false⟩ l = .error (.error loc e) := by
  have : (AnyIter.mk i false).next m.any = .ok (some (.err loc e), ⟨i, true⟩) := by
    unfold AnyIter.next
    rw [if_neg (by simpa [Input.isEmpty] using h0)]
    simp only [h]
  unfold forIter
  rw [this]

theorem collect_cut {m : Rules} {p : Parser α} {i : Input} {n : Nat} (h0 : i.data ≠ [])
    (h : m.any i = .error (.incomplete n)) (fuel : Nat) (l : List α) :
    forIter m.any (parseCollectStep p) (fuel + 1) ⟨i, false⟩ l = .error (.error i (.incomplete (.size n))) := by
  have : (AnyIter.mk i false).next m.any = .ok (some (.err i (.incomplete (.size n))), ⟨i, true⟩) := by
    unfold AnyIter.next
    rw [if_neg (by simpa [Input.isEmpty] using h0)]
    simp only [h]
  unfold forIter
  rw [this]

theorem collect_step {m : Rules} {p : Parser α} {i r : Input} {a : Any} (h : m.any i = .ok (r, a)) (fuel : Nat)
    (l : List α) :
    forIter m.any (parseCollectStep p) (fuel + 1) ⟨i, false⟩ l =
      match parseCollectStep p l a with
      | .error e => .error e
      | .ok (true, s') => forIter m.any (parseCollectStep p) fuel ⟨r, false⟩ s'
      | .ok (false, s') => .ok (⟨r, false⟩, s') := by
  rw [forIter, next_ok (objParser_any m) (rules_any_header h).1 h]
  simp only
  cases parseCollectStep p l a with
  | error e => rfl
  | ok y =>
    obtain ⟨b, s⟩ := y
    cases b <;> rfl

theorem items_explained {m : Rules} {p : Parser α} (hp : Explained m p) {fuel : Nat} {i loc : Input} {l : List α}
    {e : InnerError} (h : forIter m.any (parseCollectStep p) fuel ⟨i, false⟩ l = .error (.error loc e)) :
    ItemsFail m p i loc e := by
  induction fuel generalizing i l with
  | zero => cases h
  | succ fuel ih =>
    by_cases h0 : i.data = []
    · unfold forIter at h
      rw [next_nil h0] at h
      cases h
    · cases ha : m.any i with
      | error e1 =>
        cases e1 with
        | incomplete n => rw [collect_cut h0 ha] at h; cases h; exact .truncated h0 ha
        | error loc1 e1 => rw [collect_unread h0 ha] at h; cases h; exact .unreadable h0 ha
        | panic => exact absurd ha ((objParser_any m).good.noPanic i)
        | diverge => exact absurd ha ((objParser_any m).good.noDiverge i)
      | ok x =>
        obtain ⟨r, a⟩ := x
        rw [collect_step ha] at h
        unfold parseCollectStep at h
        cases ht : p.acceptTag a.header.tag with
        | false =>
          simp only [ht, Bool.not_false, if_true, nomErr] at h
          cases h
          exact .tag ha ht
        | true =>
          simp only [ht, Bool.not_true, Bool.false_eq_true, if_false] at h
          cases hc : p.content a.header a.data with
          | error e1 =>
            simp only [hc] at h
            cases h
            exact .item ha ht (hp _ _ _ _ hc)
          | ok y =>
            obtain ⟨x, v⟩ := y
            simp only [hc] at h
            exact .later ha ht hc (ih h)

theorem items_read {m : Rules} {p : Parser α} {fuel : Nat} {i : Input} {l vs : List α} {it : AnyIter}
    (h : forIter m.any (parseCollectStep p) fuel ⟨i, false⟩ l = .ok (it, vs)) :
    ∃ ws j, vs = l ++ ws ∧ ItemsRead m.any p i ws j ∧ j.data = [] := by
  induction fuel generalizing i l with
  | zero => cases h
  | succ fuel ih =>
    by_cases h0 : i.data = []
    · unfold forIter at h
      rw [next_nil h0] at h
      cases h
      exact ⟨[], i, by simp, .nil, h0⟩
    · cases ha : m.any i with
      | error e1 =>
        cases e1 with
        | incomplete n => rw [collect_cut h0 ha] at h; cases h
        | error loc1 e1 => rw [collect_unread h0 ha] at h; cases h
        | panic => exact absurd ha ((objParser_any m).good.noPanic i)
        | diverge => exact absurd ha ((objParser_any m).good.noDiverge i)
      | ok x =>
        obtain ⟨r, a⟩ := x
        rw [collect_step ha] at h
        unfold parseCollectStep at h
        cases ht : p.acceptTag a.header.tag with
        | false => simp only [ht, Bool.not_false, if_true, nomErr] at h; cases h
        | true =>
          simp only [ht, Bool.not_true, Bool.false_eq_true, if_false] at h
          cases hc : p.content a.header a.data with
          | error e1 => simp only [hc] at h; cases h
          | ok y =>
            obtain ⟨x, v⟩ := y
            simp only [hc] at h
            obtain ⟨ws, j, h1, h2, h3⟩ := ih h
            exact ⟨v :: ws, j, by rw [h1]; simp, .cons h0 ha ht hc h2, h3⟩

theorem read_items {m : Rules} {p : Parser α} {i j : Input} {ws : List α} (h : ItemsRead m.any p i ws j)
    (hj : j.data = []) : ∀ fuel (l : List α), i.data.length < fuel →
      forIter m.any (parseCollectStep p) fuel ⟨i, false⟩ l = .ok (⟨j, false⟩, l ++ ws) := by
  induction h with
  | nil =>
    intro fuel l hf
    obtain ⟨fuel, rfl⟩ : ∃ k, fuel = k + 1 := ⟨fuel - 1, by omega⟩
    rw [forIter, next_nil hj, List.append_nil]
  | @cons i r j x a v vs h0 ha ht hv _ ih =>
    intro fuel l hf
    obtain ⟨fuel, rfl⟩ : ∃ k, fuel = k + 1 := ⟨fuel - 1, by omega⟩
    rw [collect_step ha]
    have := (objParser_any m).lt ha
    simp only [parseCollectStep, ht, Bool.not_true, Bool.false_eq_true, if_false, hv]
    rw [ih hj fuel _ (by omega), List.append_assoc]
    rfl

/-- A constructed object of items. -/
def itemsContent (m : Rules) (p : Parser α) (h : Header) (c : Input) : PRes (List α) :=
  h.assertConstructed c >>= fun _ => (AnyIter.new c).tryParseCollect m.any p

theorem collect_empty {m : Rules} {p : Parser α} {c : Input} (h : c.data = []) :
    (AnyIter.new c).tryParseCollect m.any p = .ok (c, []) := by
  unfold AnyIter.tryParseCollect
  rw [forIter, AnyIter.new, next_nil h]
  rfl

theorem vec_items (m : Rules) (p : Parser α) : (vecP m.any p).content = itemsContent m p := by
  funext h c
  unfold vecP itemsContent
  simp only
  refine bind_congr_ok fun _ _ => ?_
  by_cases h0 : c.data = []
  · rw [if_pos (by simpa [Input.isEmpty] using h0), collect_empty h0]
  · rw [if_neg (by simpa [Input.isEmpty] using h0)]

theorem itemsContent_err {m : Rules} {p : Parser α} (hp : Explained m p) {h : Header} {c loc : Input} {e : InnerError}
    (hi : itemsContent m p h c = .error (.error loc e)) :
    (h.constructed = false ∧ loc = c ∧ e = .constructExpected) ∨ (h.constructed = true ∧ ItemsFail m p c loc e) := by
  unfold itemsContent at hi
  cases hf : h.constructed with
  | false =>
    rw [assertConstructed_err hf c] at hi
    cases hi
    exact .inl ⟨rfl, rfl, rfl⟩
  | true =>
    rw [assertConstructed_ok (u := ()) |>.mpr hf, bind_ok] at hi
    refine .inr ⟨rfl, ?_⟩
    rcases bind_eq_err.mp hi with hi | ⟨_, _, hi⟩
    · exact items_explained hp hi
    · cases hi

theorem itemsContent_form {m : Rules} {p : Parser α} {h : Header} {c : Input} (hf : h.constructed = false) :
    itemsContent m p h c = .error (.error c .constructExpected) := by
  unfold itemsContent
  rw [assertConstructed_err hf c]
  rfl

theorem itemsContent_fail {m : Rules} {p : Parser α} {h : Header} {c loc : Input} {e : InnerError}
    (hf : h.constructed = true) (hi : ∀ fuel (l : List α), c.data.length < fuel →
      forIter m.any (parseCollectStep p) fuel ⟨c, false⟩ l = .error (.error loc e)) :
    itemsContent m p h c = .error (.error loc e) := by
  unfold itemsContent
  rw [assertConstructed_ok (u := ()) |>.mpr hf, bind_ok]
  exact bind_eq_err.mpr (.inl (hi _ _ (Nat.lt_succ_self _)))

theorem itemsContent_read {m : Rules} {p : Parser α} {h : Header} {c j : Input} {vs : List α}
    (hf : h.constructed = true) (hr : ItemsRead m.any p c vs j) (hj : j.data = []) :
    itemsContent m p h c = .ok (j, vs) := by
  unfold itemsContent
  rw [assertConstructed_ok (u := ()) |>.mpr hf, bind_ok]
  exact bind_eq_ok.mpr ⟨_, read_items hr hj _ [] (Nat.lt_succ_self _), rfl⟩

theorem collection_err {m : Rules} {β : Type} {p : Parser α} {P : Parser β} (hc : Collection m p P) {h : Header}
    {c : Input} {e : PErr} (hi : itemsContent m p h c = .error e) : P.content h c = .error e := by
  cases hc with
  | vec => rw [vecBer, rulesAny_ber, vec_items]; exact hi
  | vecDer => rw [vecDer, rulesAny_der, vec_items]; exact hi
  | sequenceOf => rw [rulesAny_ber]; exact bind_eq_err.mpr (.inl (by rw [vec_items]; exact hi))
  | sequenceOfDer => rw [rulesAny_der]; exact bind_eq_err.mpr (.inl (by rw [vec_items]; exact hi))
  | array => rw [rulesAny_ber]; exact bind_eq_err.mpr (.inl (by rw [vec_items]; exact hi))
  | arrayDer => rw [rulesAny_der]; exact bind_eq_err.mpr (.inl (by rw [vec_items]; exact hi))
  | setOf => rw [rulesAny_ber]; exact map_content_err.mpr hi
  | setOfDer => rw [rulesAny_der]; exact map_content_err.mpr hi
  | set => rw [rulesAny_ber]; exact map_content_err.mpr hi
  | setDer => rw [rulesAny_der]; exact map_content_err.mpr hi

theorem explained_list {m : Rules} {β : Type} {p : Parser α} {P : Parser β} (hp : Explained m p)
    (hc : Collection m p P) {h : Header} {c loc : Input} {e : InnerError}
    (hi : itemsContent m p h c = .error (.error loc e)) : Refuses m P h c loc e := by
  rcases itemsContent_err hp hi with ⟨h1, rfl, rfl⟩ | ⟨h1, h2⟩
  · exact .collectionForm hc h1
  · exact .item hc h1 h2

theorem explained_array {m : Rules} {N : Nat} {p : Parser α} {h : Header} {c loc : Input} {e : InnerError}
    (hl : itemsContent m p h c = .error (.error loc e) → Refuses m (arrayP N m.any p) h c loc e)
    (hi : (arrayP N m.any p).content h c = .error (.error loc e)) : Refuses m (arrayP N m.any p) h c loc e := by
  rcases bind_eq_err.mp hi with hi | ⟨⟨r, vs⟩, h1, hi⟩
  · rw [vec_items] at hi; exact hl hi
  · simp only at hi
    split at hi
    · cases hi
    · rename_i hN
      cases hi
      rw [vec_items] at h1
      obtain ⟨_, h2, h3⟩ := bind_eq_ok.mp h1
      obtain ⟨⟨it, ws⟩, h4, h5⟩ := bind_eq_ok.mp h3
      cases h5
      obtain ⟨us, j, rfl, h6, h7⟩ := items_read h4
      exact .arraySize (assertConstructed_ok.mp h2) h6 h7 hN

theorem explained_collection {m : Rules} {β : Type} {p : Parser α} {P : Parser β} (hp : Explained m p)
    (hc : Collection m p P) : Explained m P := by
  intro h c loc e hi
  have hl := fun hi => explained_list hp hc (h := h) (c := c) (loc := loc) (e := e) hi
  cases hc with
  | vec => rw [vecBer, rulesAny_ber, vec_items] at hi; exact hl hi
  | vecDer => rw [vecDer, rulesAny_der, vec_items] at hi; exact hl hi
  | setOf => rw [rulesAny_ber] at hi; exact hl (map_content_err.mp hi)
  | setOfDer => rw [rulesAny_der] at hi; exact hl (map_content_err.mp hi)
  | set => rw [rulesAny_ber] at hi; exact hl (map_content_err.mp hi)
  | setDer => rw [rulesAny_der] at hi; exact hl (map_content_err.mp hi)
  | sequenceOf =>
    rw [rulesAny_ber] at hi
    rcases bind_eq_err.mp hi with hi | ⟨_, _, hi⟩
    · rw [vec_items] at hi; exact hl hi
    · cases hi
  | sequenceOfDer =>
    rw [rulesAny_der] at hi
    rcases bind_eq_err.mp hi with hi | ⟨_, _, hi⟩
    · rw [vec_items] at hi; exact hl hi
    · cases hi
  | array N =>
    rw [rulesAny_ber] at hi hl ⊢
    exact explained_array hl hi
  | arrayDer N =>
    rw [rulesAny_der] at hi hl ⊢
    exact explained_array hl hi

/-! ### The other types -/

theorem explained_leaf {m : Rules} {p : Parser α} (hl : Simple m p) : Explained m p := fun _ _ _ _ h => .leaf hl h

theorem explained_raw (m : Rules) (tag : Nat) : Explained m (rawP tag) := by
  intro h c loc e hi
  rcases bind_eq_err.mp hi with hi | ⟨_, _, hi⟩
  · cases hf : h.constructed with
    | false => rw [assertConstructed_err hf c] at hi; cases hi; exact .rawForm hf
    | true => rw [assertConstructed_ok (u := ()) |>.mpr hf] at hi; cases hi
  · rcases bind_eq_err.mp hi with hi | ⟨_, _, hi⟩
    · simp [takeSplit_eq, Input.len] at hi
    · cases hi

theorem explained_explicit {m : Rules} {p : Parser α} (hp : Explained m p) (cls : Class) (tag : Nat) :
    Explained m (explicitP cls tag (m.parse p)) := by
  intro h c loc e hi
  unfold explicitP at hi
  simp only at hi
  cases hf : h.constructed with
  | false => rw [assertConstructed_err hf c] at hi; cases hi; exact .explicitForm hf
  | true =>
    rw [assertConstructed_ok (u := ()) |>.mpr hf, bind_ok] at hi
    by_cases hc : h.cls = cls
    · rw [if_neg (by simp [hc])] at hi
      by_cases ht : h.tag = tag
      · rw [if_neg (by simp [tagIs, ht])] at hi
        rcases bind_eq_err.mp hi with hi | ⟨_, _, hi⟩
        · exact .explicit hf hc ht (fails_of_parse hp hi)
        · cases hi
      · rw [if_pos (by simp [tagIs, ht])] at hi
        cases hi
        exact .explicitTag hf hc ht
    · rw [if_pos hc] at hi
      cases hi
      exact .explicitClass hf hc

theorem explained_implicit {m : Rules} {p : Parser α} (hp : Explained m p) (cls : Class) (tag : Nat) :
    Explained m (implicitP cls tag p) := by
  intro h c loc e hi
  unfold implicitP at hi
  simp only at hi
  by_cases hc : h.cls = cls
  · rw [if_neg (by simp [hc])] at hi
    rcases bind_eq_err.mp hi with hi | ⟨_, _, hi⟩
    · exact .implicit hc (hp _ _ _ _ hi)
    · cases hi
  · rw [if_pos hc] at hi
    cases hi
    exact .implicitClass hc

theorem explained_alias {m : Rules} {p : Parser α} (hp : Explained m p) : Explained m (aliasP p) := by
  intro h c loc e hi
  rcases bind_eq_err.mp hi with hi | ⟨_, _, hi⟩
  · exact .alias (hp _ _ _ _ hi)
  · cases hi

/-! ### Tuples -/

/-- Every refusal of the components is explained. -/
def TupleExplained (m : Rules) {Ts : List Type} (fs : TupFns Ts) : Prop :=
  ∀ i loc e, fs.run i = .error (.error loc e) → TupleFails m fs i loc e

theorem explained_tuple {m : Rules} {Ts : List Type} {fs : TupFns Ts} (h : TupleExplained m fs) :
    Explained m (tupleP fs) := fun _ _ _ _ hi => .tuple (h _ _ _ hi)

theorem tuple_cons {m : Rules} {T : Type} {Ts : List Type} {p : Parser T} {fs : TupFns Ts} (hp : Explained m p)
    (hf : TupleExplained m fs) : TupleExplained m (.cons (m.parse p) fs) := by
  intro i loc e hi
  rcases bind_eq_err.mp hi with hi | ⟨⟨r, v⟩, h1, hi⟩
  · exact .here (fails_of_parse hp hi)
  · rcases bind_eq_err.mp hi with hi | ⟨_, _, hi⟩
    · exact .later h1 (hf _ _ _ hi)
    · cases hi

/-! ### Fields -/

theorem value_explained {m : Rules} {p : Parser α} (hp : Explained m p) (tag : FieldTag) {i loc : Input}
    {e : InnerError} (h : requiredField m tag p i = .error (.error loc e)) : ValueFails m tag p i loc e := by
  cases tag with
  | untagged => exact .untagged (fails_of_parse hp h)
  | explicit cls n =>
    rcases bind_eq_err.mp h with h | ⟨_, _, h⟩
    · exact .explicit (fails_of_parse (explained_explicit hp cls n) h)
    · cases h
  | implicit cls n =>
    rcases bind_eq_err.mp h with h | ⟨_, _, h⟩
    · exact .implicit (fails_of_parse (explained_implicit hp cls n) h)
    · cases h

theorem optional_empty {m : Rules} {p : Parser α} (tag : FieldTag) {i : Input} (h0 : i.data = []) :
    optionalField m tag p i = .ok (i, none) :=
  optionalField_ok.mpr (.inr ⟨rfl, rfl, .done h0⟩)

theorem optional_other {m : Rules} {p : Parser α} (tag : FieldTag) {i r : Input} {h : Header}
    (hh : m.header i = .ok (r, h)) (ht : ¬ Announces p tag h.tag) : optionalField m tag p i = .ok (i, none) :=
  optionalField_ok.mpr (.inr ⟨rfl, rfl, .other hh ht⟩)

theorem optional_unread {m : Rules} {p : Parser α} (tag : FieldTag) {i : Input} {e : PErr} (h0 : i.data ≠ [])
    (hh : m.header i = .error e) : optionalField m tag p i = .error e := by
  have hne : ¬ i.isEmpty = true := by simpa [Input.isEmpty] using h0
  cases tag with
  | untagged => show optionParse m.header p i = _; unfold optionParse; rw [if_neg hne, hh]; rfl
  | explicit cls n => show optTaggedField m n _ i = _; unfold optTaggedField; rw [if_neg hne, hh]; rfl
  | implicit cls n => show optTaggedField m n _ i = _; unfold optTaggedField; rw [if_neg hne, hh]; rfl

theorem header_nonempty {m : Rules} {i r : Input} {h : Header} (hh : m.header i = .ok (r, h)) : i.data ≠ [] := by
  intro h0
  have h1 : parseHeader i = .ok (r, h) := by
    cases m with
    | ber => exact hh
    | der => exact (parseHeaderDer_ok.mp hh).1
  obtain ⟨k, h2, h3, _⟩ := parseHeader_consumes h1
  rw [h0] at h3
  exact absurd h3 (by simp only [List.length_nil]; omega)

theorem optTagged_announced {m : Rules} {n : Nat} {p : Parser (TaggedValue α)} {i r : Input} {h : Header}
    (hh : m.header i = .ok (r, h)) (ht : h.tag = n) : optTaggedField m n p i = present (taggedField m p i) := by
  unfold optTaggedField taggedField
  rw [if_neg (by simpa [Input.isEmpty] using header_nonempty hh), hh, bind_ok]
  simp only [ht, if_true]
  cases m.parse p i <;> rfl

theorem optional_announced {m : Rules} {p : Parser α} {tag : FieldTag} {i r : Input} {h : Header}
    (hh : m.header i = .ok (r, h)) (ht : Announces p tag h.tag) (hd : tag = .untagged → h.length ≠ .indefinite) :
    optionalField m tag p i = present (requiredField m tag p i) := by
  have h0 := header_nonempty hh
  cases tag with
  | untagged =>
    cases m with
    | ber => exact ((((C35_option_parse_partial p i).2.1 h0).1 r h hh).2 ht (hd rfl))
    | der => exact ((((C35_option_parse_partial p i).2.2 h0).1 r h hh).2 ht)
  | explicit cls n => exact optTagged_announced hh ht
  | implicit cls n => exact optTagged_announced hh ht

theorem present_err {x : PRes α} {e : PErr} : present x = .error e ↔ x = .error e := by
  cases x with
  | error e1 => exact ⟨fun h => by cases h; rfl, fun h => by cases h; rfl⟩
  | ok y => exact ⟨fun h => (nomatch h), fun h => (nomatch h)⟩

theorem optional_explained {m : Rules} {p : Parser α} (hp : Explained m p) {tag : FieldTag} {U : Type} {f : Field U}
    (hf : MayMiss tag p f) {i loc : Input} {e : InnerError}
    (h : optionalField m tag p i = .error (.error loc e)) : FieldFails m f i loc e := by
  by_cases h0 : i.data = []
  · rw [optional_empty tag h0] at h; cases h
  · cases hh : m.header i with
    | error e1 =>
      rw [optional_unread tag h0 hh] at h
      cases h
      exact .unreadable hf h0 hh
    | ok x =>
      obtain ⟨r, hd⟩ := x
      by_cases ht : Announces p tag hd.tag
      · by_cases hl : tag = .untagged → hd.length ≠ .indefinite
        · rw [optional_announced hh ht hl] at h
          exact .announced hf hh ht hl (value_explained hp tag (present_err.mp h))
        · have hu : tag = .untagged := Classical.byContradiction fun hn => hl fun h => absurd h hn
          have hi : hd.length = .indefinite := Classical.byContradiction fun hn => hl fun _ => hn
          subst hu
          exact .indefinite hf hh ht hi h
      · rw [optional_other tag hh ht] at h; cases h

/-- Every refusal of the fields is explained. -/
def FieldsExplained (m : Rules) {Ts : List Type} (fs : Fields Ts) : Prop :=
  ∀ i loc e, (fs.fns m).run i = .error (.error loc e) → FieldsFail m fs i loc e

theorem fields_cons {m : Rules} {T : Type} {Ts : List Type} {f : Field T} {fs : Fields Ts}
    (hf : ∀ i loc e, f.parse m i = .error (.error loc e) → FieldFails m f i loc e) (hfs : FieldsExplained m fs) :
    FieldsExplained m (.cons f fs) := by
  intro i loc e hi
  rcases bind_eq_err.mp hi with hi | ⟨⟨r, v⟩, h1, hi⟩
  · exact .here (hf _ _ _ hi)
  · rcases bind_eq_err.mp hi with hi | ⟨_, _, hi⟩
    · exact .later ((C76_field_reads m f _ _ _).mp h1) (hfs _ _ _ hi)
    · cases hi

theorem explained_struct {m : Rules} {Ts : List Type} {fs : Fields Ts} (tag : Nat) (hf : FieldsExplained m fs) :
    Explained m (structP m tag fs) := by
  intro h c loc e hi
  rcases bind_eq_err.mp hi with hi | ⟨_, h1, hi⟩
  · cases hc : h.constructed with
    | false => rw [assertConstructed_err hc c] at hi; cases hi; exact .structForm hc
    | true => rw [assertConstructed_ok (u := ()) |>.mpr hc] at hi; cases hi
  · exact .field (assertConstructed_ok.mp h1) (hf _ _ _ hi)

/-! ### CHOICE -/

/-- Every refusal of the variants is explained. -/
def VariantsExplained (m : Rules) {Ts : List Type} (vs : Variants Ts) : Prop :=
  ∀ k h c loc e, vs.content m k h c = .error (.error loc e) → VariantsFail m k vs h c loc e

theorem variants_nil {m : Rules} : VariantsExplained m .nil := by
  intro k h c loc e hi
  cases hi
  exact .none

theorem variants_cons {m : Rules} {T : Type} {Ts : List Type} {p : Parser T} {vs : Variants Ts} (tag : Nat)
    (hp : Explained m p) (hv : VariantsExplained m vs) : VariantsExplained m (.cons tag p vs) := by
  intro k h c loc e hi
  unfold Variants.content at hi
  by_cases ha : variantAccept k tag p h.tag = true
  · rw [if_pos ha] at hi
    rcases bind_eq_err.mp hi with hi | ⟨_, _, hi⟩
    · cases k with
      | explicit => exact .explicit (by simpa [variantAccept] using ha) (fails_of_parse hp hi)
      | implicit => exact .implicit (by simpa [variantAccept] using ha) (hp _ _ _ _ hi)
      | untagged => exact .untagged ha (hp _ _ _ _ hi)
    · cases hi
  · rw [if_neg ha] at hi
    rcases bind_eq_err.mp hi with hi | ⟨_, _, hi⟩
    · refine .later (fun hk => ?_) (fun hk => ?_) (hv _ _ _ _ _ hi)
      · subst hk
        exact Bool.eq_false_iff.mpr ha
      · cases k with
        | untagged => exact absurd rfl hk
        | explicit => exact fun hn => ha (by simp [variantAccept, hn])
        | implicit => exact fun hn => ha (by simp [variantAccept, hn])
    · cases hi

theorem explained_choice {m : Rules} {Ts : List Type} {vs : Variants Ts} (k : ChoiceKind)
    (hv : VariantsExplained m vs) : Explained m (choiceP m k vs) := by
  intro h c loc e hi
  cases k with
  | explicit =>
    rcases bind_eq_err.mp hi with hi | ⟨_, h1, hi⟩
    · cases hc : h.constructed with
      | false => rw [assertConstructed_err hc c] at hi; cases hi; exact .choiceForm hc
      | true => rw [assertConstructed_ok (u := ()) |>.mpr hc] at hi; cases hi
    · exact .variant (fun _ => assertConstructed_ok.mp h1) (hv _ _ _ _ _ hi)
  | implicit => exact .variant (fun h => by cases h) (hv _ _ _ _ _ hi)
  | untagged => exact .variant (fun h => by cases h) (hv _ _ _ _ _ hi)

/-! ### All types -/

theorem universal_leaf {c : Codec α} (h : UniversalType c) : Simple .ber c.ber ∧ Simple .der c.der := by
  cases h with
  | uint N h => exact ⟨.decoder (.uint h.1), .decoder (.uintDer h.1)⟩
  | int N h => exact ⟨.decoder (.int h.1), .decoder (.intDer h.1)⟩
  | integer => exact ⟨.decoder .integer, .decoder .integerDer⟩
  | bool => exact ⟨.decoder .bool, .decoder .boolDer⟩
  | null => exact ⟨.decoder (.null _), .decoder (.null _)⟩
  | enumerated => exact ⟨.decoder .enumerated, .decoder .enumeratedDer⟩
  | octetString => exact ⟨.decoder .octetString, .decoder .octetStringDer⟩
  | bitString => exact ⟨.decoder .bitString, .decoder .bitStringDer⟩
  | oid => exact ⟨.decoder (.oid _), .decoder (.oid _)⟩
  | utcTime => exact ⟨.decoder .utcTime, .decoder .utcTimeDer⟩
  | generalizedTime => exact ⟨.decoder .generalizedTime, .decoder .generalizedTimeDer⟩
  | text h => exact ⟨.decoder (.text h), .decoder (.textDer h)⟩
  | refStr => exact ⟨.decoder .str, .decoder .strDer⟩
  | string => exact ⟨.decoder .string, .decoder .strDer⟩
  | bmpString => exact ⟨.decoder .bmpString, .decoder .bmpStringDer⟩
  | universalString => exact ⟨.decoder .universalString, .decoder .universalStringDer⟩

theorem explained_built {real : Bool} {pb pd : Parser α} (h : Built real pb pd) :
    Explained .ber pb ∧ Explained .der pd := by
  refine Built.rec (motive_1 := fun pb pd _ => Explained .ber pb ∧ Explained .der pd)
    (motive_2 := fun fb fd _ => TupleExplained .ber fb ∧ TupleExplained .der fd)
    (motive_3 := fun fb fd _ => FieldsExplained .ber fb ∧ FieldsExplained .der fd)
    (motive_4 := fun vb vd _ => VariantsExplained .ber vb ∧ VariantsExplained .der vd)
    ?_ ?_ ?_ ?_ ?_ ?_ ?_ ?_ ?_ ?_ ?_ ?_ ?_ ?_ ?_ ?_ ?_ ?_ ?_ ?_ ?_ ?_ ?_ ?_ ?_ ?_ ?_ ?_ ?_ h
  · exact fun h => ⟨explained_leaf (universal_leaf h).1, explained_leaf (universal_leaf h).2⟩
  · exact fun lib _ => ⟨explained_leaf (.real _ lib), explained_leaf (.real _ lib)⟩
  · exact fun lib _ => ⟨explained_leaf (.f64 _ lib), explained_leaf (.f64 _ lib)⟩
  · exact fun lib _ => ⟨explained_leaf (.f32 _ lib), explained_leaf (.f32 _ lib)⟩
  · exact ⟨explained_leaf (.decoder .boolean), explained_leaf (.decoder .booleanDer)⟩
  · exact ⟨explained_leaf (.decoder .slice), explained_leaf (.decoder .sliceDer)⟩
  · exact ⟨explained_leaf .any, explained_leaf .anyDer⟩
  · exact ⟨explained_leaf (.embeddedPdv _), explained_leaf (.embeddedPdv _)⟩
  · exact fun _ ih => ⟨explained_collection ih.1 (.vec _), explained_collection ih.2 (.vecDer _)⟩
  · exact fun _ ih => ⟨explained_collection ih.1 (.sequenceOf _), explained_collection ih.2 (.sequenceOfDer _)⟩
  · exact fun _ ih => ⟨explained_collection ih.1 (.setOf _), explained_collection ih.2 (.setOfDer _)⟩
  · exact fun S _ ih => ⟨explained_collection ih.1 (.set S _), explained_collection ih.2 (.setDer S _)⟩
  · exact fun N _ ih => ⟨explained_collection ih.1 (.array N _), explained_collection ih.2 (.arrayDer N _)⟩
  · exact fun _ ih => ⟨explained_tuple ih.1, explained_tuple ih.2⟩
  · exact fun tag => ⟨explained_raw _ tag, explained_raw _ tag⟩
  · exact fun cls tag _ ih => ⟨explained_explicit ih.1 cls tag, explained_explicit ih.2 cls tag⟩
  · exact fun cls tag _ ih => ⟨explained_implicit ih.1 cls tag, explained_implicit ih.2 cls tag⟩
  · exact fun tag _ ih => ⟨explained_struct tag ih.1, explained_struct tag ih.2⟩
  · exact fun k _ ih => ⟨explained_choice k ih.1, explained_choice k ih.2⟩
  · exact fun ds => ⟨explained_leaf (.decoder (.enum ds)), explained_leaf (.decoder (.enumDer ds))⟩
  · exact fun _ ih => ⟨explained_alias ih.1, explained_alias ih.2⟩
  · exact ⟨fun i loc e hi => (nomatch hi), fun i loc e hi => (nomatch hi)⟩
  · exact fun _ _ ih iht => ⟨tuple_cons ih.1 iht.1, tuple_cons ih.2 iht.2⟩
  · exact ⟨fun i loc e hi => (nomatch hi), fun i loc e hi => (nomatch hi)⟩
  · exact fun tag _ _ ih iht => ⟨fields_cons (fun _ _ _ hi => .required (value_explained ih.1 tag hi)) iht.1,
      fields_cons (fun _ _ _ hi => .required (value_explained ih.2 tag hi)) iht.2⟩
  · exact fun tag _ _ ih iht => ⟨fields_cons (fun _ _ _ hi => optional_explained ih.1 .optional hi) iht.1,
      fields_cons (fun _ _ _ hi => optional_explained ih.2 .optional hi) iht.2⟩
  · refine fun tag x _ _ ih iht => ⟨fields_cons (fun _ _ _ hi => ?_) iht.1, fields_cons (fun _ _ _ hi => ?_) iht.2⟩
    · rcases bind_eq_err.mp hi with hi | ⟨_, _, hi⟩
      · exact optional_explained ih.1 (.default x) hi
      · cases hi
    · rcases bind_eq_err.mp hi with hi | ⟨_, _, hi⟩
      · exact optional_explained ih.2 (.default x) hi
      · cases hi
  · exact ⟨variants_nil, variants_nil⟩
  · exact fun tag _ _ ih iht => ⟨variants_cons tag ih.1 iht.1, variants_cons tag ih.2 iht.2⟩

/-! ### The refusals are errors -/

theorem variant_here {m : Rules} {k : ChoiceKind} {T : Type} {Ts : List Type} {tag : Nat} {p : Parser T}
    {vs : Variants Ts} {h : Header} {c : Input} {e : PErr} (ha : variantAccept k tag p h.tag = true)
    (hc : variantContent m k p h c = .error e) : (Variants.cons tag p vs).content m k h c = .error e := by
  unfold Variants.content
  rw [if_pos ha]
  exact bind_eq_err.mpr (.inl hc)

theorem error_of_fails {m : Rules} {p : Parser α} {i loc : Input} {e : InnerError} (h : Fails m p i loc e) :
    m.parse p i = .error (.error loc e) := by
  refine Fails.rec (m := m)
    (motive_1 := fun p i loc e _ => m.parse p i = .error (.error loc e))
    (motive_2 := fun p h c loc e _ => p.content h c = .error (.error loc e))
    (motive_3 := fun {α} p i loc e _ => ∀ fuel (l : List α), i.data.length < fuel →
      forIter m.any (parseCollectStep p) fuel ⟨i, false⟩ l = .error (.error loc e))
    (motive_4 := fun fs i loc e _ => fs.run i = .error (.error loc e))
    (motive_5 := fun tag p i loc e _ => requiredField m tag p i = .error (.error loc e))
    (motive_6 := fun f i loc e _ => f.parse m i = .error (.error loc e))
    (motive_7 := fun fs i loc e _ => (fs.fns m).run i = .error (.error loc e))
    (motive_8 := fun k _ vs h c loc e _ => vs.content m k h c = .error (.error loc e))
    ?_ ?_ ?_ ?_ ?_ ?_ ?_ ?_ ?_ ?_ ?_ ?_ ?_ ?_ ?_ ?_ ?_ ?_ ?_ ?_ ?_ ?_ ?_ ?_ ?_ ?_ ?_ ?_ ?_ ?_ ?_ ?_ ?_ ?_ ?_ ?_ ?_ ?_ ?_
    ?_ ?_ ?_ h
  · exact fun hh => parse_header_err hh
  · exact fun hh ht => parse_other_tag hh ht
  · exact fun hh ht ha => parse_any_unread hh ht ha
  · exact fun ha ht _ ih => parse_any_err ha ht ih
  · exact fun _ hc => hc
  · exact fun hf => bind_eq_err.mpr (.inl (assertConstructed_err hf _))
  · exact fun hc hf => collection_err hc (itemsContent_form hf)
  · exact fun hc hf _ ih => collection_err hc (itemsContent_fail hf ih)
  · intro α p N h c j vs hf hr hj hN
    unfold arrayP
    simp only
    rw [vec_items, itemsContent_read hf hr hj, bind_ok]
    simp only [hN]
    rfl
  · exact fun _ ih => ih
  · exact fun hf => bind_eq_err.mpr (.inl (assertConstructed_err hf _))
  · intro α p cls tag h c hf hc
    refine bind_eq_err.mpr (.inr ⟨(), assertConstructed_ok.mpr hf, ?_⟩)
    rw [if_pos hc]; rfl
  · intro α p cls tag h c hf hc ht
    refine bind_eq_err.mpr (.inr ⟨(), assertConstructed_ok.mpr hf, ?_⟩)
    rw [if_neg (by simp [hc]), if_pos (by simp [tagIs, ht])]; rfl
  · intro α p cls tag h c loc e hf hc ht _ ih
    refine bind_eq_err.mpr (.inr ⟨(), assertConstructed_ok.mpr hf, ?_⟩)
    rw [if_neg (by simp [hc]), if_neg (by simp [tagIs, ht])]
    exact bind_eq_err.mpr (.inl ih)
  · intro α p cls tag h c hc
    unfold implicitP
    simp only
    rw [if_pos hc]; rfl
  · intro α p cls tag h c loc e hc _ ih
    unfold implicitP
    simp only
    rw [if_neg (by simp [hc])]
    exact bind_eq_err.mpr (.inl ih)
  · exact fun hf => bind_eq_err.mpr (.inl (assertConstructed_err hf _))
  · exact fun hf _ ih => bind_eq_err.mpr (.inr ⟨(), assertConstructed_ok.mpr hf, ih⟩)
  · exact fun hf => bind_eq_err.mpr (.inl (assertConstructed_err hf _))
  · intro Ts vs k h c loc e hf _ ih
    cases k with
    | explicit => exact bind_eq_err.mpr (.inr ⟨(), assertConstructed_ok.mpr (hf rfl), ih⟩)
    | implicit => exact ih
    | untagged => exact ih
  · exact fun _ ih => bind_eq_err.mpr (.inl ih)
  · intro α p i loc e h0 ha fuel l hl
    obtain ⟨fuel, rfl⟩ : ∃ k, fuel = k + 1 := ⟨fuel - 1, by omega⟩
    exact collect_unread h0 ha fuel l
  · intro α p i n h0 ha fuel l hl
    obtain ⟨fuel, rfl⟩ : ∃ k, fuel = k + 1 := ⟨fuel - 1, by omega⟩
    exact collect_cut h0 ha fuel l
  · intro α p i r a ha ht fuel l hl
    obtain ⟨fuel, rfl⟩ : ∃ k, fuel = k + 1 := ⟨fuel - 1, by omega⟩
    rw [collect_step ha]
    simp [parseCollectStep, ht, nomErr]
  · intro α p i r loc a e ha ht _ ih fuel l hl
    obtain ⟨fuel, rfl⟩ : ∃ k, fuel = k + 1 := ⟨fuel - 1, by omega⟩
    rw [collect_step ha]
    simp only [parseCollectStep, ht, Bool.not_true, Bool.false_eq_true, if_false, ih]
  · intro α p i r x loc a v e ha ht hc _ ih fuel l hl
    obtain ⟨fuel, rfl⟩ : ∃ k, fuel = k + 1 := ⟨fuel - 1, by omega⟩
    rw [collect_step ha]
    have := (objParser_any m).lt ha
    simp only [parseCollectStep, ht, Bool.not_true, Bool.false_eq_true, if_false, hc]
    exact ih fuel _ (by omega)
  · exact fun _ ih => bind_eq_err.mpr (.inl ih)
  · exact fun hp _ ih => bind_eq_err.mpr (.inr ⟨_, hp, bind_eq_err.mpr (.inl ih)⟩)
  · exact fun _ ih => ih
  · exact fun _ ih => bind_eq_err.mpr (.inl ih)
  · exact fun _ ih => bind_eq_err.mpr (.inl ih)
  · exact fun _ ih => ih
  · intro T U f tag p i loc e hf h0 hh
    cases hf with
    | optional => exact optional_unread tag h0 hh
    | default x => exact bind_eq_err.mpr (.inl (optional_unread tag h0 hh))
  · intro T U f tag p i r loc h e hf hh ht hd _ ih
    have := (optional_announced hh ht hd).trans (present_err.mpr ih)
    cases hf with
    | optional => exact this
    | default x => exact bind_eq_err.mpr (.inl this)
  · intro T U f p i r loc h e hf hh ht hi ho
    cases hf with
    | optional => exact ho
    | default x => exact bind_eq_err.mpr (.inl ho)
  · exact fun _ ih => bind_eq_err.mpr (.inl ih)
  · exact fun hr _ ih => bind_eq_err.mpr (.inr ⟨_, (C76_field_reads m _ _ _ _).mpr hr, bind_eq_err.mpr (.inl ih)⟩)
  · exact rfl
  · exact fun ht _ ih => variant_here (by simp [variantAccept, ht]) ih
  · exact fun ht _ ih => variant_here (by simp [variantAccept, ht]) ih
  · exact fun ht _ ih => variant_here ht ih
  · intro k T Ts tag p vs h c loc e h1 h2 _ ih
    unfold Variants.content
    have : ¬ variantAccept k tag p h.tag = true := by
      cases k with
      | untagged => simp [variantAccept, h1 rfl]
      | explicit => simp [variantAccept, h2 (by decide)]
      | implicit => simp [variantAccept, h2 (by decide)]
    rw [if_neg this]
    exact bind_eq_err.mpr (.inl ih)

/-! ### The theorems -/

/-- **C121** Of every type, however it is composed, the error is the one of the first thing in the input that is not
accepted (`Spec/Refusal`): a header, a tag, the form of an object, the number of items, or the content of a type
without parts; and there is no other error. Missing: fields with their own parse function; and `Fails` has two origins
that the property does not have, because the code does so (an optional field of indefinite length, C35, and an item
of a list that is cut short). -/
theorem C121_error_origin_partial {real : Bool} {pb pd : Parser α} (h : Built real pb pd) (i loc : Input) (e : InnerError) :
    (pb.parseBer i = .error (.error loc e) ↔ Fails .ber pb i loc e) ∧
    (pd.parseDer i = .error (.error loc e) ↔ Fails .der pd i loc e) :=
  ⟨⟨fun hp => fails_of_parse (m := .ber) (explained_built h).1 hp, fun hf => error_of_fails hf⟩,
   ⟨fun hp => fails_of_parse (m := .der) (explained_built h).2 hp, fun hf => error_of_fails hf⟩⟩

/-- **C121** There is one first thing that is not accepted, and then the decoder returns no value. -/
theorem C121_one_origin {m : Rules} {p : Parser α} {i loc : Input} {e : InnerError} (h : Fails m p i loc e) :
    (∀ loc' e', Fails m p i loc' e' → loc' = loc ∧ e' = e) ∧ ∀ x, m.parse p i ≠ .ok x := by
  have h1 := error_of_fails h
  refine ⟨fun loc' e' h' => ?_, fun x hx => ?_⟩
  · have h2 := error_of_fails h'
    rw [h1] at h2
    cases h2
    exact ⟨rfl, rfl⟩
  · rw [h1] at hx
    cases hx

/-- **C121** Of a type without parts the error is the fault of the content (C120). -/
theorem C121_fault {m : Rules} {k : Kind} {p : Parser α} (hd : DecoderOf m k p) {i r : Input} {a : Any}
    (h : m.any i = .ok (r, a)) (ht : p.acceptTag a.header.tag = true) (hc : a.header.constructed = false)
    (e : InnerError) :
    (∃ loc e', Refuses m p a.header a.data loc e' ∧ plainError e' = e) ↔ Fault m k a.data.data e := by
  constructor
  · rintro ⟨loc, e', h1, rfl⟩
    have h2 := error_of_fails (.object h ht h1)
    exact ((C120_error_names_fault_partial hd h ht hc).1 _).mp ⟨loc, e', h2, rfl⟩
  · intro hf
    rcases judged hd h ht hc with ⟨loc, e1, h1, h2⟩ | ⟨_, h2⟩
    · exact ⟨loc, e1, .leaf (.decoder hd) h1, C120_one_fault h2 hf⟩
    · exact absurd hf (h2 e)

/-- A struct with a number and an optional truth value. -/
def pairFields : Fields [Nat, Option Bool] :=
  .cons (.required .untagged (uintDer 1)) (.cons (.optional (.explicit .contextSpecific 0) boolDer) .nil)

local instance : DecidableEq (Tup [Nat, Option Bool]) := inferInstanceAs (DecidableEq (Nat × Option Bool × Unit))

/-- Of a list of two such structs, the truth value in the tag of the second is not one in DER: the error is the one
of `bool`, and its place is after the octet of the BOOLEAN. -/
example : Fails .der (vecDer (structP .der 16 pairFields))
    (Input.fromSlice [0x30, 0x0f, 0x30, 0x03, 0x02, 0x01, 0x05, 0x30, 0x08, 0x02, 0x01, 0x05, 0xa0, 0x03, 0x01, 0x01,
      0x07]) ⟨[], 17, 17⟩ (.derConstraintFailed .invalidBoolean) := by
  refine ((C121_error_origin_partial (real := false) (pb := vecBer (structP .ber 16
    (.cons (.required .untagged (uintBer 1)) (.cons (.optional (.explicit .contextSpecific 0) boolBer) .nil)))) ?_
    _ _ _).2).mp (by decide +kernel)
  exact .vec (.struct 16 (.required .untagged (.universal (.uint 1 (by decide)))
    (.optional _ (.universal .bool) .nil)))

/-- The same error, derived from what is wrong. -/
example : (vecDer (structP .der 16 pairFields)).parseDer
    (Input.fromSlice [0x30, 0x05, 0x30, 0x03, 0x02, 0x01, 0xff]) =
      .error (.error ⟨[0xff], 6, 7⟩ .integerNegative) := by
  refine error_of_fails (m := .der) ?_
  refine .object (r := ⟨[], 7, 7⟩) (a := ⟨⟨.universal, true, 16, .definite 5, some [0x30],
    some ⟨[0x30, 0x05], 0, 2⟩⟩, ⟨[0x30, 0x03, 0x02, 0x01, 0xff], 2, 7⟩⟩) (by decide +kernel) rfl ?_
  refine .item (.vecDer _) rfl ?_
  refine .item (r := ⟨[], 7, 7⟩) (a := ⟨⟨.universal, true, 16, .definite 3, some [0x30],
    some ⟨[0x30, 0x03], 2, 4⟩⟩, ⟨[0x02, 0x01, 0xff], 4, 7⟩⟩) (by decide +kernel) rfl ?_
  refine .field rfl (.here (.required (.untagged ?_)))
  refine .object (r := ⟨[], 7, 7⟩) (a := ⟨⟨.universal, false, 2, .definite 1, some [0x02],
    some ⟨[0x02, 0x01], 4, 6⟩⟩, ⟨[0xff], 6, 7⟩⟩) (by decide +kernel) rfl ?_
  exact .leaf (.decoder (.uintDer (by decide))) (by decide +kernel)

end Asn1

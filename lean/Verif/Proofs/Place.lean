import Verif.Spec.Place
import Verif.Proofs.Forward
/-!
# Errors are reported at a place in the input
-/
namespace Asn1
open Spec
variable {α β γ : Type}

/-! ### Places -/

theorem inside_refl {i : Input} (w : WF i) : Inside i i := by
  refine ⟨0, i.data.length, by omega, ?_, rfl, w⟩
  rw [List.drop_zero, List.take_length]

theorem inside_after {i : Input} (w : WF i) {k : Nat} (hk : k ≤ i.data.length) : Inside (after i k) i := by
  refine ⟨k, i.data.length - k, by omega, ?_, rfl, ?_⟩
  · rw [after_data, List.take_of_length_le]
    rw [List.length_drop]; omega
  · rw [after_stop, w]; omega

theorem inside_first {i : Input} {k : Nat} (hk : k ≤ i.data.length) : Inside (first i k) i :=
  ⟨0, k, by omega, by rw [List.drop_zero]; rfl, rfl, rfl⟩

theorem inside_wf {j i : Input} (h : Inside j i) : WF j := by
  obtain ⟨a, n, h1, h2, h3, h4⟩ := h
  show j.stop = j.start + j.data.length
  rw [h2, h3, h4, List.length_take, List.length_drop]
  omega

theorem inside_trans {k j i : Input} (h : Inside k j) (h' : Inside j i) : Inside k i := by
  obtain ⟨a, n, h1, h2, h3, h4⟩ := h
  obtain ⟨b, m, g1, g2, g3, g4⟩ := h'
  have hl : j.data.length = m := by rw [g2, List.length_take, List.length_drop]; omega
  refine ⟨b + a, n, by omega, ?_, by omega, by omega⟩
  rw [h2, g2, List.drop_take, List.take_take, List.drop_drop, Nat.min_eq_left (by omega)]

theorem inside_ahead {i r : Input} {x : PRes α} {v : α} (w : WF i) (ha : Ahead i x) (h : x = .ok (r, v)) :
    Inside r i := by
  obtain ⟨k, hk, rfl⟩ := ha r v h
  exact inside_after w hk

/-- The error, if there is one, is reported at a place in `i`. -/
def ErrIn (i : Input) (x : Except PErr γ) : Prop := ∀ loc e, x = .error (.error loc e) → Inside loc i

theorem errIn_ok {i : Input} {v : γ} : ErrIn i (.ok v) := by rintro _ _ ⟨⟩
theorem errIn_incomplete {i : Input} {n : Nat} : ErrIn i (.error (.incomplete n) : Except PErr γ) := by
  rintro _ _ ⟨⟩
theorem errIn_panic {i : Input} : ErrIn i (.error .panic : Except PErr γ) := by rintro _ _ ⟨⟩
theorem errIn_diverge {i : Input} : ErrIn i (.error .diverge : Except PErr γ) := by rintro _ _ ⟨⟩

theorem errIn_nomErr {i j : Input} {e : InnerError} (h : Inside j i) : ErrIn i (nomErr j e : Except PErr γ) := by
  rintro _ _ hx
  injection hx with hx; injection hx with hx _
  exact hx ▸ h

theorem errIn_self {i : Input} {e : InnerError} (w : WF i) : ErrIn i (nomErr i e : Except PErr γ) :=
  errIn_nomErr (inside_refl w)

theorem ErrIn.bind {i : Input} {x : Except PErr β} {f : β → Except PErr γ} (hx : ErrIn i x)
    (h : ∀ c, x = .ok c → ErrIn i (f c)) : ErrIn i (x >>= f) := by
  intro loc e he
  rcases bind_eq_err.mp he with he | ⟨c, hc, he⟩
  · exact hx _ _ he
  · exact h c hc _ _ he

theorem ErrIn.within {i j : Input} {x : Except PErr γ} (hx : ErrIn j x) (h : Inside j i) : ErrIn i x :=
  fun _ _ he => inside_trans (hx _ _ he) h

/-- A step, then one from where it stopped. -/
theorem ErrIn.step {i : Input} {x : PRes α} {f : Input × α → Except PErr γ} (w : WF i) (ha : Ahead i x)
    (hx : ErrIn i x) (h : ∀ r v, x = .ok (r, v) → WF r → ErrIn r (f (r, v))) : ErrIn i (x >>= f) :=
  hx.bind fun c hc => by
    have := inside_ahead w ha (r := c.1) (v := c.2) hc
    exact (h c.1 c.2 hc (inside_wf this)).within this

theorem errIn_map {i : Input} {x : Except PErr β} (f : β → γ) (h : ErrIn i x) : ErrIn i (x.map f) := by
  cases x with
  | ok v => exact errIn_ok
  | error e =>
    intro loc e' he
    injection he with he
    exact h loc e' (by rw [he])

theorem errIn_assertPrimitive {h : Header} {i : Input} (w : WF i) : ErrIn i (h.assertPrimitive i) := by
  unfold Header.assertPrimitive
  split
  · exact errIn_self w
  · exact errIn_ok

theorem errIn_assertConstructed {h : Header} {i : Input} (w : WF i) : ErrIn i (h.assertConstructed i) := by
  unfold Header.assertConstructed
  split
  · exact errIn_self w
  · exact errIn_ok

theorem errIn_beU8 {i j : Input} : ErrIn i (beU8 j) := by
  intro loc e h
  cases (beU8_err.mp h).2

theorem errIn_takeS {i j : Input} {n : Nat} : ErrIn i (takeS n j) := by
  rw [takeS_eq]
  split
  · exact errIn_ok
  · exact errIn_incomplete

theorem errIn_takeSplit {i j : Input} {n : Nat} : ErrIn i (j.takeSplit n) := by
  rw [takeSplit_eq]
  split
  · exact errIn_ok
  · exact errIn_panic

theorem errIn_take {i j : Input} {n : Nat} : ErrIn i (j.take n) := by
  rw [take_eq]
  split
  · exact errIn_ok
  · exact errIn_panic

theorem errIn_atEnd {i j : Input} : ErrIn i j.atEnd := by
  rw [atEnd_eq]
  exact errIn_ok

theorem errIn_liftErr {i : Input} {x : Except InnerError γ} (w : WF i) : ErrIn i (liftErr i x) := by
  cases x with
  | ok v => exact errIn_ok
  | error e => exact errIn_self w

theorem takeS_data {i r d : Input} {n : Nat} (h : takeS n i = .ok (r, d)) : Inside d i := by
  rw [takeS_eq] at h
  split at h
  · injection h with h; injection h with _ h
    exact h ▸ inside_first ‹_›
  · cases h

theorem takeSplit_data {i r d : Input} {n : Nat} (h : i.takeSplit n = .ok (r, d)) : Inside d i := by
  rw [takeSplit_eq] at h
  split at h
  · injection h with h; injection h with _ h
    exact h ▸ inside_first ‹_›
  · cases h

/-! ### Headers and contents -/

/-- A header that cannot be read is reported where it starts. -/
theorem parseHeader_place {i loc : Input} {e : InnerError} (h : parseHeader i = .error (.error loc e)) :
    loc = i := by
  have htag : ∀ fuel rem c cnt loc e, tagLoop i fuel rem c cnt = .error (.error loc e) → loc = i := by
    intro fuel
    induction fuel with
    | zero => rintro rem c cnt loc e ⟨⟩
    | succ n ih =>
      intro rem c cnt loc e h
      unfold tagLoop at h
      split at h
      · injection h with h; injection h with h _; exact h.symm
      · split at h
        · injection h with h; injection h with h _; exact h.symm
        · simp only at h
          split at h
          · cases h
          · exact ih _ _ _ _ _ h
  unfold parseHeader at h
  rcases bind_eq_err.mp h with h | ⟨⟨r0, b0⟩, _, h⟩
  · cases (beU8_err.mp h).2
  · simp only at h
    split at h
    · cases h
    · rcases bind_eq_err.mp h with h | ⟨⟨r1, tag, k⟩, _, h⟩
      · unfold parseTag at h
        simp only at h
        split at h
        · exact htag _ _ _ _ _ _ h
        · cases h
      · simp only at h
        split at h
        · cases h
        · rcases bind_eq_err.mp h with h | ⟨⟨r2, l0⟩, _, h⟩
          · cases (beU8_err.mp h).2
          · rcases bind_eq_err.mp h with h | ⟨⟨r3, l⟩, _, h⟩
            · unfold parseLength at h
              simp only at h
              split at h
              · split at h
                · injection h with h; injection h with h _; exact h.symm
                · cases h
              · split at h
                · cases h
                · split at h
                  · injection h with h; injection h with h _; exact h.symm
                  · rcases bind_eq_err.mp h with h | ⟨⟨r4, lb⟩, _, h⟩
                    · rw [takeS_eq] at h
                      split at h <;> cases h
                    · simp only at h
                      split at h
                      · cases h
                      · injection h with h; injection h with h _; exact h.symm
            · simp only at h
              split at h
              · cases h
              · rcases bind_eq_err.mp h with h | ⟨_, _, h⟩
                · rw [take_eq] at h
                  split at h <;> cases h
                · cases h

theorem parseHeaderDer_place {i loc : Input} {e : InnerError}
    (h : parseHeaderDer i = .error (.error loc e)) : loc = i := by
  unfold parseHeaderDer at h
  rcases bind_eq_err.mp h with h | ⟨⟨r, hd⟩, _, h⟩
  · exact parseHeader_place h
  · simp only at h
    split at h
    · injection h with h; injection h with h _; exact h.symm
    · cases h

theorem errIn_header (m : Rules) {i : Input} (w : WF i) : ErrIn i (m.header i) := by
  intro loc e h
  cases m
  · rw [parseHeader_place h]; exact inside_refl w
  · rw [parseHeaderDer_place h]; exact inside_refl w

theorem errIn_skipContent (d : Nat) : ∀ {i : Input} (h : Header), WF i → ErrIn i (skipContent d i h) := by
  induction d with
  | zero => exact fun h w => errIn_self w
  | succ d ih =>
    intro i h w
    unfold skipContent
    split
    · split
      · exact errIn_ok
      · exact errIn_takeS.bind fun _ _ => errIn_ok
    · refine (errIn_assertConstructed w).bind fun _ hx => ?_
      clear hx
      generalize i.data.length + 1 = fuel
      induction fuel generalizing i with
      | zero => exact errIn_diverge
      | succ n ih2 =>
        unfold skipLoop
        refine ErrIn.step w (ahead_good good_parseHeader i) (errIn_header .ber w) fun r hd _ wr => ?_
        refine ErrIn.step wr (ahead_good (good_skipContent d hd) r) (ih hd wr) fun r2 b _ wr2 => ?_
        simp only
        split
        · exact errIn_ok
        · exact ih2 wr2

theorem errIn_berContent {i : Input} (h : Header) (d : Nat) (w : WF i) : ErrIn i (berContent h i d) := by
  rw [berContent_eq]
  exact (errIn_skipContent d h w).bind fun _ _ => errIn_ok

theorem berContent_data {i r data : Input} {h : Header} {d : Nat} (hc : berContent h i d = .ok (r, data)) :
    Inside data i := by
  rw [berContent_eq] at hc
  obtain ⟨⟨r1, b⟩, h1, h2⟩ := bind_eq_ok.mp hc
  injection h2 with h2; injection h2 with _ h2
  obtain ⟨k, hk, rfl⟩ := (good_skipContent d h).adv _ _ _ h1
  rw [← h2]
  refine inside_first ?_
  simp only [after_start]
  omega

theorem errIn_derContent {i : Input} (h : Header) (w : WF i) : ErrIn i (derContent h i) := by
  unfold derContent
  split
  · exact errIn_takeS
  · exact errIn_self w

theorem derContent_data {i r data : Input} {h : Header} (hc : derContent h i = .ok (r, data)) :
    Inside data i := by
  unfold derContent at hc
  split at hc
  · exact takeS_data hc
  · cases hc

/-! ### Typed parsers -/

/-- The errors of a content parser. -/
def Placed (p : Parser α) : Prop := ∀ h i, WF i → ErrIn i (p.content h i)

theorem placed_map {p : Parser α} (hp : Placed p) (f : α → β) : Placed (p.map f) := by
  intro h i w loc e he
  change (match p.content h i with | .ok (rem, a) => (.ok (rem, f a) : PRes β) | .error e => .error e) = _ at he
  cases hc : p.content h i with
  | ok x => rw [hc] at he; cases he
  | error e' =>
    rw [hc] at he
    injection he with he
    exact hp h i w loc e (by rw [hc, he])

theorem errIn_ber {p : Parser α} (hp : Placed p) {i : Input} (w : WF i) : ErrIn i (p.parseBer i) := by
  refine (errIn_header .ber w).bind fun x hx => ?_
  have hr := inside_ahead w (ahead_good good_parseHeader i) (r := x.1) (v := x.2) hx
  simp only
  split
  · exact errIn_self w
  · refine ((errIn_berContent _ _ (inside_wf hr)).within hr).bind fun y hy => ?_
    have hd := inside_trans (berContent_data (r := y.1) (data := y.2) hy) hr
    exact ((hp _ _ (inside_wf hd)).within hd).bind fun _ _ => errIn_ok

theorem errIn_der {p : Parser α} (hp : Placed p) {i : Input} (w : WF i) : ErrIn i (p.parseDer i) := by
  refine (errIn_header .der w).bind fun x hx => ?_
  have hr := inside_ahead w (ahead_good good_parseHeaderDer i) (r := x.1) (v := x.2) hx
  refine ErrIn.bind ?_ fun n _ => ?_
  · unfold definiteInner
    split
    · exact errIn_ok
    · exact errIn_self w
  · simp only
    split
    · exact errIn_self w
    · refine errIn_takeS.bind fun y hy => ?_
      have hd := inside_trans (takeS_data (r := y.1) (d := y.2) hy) hr
      exact ((hp _ _ (inside_wf hd)).within hd).bind fun _ _ => errIn_ok

theorem errIn_parse (m : Rules) {p : Parser α} (hp : Placed p) {i : Input} (w : WF i) :
    ErrIn i (m.parse p i) := by
  cases m
  · exact errIn_ber hp w
  · exact errIn_der hp w

/-! ### `Any` -/

theorem placed_any : Placed anyBer ∧ Placed anyDer := by
  refine ⟨fun h i w => ?_, fun h i w => (errIn_derContent h w).bind fun _ _ => errIn_ok⟩
  show ErrIn i (anyBer.content h i)
  unfold anyBer
  simp only
  cases h.length with
  | definite n => exact errIn_takeS.bind fun _ _ => errIn_ok
  | indefinite => exact errIn_takeS.bind fun _ _ => errIn_ok

/-- What is read as an `Any` is a part of the input. -/
def DataIn (i : Input) (x : PRes Any) : Prop := ∀ r a, x = .ok (r, a) → Inside a.data i

theorem dataIn_ber {i : Input} (w : WF i) : DataIn i (anyBer.parseBer i) := by
  intro r a h
  rw [anyBer_parseBer] at h
  obtain ⟨r1, h1, h2⟩ := parseBerAny_ok.mp h
  exact inside_trans (berContent_data h2) (inside_ahead w (ahead_good good_parseHeader i) h1)

theorem dataIn_der {i : Input} (w : WF i) : DataIn i (anyDer.parseDer i) := by
  intro r a h
  rw [anyDer_parseDer] at h
  obtain ⟨r1, n, h1, _, hle, _, h2⟩ := parseDerAny_ok.mp h
  rw [h2]
  exact inside_trans (inside_first hle) (inside_ahead w (ahead_good good_parseHeader i) h1)

/-! ### Iterators -/

/-- What the objects of an input are read with. -/
structure ItemParse (parse : Input → PRes Any) : Prop where
  ahead : ∀ i, Ahead i (parse i)
  err : ∀ i, WF i → ErrIn i (parse i)
  data : ∀ i, WF i → DataIn i (parse i)

theorem itemParse_ber : ItemParse anyBer.parseBer :=
  ⟨fun _ => ahead_anyParse.1, fun _ w => errIn_ber placed_any.1 w, fun _ w => dataIn_ber w⟩

theorem itemParse_der : ItemParse anyDer.parseDer :=
  ⟨fun _ => ahead_anyParse.2, fun _ w => errIn_der placed_any.2 w, fun _ w => dataIn_der w⟩

/-- One turn of an iterator. -/
theorem next_place {parse : Input → PRes Any} (hp : ItemParse parse) {it it' : AnyIter} {o : Option IterItem}
    (w : WF it.input) (h : it.next parse = .ok (o, it')) :
    Inside it'.input it.input ∧ (∀ loc e, o = some (.err loc e) → Inside loc it.input) ∧
      (∀ s a, o = some (.obj s a) → Inside s it.input ∧ Inside a.data it.input) := by
  unfold AnyIter.next at h
  split at h
  · injection h with h; injection h with h1 h2
    subst h1 h2
    exact ⟨inside_refl w, (by rintro _ _ ⟨⟩), (by rintro _ _ ⟨⟩)⟩
  · cases hq : parse it.input with
    | error e =>
      rw [hq] at h
      cases e with
      | error j e =>
        injection h with h; injection h with h1 h2
        subst h1 h2
        refine ⟨inside_refl w, ?_, (by rintro _ _ ⟨⟩)⟩
        intro loc e' he
        injection he with he; injection he with he _
        exact he ▸ hp.err _ w _ _ hq
      | incomplete n =>
        injection h with h; injection h with h1 h2
        subst h1 h2
        refine ⟨inside_refl w, ?_, (by rintro _ _ ⟨⟩)⟩
        intro loc e' he
        injection he with he; injection he with he _
        exact he ▸ inside_refl w
      | panic => cases h
      | diverge => cases h
    | ok y =>
      obtain ⟨rem, obj⟩ := y
      rw [hq] at h
      simp only at h
      split at h
      · cases h
      · obtain ⟨d, hd, h⟩ := bind_eq_ok.mp h
        injection h with h; injection h with h1 h2
        subst h1 h2
        refine ⟨inside_ahead w (hp.ahead _) hq, (by rintro _ _ ⟨⟩), ?_⟩
        intro s a he
        injection he with he; injection he with h1 h2
        subst h1 h2
        refine ⟨?_, hp.data _ w _ _ hq⟩
        rw [take_eq] at hd
        split at hd
        · injection hd with hd
          exact hd ▸ inside_first ‹_›
        · cases hd

theorem next_errIn {parse : Input → PRes Any} {it : AnyIter} :
    ErrIn it.input (it.next parse) := by
  intro loc e h
  unfold AnyIter.next at h
  split at h
  · cases h
  · cases hq : parse it.input with
    | error e =>
      rw [hq] at h
      cases e <;> cases h
    | ok y =>
      obtain ⟨rem, obj⟩ := y
      rw [hq] at h
      simp only at h
      split at h
      · cases h
      · rcases bind_eq_err.mp h with h | ⟨_, _, h⟩
        · exact errIn_take _ _ h
        · cases h

theorem errIn_forIter {σ : Type} {parse : Input → PRes Any} (hp : ItemParse parse)
    {f : σ → Any → Except PErr (Bool × σ)} (hf : ∀ s a, WF a.data → ErrIn a.data (f s a)) :
    ∀ fuel (it : AnyIter) s, WF it.input → ErrIn it.input (forIter parse f fuel it s) := by
  intro fuel
  induction fuel with
  | zero => exact fun _ _ _ => errIn_diverge
  | succ n ih =>
    intro it s w loc e h
    unfold forIter at h
    cases hn : it.next parse with
    | error e' =>
      rw [hn] at h
      injection h with h
      exact next_errIn _ _ (h ▸ hn)
    | ok x =>
      obtain ⟨o, it'⟩ := x
      obtain ⟨h1, h2, h3⟩ := next_place hp w hn
      rw [hn] at h
      cases o with
      | none => cases h
      | some o =>
        cases o with
        | err j e' =>
          injection h with h; injection h with h4 h5
          exact h2 _ _ (by rw [h4])
        | obj sp a =>
          have ha := (h3 _ _ rfl).2
          simp only at h
          cases hq : f s a with
          | error e' =>
            rw [hq] at h
            injection h with h
            exact inside_trans (hf s a (inside_wf ha) _ _ (h ▸ hq)) ha
          | ok y =>
            obtain ⟨b, s1⟩ := y
            rw [hq] at h
            cases b with
            | false => cases h
            | true => exact inside_trans (ih _ _ (inside_wf h1) _ _ h) h1

theorem errIn_collect {parse : Input → PRes Any} (hp : ItemParse parse) {p : Parser α} (hq : Placed p)
    {i : Input} (w : WF i) : ErrIn i ((AnyIter.new i).tryParseCollect parse p) := by
  unfold AnyIter.tryParseCollect
  refine ErrIn.bind (errIn_forIter hp (fun s a wa => ?_) _ _ _ w) fun _ _ => errIn_ok
  unfold parseCollectStep
  split
  · exact errIn_self wa
  · split
    · exact errIn_ok
    · rename_i e he
      intro loc e' h
      injection h with h
      exact hq _ _ wa _ _ (h ▸ he)

/-- What `try_parse_collect` reports. -/
theorem first_bad {parse : Input → PRes Any} (hp : ItemParse parse) {p : Parser α} (hq : Placed p)
    {i loc : Input} {e : InnerError} (w : WF i)
    (h : (AnyIter.new i).tryParseCollect parse p = .error (.error loc e)) :
    ∃ vs j, ItemsRead parse p i vs j ∧ j.data ≠ [] ∧ Inside j i ∧
      ((∃ n, parse j = .error (.incomplete n) ∧ loc = j ∧ e = .incomplete (.size n)) ∨
       (parse j = .error (.error loc e) ∧ Inside loc j) ∨
       ∃ r a, parse j = .ok (r, a) ∧ Inside loc a.data ∧
        ((p.acceptTag a.header.tag = false ∧ loc = a.data ∧ e = .unexpectedTag none a.header.tag) ∨
         (p.acceptTag a.header.tag = true ∧ p.content a.header a.data = .error (.error loc e)))) := by
  have main : ∀ fuel (i : Input) l, WF i →
      forIter parse (parseCollectStep p) fuel (AnyIter.new i) l = .error (.error loc e) →
      ∃ vs j, ItemsRead parse p i vs j ∧ j.data ≠ [] ∧ Inside j i ∧
        ((∃ n, parse j = .error (.incomplete n) ∧ loc = j ∧ e = .incomplete (.size n)) ∨
         (parse j = .error (.error loc e) ∧ Inside loc j) ∨
         ∃ r a, parse j = .ok (r, a) ∧ Inside loc a.data ∧
          ((p.acceptTag a.header.tag = false ∧ loc = a.data ∧ e = .unexpectedTag none a.header.tag) ∨
           (p.acceptTag a.header.tag = true ∧ p.content a.header a.data = .error (.error loc e)))) := by
    intro fuel
    induction fuel with
    | zero => rintro _ _ _ ⟨⟩
    | succ n ih =>
      intro i l w h
      unfold forIter at h
      cases hn : (AnyIter.new i).next parse with
      | error e' =>
        rw [hn] at h
        injection h with h
        subst h
        unfold AnyIter.next at hn
        split at hn
        · cases hn
        · split at hn
          · split at hn
            · cases hn
            · rcases bind_eq_err.mp hn with hn | ⟨_, _, hn⟩
              · rw [take_eq] at hn
                split at hn <;> cases hn
              · cases hn
          all_goals cases hn
      | ok x =>
        obtain ⟨o, it'⟩ := x
        have hplace := next_place hp w hn
        rw [hn] at h
        unfold AnyIter.next at hn
        split at hn
        · injection hn with hn; injection hn with h1 h2
          subst h1
          cases h
        · rename_i hne
          have hne : i.data ≠ [] := by
            intro h0
            exact hne (by simp [AnyIter.new, Input.isEmpty, h0])
          split at hn
          · rename_i rem obj hparse
            change parse i = _ at hparse
            split at hn
            · cases hn
            · obtain ⟨d, hd, hn⟩ := bind_eq_ok.mp hn
              injection hn with hn; injection hn with h1 h2
              subst h1 h2
              have ha := (hplace.2.2 _ _ rfl).2
              have hr := hplace.1
              simp only at h
              cases hc : parseCollectStep p l obj with
              | error e' =>
                rw [hc] at h
                injection h with h
                subst h
                refine ⟨[], i, .nil, hne, inside_refl w, .inr (.inr ⟨rem, obj, hparse, ?_⟩)⟩
                unfold parseCollectStep at hc
                split at hc
                · rename_i hacc
                  injection hc with hc; injection hc with h1 h2
                  subst h1 h2
                  exact ⟨inside_refl (inside_wf ha), .inl ⟨by simpa using hacc, rfl, rfl⟩⟩
                · rename_i hacc
                  split at hc
                  · cases hc
                  · rename_i e'' hcon
                    injection hc with hc
                    subst hc
                    exact ⟨hq _ _ (inside_wf ha) _ _ hcon, .inr ⟨by simpa using hacc, hcon⟩⟩
              | ok y =>
                obtain ⟨b, l1⟩ := y
                rw [hc] at h
                unfold parseCollectStep at hc
                split at hc
                · cases hc
                · rename_i hacc
                  split at hc
                  · rename_i x v hcon
                    injection hc with hc; injection hc with h1 h2
                    subst h1 h2
                    obtain ⟨vs, j, hj, hj0, hji, hrest⟩ := ih rem _ (inside_wf hr) h
                    exact ⟨v :: vs, j, .cons hne hparse (by simpa using hacc) hcon hj, hj0,
                      inside_trans hji hr, hrest⟩
                  · cases hc
          · rename_i j e' hparse
            change parse i = _ at hparse
            injection hn with hn; injection hn with h1 h2
            subst h1 h2
            injection h with h; injection h with h1 h2
            subst h1 h2
            exact ⟨[], i, .nil, hne, inside_refl w, .inr (.inl ⟨hparse, hp.err _ w _ _ hparse⟩)⟩
          · rename_i n' hparse
            change parse i = _ at hparse
            injection hn with hn; injection hn with h1 h2
            subst h1 h2
            injection h with h; injection h with h1 h2
            exact ⟨[], i, .nil, hne, inside_refl w, .inl ⟨n', hparse, h1.symm, h2.symm⟩⟩
          · cases hn
          · cases hn
  unfold AnyIter.tryParseCollect at h
  rcases bind_eq_err.mp h with h | ⟨_, _, h⟩
  · exact main _ _ _ w h
  · cases h

/-! ### Strings -/

theorem errIn_segmented {acc : Nat → Bool} {e : α} {ap : α → α → α} {leaf : Header → Input → PRes α}
    (hl : ∀ h i, WF i → ErrIn i (leaf h i)) (n : Nat) : ∀ (h : Header) (i : Input), WF i →
    ErrIn i (parseSegmented acc e ap leaf n h i) := by
  induction n with
  | zero => exact fun h i w => errIn_self w
  | succ n ih =>
    intro h i w
    unfold parseSegmented
    split
    · exact errIn_self w
    · split
      · refine ErrIn.bind ?_ fun x hx => ?_
        · unfold segContent
          split
          · exact errIn_berContent _ _ w
          · exact errIn_takeSplit
        · have hd : Inside x.2 i := by
            unfold segContent at hx
            split at hx
            · exact berContent_data (r := x.1) hx
            · exact takeSplit_data (r := x.1) hx
          refine ErrIn.bind (ErrIn.within (j := x.2) ?_ hd) fun _ _ => errIn_ok
          refine errIn_forIter itemParse_ber (fun s a wa => ?_) _ _ _ (inside_wf hd)
          unfold segStep
          split
          · exact errIn_ok
          · split
            · exact errIn_self wa
            · split
              · exact errIn_ok
              · split
                · exact errIn_ok
                · rename_i e' he
                  intro loc e'' h'
                  injection h' with h'
                  exact ih _ _ wa _ _ (h' ▸ he)
      · refine ErrIn.bind (errIn_berContent _ _ w) fun x hx => ?_
        have hd : Inside x.2 i := berContent_data (r := x.1) hx
        exact ((hl _ _ (inside_wf hd)).within hd).bind fun _ _ => errIn_ok

theorem errIn_octetLeaf (h : Header) (i : Input) : ErrIn i (octetLeaf h i) :=
  errIn_takeSplit.bind fun _ _ => errIn_ok

theorem placed_octet : Placed octetBer := by
  intro h i w
  show ErrIn i (octetContent h i)
  unfold octetContent
  split
  · exact errIn_octetLeaf h i
  · exact errIn_segmented (fun h i _ => errIn_octetLeaf h i) _ _ _ w

theorem errIn_bitPrimitive {r d : Input} (w : WF d) : ErrIn d (bitPrimitive r d) := by
  unfold bitPrimitive
  split
  · exact errIn_self w
  · split
    · split
      · exact errIn_ok
      · exact errIn_self w
    · exact errIn_self w

theorem errIn_bitLeaf (h : Header) (i : Input) (w : WF i) : ErrIn i (bitLeaf h i) := by
  refine ErrIn.bind (errIn_berContent _ _ w) fun x hx => ?_
  have hd : Inside x.2 i := berContent_data (r := x.1) hx
  exact (errIn_bitPrimitive (inside_wf hd)).within hd

theorem placed_bit : Placed bitBer := by
  intro h i w
  show ErrIn i (bitContent h i)
  unfold bitContent
  split
  · exact errIn_bitLeaf h i w
  · exact errIn_segmented errIn_bitLeaf _ _ _ w

/-- A string read as bytes, then checked; an error is reported at what follows the bytes. -/
theorem errIn_text {x : PRes Bytes} {f : Input → Bytes → PRes Text} {i : Input} (w : WF i) (ha : Ahead i x)
    (hx : ErrIn i x) (hf : ∀ r v, WF r → ErrIn r (f r v)) : ErrIn i (x >>= fun y => f y.1 y.2) :=
  ErrIn.step w ha hx fun r v _ wr => hf r v wr

theorem placed_str (k : StrKind) : Placed (strBer k) := by
  intro h i w
  show ErrIn i (strBytes h i >>= fun y => strOfBytes k y.1 y.2)
  refine errIn_text w ?_ ?_ fun r v wr => ?_
  · unfold strBytes
    split
    · exact Ahead.bind ahead_takeSplit fun _ _ _ => ahead_same
    · exact ahead_segmented _ _ _
  · unfold strBytes
    split
    · exact errIn_takeSplit.bind fun _ _ => errIn_ok
    · exact errIn_segmented (fun h i _ => errIn_octetLeaf h i) _ _ _ w
  · unfold strOfBytes
    split
    · exact errIn_self wr
    · split
      · exact errIn_ok
      · exact errIn_self wr

theorem errIn_utf8Whole {i : Input} (w : WF i) : ErrIn i (utf8Whole i) := by
  refine ErrIn.step w ahead_takeSplit errIn_takeSplit fun r v _ wr => ?_
  simp only
  split
  · exact errIn_ok
  · exact errIn_self wr

theorem errIn_wide (h : Header) {i : Input} (w : WF i) : ErrIn i (wideBytes h i) := by
  unfold wideBytes
  split
  · exact errIn_takeSplit.bind fun _ _ => errIn_ok
  · exact errIn_segmented (fun h i _ => errIn_octetLeaf h i) _ _ _ w

theorem placed_bmp : Placed bmpBer := by
  intro h i w
  show ErrIn i (wideBytes h i >>= fun y => bmpOfBytes y.1 y.2)
  refine errIn_text w (ahead_wide h i) (errIn_wide h w) fun r v wr => ?_
  unfold bmpOfBytes
  split
  · exact errIn_ok
  · exact errIn_self wr

theorem placed_univ : Placed univBer := by
  intro h i w
  show ErrIn i (wideBytes h i >>= fun y => univOfBytes y.1 y.2)
  refine errIn_text w (ahead_wide h i) (errIn_wide h w) fun r v wr => ?_
  unfold univOfBytes
  split
  · exact errIn_self wr
  · split
    · exact errIn_panic
    · exact errIn_self wr
    · exact errIn_ok

theorem errIn_timeOf {r d : Input} {x : Except Error DateTime} (w : WF d) : ErrIn d (timeOf r d x) := by
  unfold timeOf
  split
  · exact errIn_ok
  · exact errIn_self w

/-- The content as a time. -/
theorem errIn_time {i : Input} {f : Input × Input → PRes DateTime}
    (h : ∀ r d, WF d → ErrIn d (f (r, d))) : ErrIn i (i.takeSplit i.len >>= f) :=
  errIn_takeSplit.bind fun c hc => by
    have hd : Inside c.2 i := takeSplit_data (r := c.1) hc
    exact (h c.1 c.2 (inside_wf hd)).within hd

/-! ### The universal types -/

theorem placed_boolean : Placed booleanBer ∧ Placed booleanDer := by
  have hb : Placed booleanBer := by
    refine fun h i w => (errIn_assertPrimitive w).bind fun _ _ => ?_
    split
    · exact errIn_self w
    · exact errIn_beU8
  refine ⟨hb, fun h i w => ErrIn.step w (ahead_boolean h i) (hb h i w) fun r v _ wr => ?_⟩
  simp only
  split
  · exact errIn_self wr
  · exact errIn_ok

theorem errIn_checkDerInt {i : Input} (w : WF i) : ErrIn i (checkDerIntInput i) := by
  unfold checkDerIntInput
  split
  · exact errIn_ok
  · exact errIn_self w

theorem errIn_uint (N : Nat) (h : Header) {i : Input} (w : WF i) : ErrIn i (uintContent N h i) :=
  (errIn_assertPrimitive w).bind fun _ _ => (errIn_liftErr w).bind fun _ _ => errIn_atEnd.bind fun _ _ => errIn_ok

theorem errIn_int (N : Nat) (h : Header) {i : Input} (w : WF i) : ErrIn i (intContent N h i) := by
  refine (errIn_assertPrimitive w).bind fun _ _ => ErrIn.bind ?_ fun _ _ => errIn_atEnd.bind fun _ _ => errIn_ok
  unfold intValue
  split
  · exact (errIn_liftErr w).bind fun _ _ => errIn_ok
  · refine (errIn_liftErr w).bind fun _ _ => ?_
    simp only
    split
    · exact errIn_self w
    · exact errIn_ok

theorem errIn_integer (h : Header) {i : Input} (w : WF i) : ErrIn i (integerContent h i) := by
  refine (errIn_assertPrimitive w).bind fun _ _ => (errIn_derContent h w).bind fun x hx => ?_
  have hd : Inside x.2 i := derContent_data (r := x.1) hx
  simp only
  split
  · exact errIn_nomErr hd
  · exact errIn_ok

theorem placed_oid : Placed oidP := by
  refine fun h i w => (errIn_assertPrimitive w).bind fun _ _ => ?_
  split
  · exact errIn_self w
  · exact errIn_takeSplit.bind fun _ _ => errIn_ok

theorem placed_universal {c : Codec α} (h : UniversalType c) : Placed c.ber ∧ Placed c.der := by
  have prim : ∀ {β : Type} {p : Parser β}, Placed p → ∀ h i, WF i →
      ErrIn i (h.assertPrimitive i >>= fun _ => p.content h i) := fun hp h i w =>
    (errIn_assertPrimitive w).bind fun _ _ => hp h i w
  cases h with
  | uint N hN =>
    exact ⟨fun h i w => errIn_uint N h w, fun h i w => (errIn_checkDerInt w).bind fun _ _ => errIn_uint N h w⟩
  | int N hN =>
    exact ⟨fun h i w => errIn_int N h w, fun h i w => (errIn_checkDerInt w).bind fun _ _ => errIn_int N h w⟩
  | integer =>
    exact ⟨fun h i w => errIn_integer h w, fun h i w => (errIn_checkDerInt w).bind fun _ _ => errIn_integer h w⟩
  | bool => exact ⟨placed_map placed_boolean.1 _, placed_map placed_boolean.2 _⟩
  | null =>
    have : Placed nullP := by
      refine fun h i w => (errIn_assertPrimitive w).bind fun _ _ => ?_
      split
      · exact errIn_self w
      · exact errIn_ok
    exact ⟨this, this⟩
  | enumerated =>
    exact ⟨fun h i w => (errIn_assertPrimitive w).bind fun _ _ => errIn_uint 4 h w,
      fun h i w => (errIn_assertPrimitive w).bind fun _ _ => (errIn_checkDerInt w).bind fun _ _ => errIn_uint 4 h w⟩
  | octetString => exact ⟨placed_octet, prim placed_octet⟩
  | bitString => exact ⟨placed_bit, prim placed_bit⟩
  | oid => exact ⟨placed_oid, placed_oid⟩
  | utcTime =>
    refine ⟨fun h i w => ?_, fun h i w => (errIn_assertPrimitive w).bind fun _ _ => ?_⟩
    · show ErrIn i (utcBerContent h i)
      unfold utcBerContent
      split
      · exact errIn_self w
      · split
        · exact errIn_self w
        · exact errIn_time fun _ _ wd => errIn_timeOf wd
    · split
      · exact errIn_self w
      · exact errIn_time fun _ _ wd => errIn_timeOf wd
  | generalizedTime =>
    refine ⟨fun h i w => ?_, fun h i w => (errIn_assertPrimitive w).bind fun _ _ => ?_⟩
    · show ErrIn i (genBerContent h i)
      unfold genBerContent
      split
      · exact errIn_self w
      · split
        · exact errIn_self w
        · exact errIn_time fun _ _ wd => errIn_timeOf wd
    · split
      · exact errIn_self w
      · refine errIn_time fun _ _ wd => ?_
        simp only
        split
        · exact errIn_self wd
        · split
          · exact errIn_self wd
          · exact errIn_timeOf wd
  | text hk => exact ⟨placed_str _, prim (placed_str _)⟩
  | refStr =>
    refine ⟨fun h i w => ?_, fun h i w => (errIn_assertPrimitive w).bind fun _ _ => errIn_utf8Whole w⟩
    show ErrIn i (if h.constructed then nomErr i .lifetimeError else utf8Whole i)
    split
    · exact errIn_self w
    · exact errIn_utf8Whole w
  | string => exact ⟨placed_str _, fun h i w => (errIn_assertPrimitive w).bind fun _ _ => errIn_utf8Whole w⟩
  | bmpString => exact ⟨placed_bmp, prim placed_bmp⟩
  | universalString => exact ⟨placed_univ, prim placed_univ⟩

theorem placed_real (lib : FloatLib) : Placed (realP lib) := by
  have hf : ∀ {i : Input} {f : F64}, ErrIn i (realOfF64 f) := by
    intro i f
    unfold realOfF64
    split
    · exact errIn_ok
    · exact errIn_diverge
  have hm : ∀ {i : Input} {a b : Int}, ErrIn i (mulI32 a b) := by
    intro i a b
    unfold mulI32
    split
    · exact errIn_ok
    · exact errIn_panic
  refine fun h i w => (errIn_assertPrimitive w).bind fun _ _ => ErrIn.bind ?_ fun _ _ =>
    errIn_atEnd.bind fun _ _ => errIn_ok
  unfold decodeReal
  split
  · exact errIn_ok
  · split
    · unfold decodeRealBinary
      refine ErrIn.bind ?_ fun x _ => ?_
      · unfold realExpLen
        split
        · split
          · exact errIn_self w
          · exact errIn_ok
        · exact errIn_ok
      · simp only
        split
        · exact errIn_self w
        · refine ErrIn.bind ?_ fun _ _ => ErrIn.bind ?_ fun _ _ => ErrIn.bind ?_ fun _ _ => errIn_ok
          · unfold realExponent
            split
            · exact errIn_panic
            · split
              · exact errIn_self w
              · exact errIn_ok
          · unfold realBase
            split
            · exact errIn_ok
            · split
              · exact errIn_map _ hm
              · split
                · exact errIn_map _ hm
                · exact errIn_self w
          · unfold realMantissa
            simp only
            split
            · exact errIn_self w
            · split
              · split
                · exact errIn_panic
                · exact errIn_ok
              · exact errIn_ok
    · split
      · unfold decodeRealSpecial
        split
        · exact errIn_self w
        · split
          · exact errIn_ok
          · split
            · exact errIn_ok
            · split
              · exact errIn_ok
              · exact errIn_self w
      · unfold decodeRealDecimal
        split
        · exact errIn_self w
        · split
          · split
            · exact errIn_self w
            · exact hf
          · split
            · split
              · exact errIn_self w
              · exact hf
            · exact errIn_self w

/-! ### Containers -/

theorem placed_vec {parse : Input → PRes Any} (hp : ItemParse parse) {p : Parser α} (hq : Placed p) :
    Placed (vecP parse p) := by
  refine fun h i w => (errIn_assertConstructed w).bind fun _ _ => ?_
  split
  · exact errIn_ok
  · exact errIn_collect hp hq w

theorem placed_setItems {parse : Input → PRes Any} (hp : ItemParse parse) {p : Parser α} (hq : Placed p) :
    Placed (setItemsP parse p) := fun _ _ w =>
  (errIn_assertConstructed w).bind fun _ _ => errIn_collect hp hq w

theorem placed_sequenceOf {parse : Input → PRes Any} (hp : ItemParse parse) {p : Parser α} (hq : Placed p) :
    Placed (sequenceOfP parse p) := fun h i w => (placed_vec hp hq h i w).bind fun _ _ => errIn_ok

theorem placed_array {parse : Input → PRes Any} (hp : ItemParse parse) (N : Nat) {p : Parser α}
    (hq : Placed p) : Placed (arrayP N parse p) := by
  refine fun h i w => (placed_vec hp hq h i w).bind fun _ _ => ?_
  simp only
  split
  · exact errIn_ok
  · exact errIn_self w

theorem placed_raw (tag : Nat) : Placed (rawP tag) := fun _ _ w =>
  (errIn_assertConstructed w).bind fun _ _ => errIn_takeSplit.bind fun _ _ => errIn_ok

theorem placed_explicit (cls : Class) (tag : Nat) {f : Input → PRes α} (hf : ∀ i, WF i → ErrIn i (f i)) :
    Placed (explicitP cls tag f) := by
  refine fun h i w => (errIn_assertConstructed w).bind fun _ _ => ?_
  split
  · exact errIn_self w
  · split
    · exact errIn_self w
    · exact (hf i w).bind fun _ _ => errIn_ok

theorem placed_implicit (cls : Class) (tag : Nat) {p : Parser α} (hp : Placed p) :
    Placed (implicitP cls tag p) := by
  intro h i w
  show ErrIn i (if h.cls ≠ cls then nomErr i (.unexpectedClass (some cls) h.cls) else _)
  split
  · exact errIn_self w
  · exact (hp h i w).bind fun _ _ => errIn_ok

/-- The components of a tuple. -/
def PlacedAll : {Ts : List Type} → TupFns Ts → Prop
  | _, .nil => True
  | _, .cons f fs => (∀ i, WF i → ErrIn i (f i)) ∧ PlacedAll fs

theorem errIn_run : {Ts : List Type} → (fs : TupFns Ts) → AheadAll fs → PlacedAll fs → ∀ i, WF i →
    ErrIn i (fs.run i)
  | _, .nil, _, _, _, _ => errIn_ok
  | _, .cons _ fs, ha, h, i, w => ErrIn.step w (ha.1 i) (h.1 i w) fun _ _ _ wr =>
      (errIn_run fs ha.2 h.2 _ wr).bind fun _ _ => errIn_ok

/-! ### Optional values, fields -/

theorem errIn_optionParse (m : Rules) {p : Parser α} (hp : Placed p) {i : Input} (w : WF i) :
    ErrIn i (optionParse m.header p i) := by
  unfold optionParse
  split
  · exact errIn_ok
  · refine ErrIn.step w (ahead_header m i) (errIn_header m w) fun r h _ wr => ?_
    simp only
    split
    · exact errIn_ok
    · refine (errIn_berContent _ _ wr).bind fun y hy => ?_
      have hd : Inside y.2 r := berContent_data (r := y.1) hy
      refine ErrIn.bind (ErrIn.within (j := y.2) ?_ hd) fun _ _ => errIn_ok
      unfold optionContent
      split
      · exact errIn_ok
      · refine (errIn_berContent _ _ (inside_wf hd)).bind fun z hz => ?_
        have hd2 : Inside z.2 y.2 := berContent_data (r := z.1) hz
        exact ((hp _ _ (inside_wf hd2)).within hd2).bind fun _ _ => errIn_ok

theorem errIn_taggedField (m : Rules) {p : Parser (TaggedValue α)} (hp : Placed p) {i : Input} (w : WF i) :
    ErrIn i (taggedField m p i) := (errIn_parse m hp w).bind fun _ _ => errIn_ok

theorem errIn_required (m : Rules) (tag : FieldTag) {p : Parser α} (hp : Placed p) {i : Input} (w : WF i) :
    ErrIn i (requiredField m tag p i) := by
  cases tag with
  | untagged => exact errIn_parse m hp w
  | explicit cls n => exact errIn_taggedField m (placed_explicit cls n fun _ w => errIn_parse m hp w) w
  | implicit cls n => exact errIn_taggedField m (placed_implicit cls n hp) w

theorem errIn_optTagged (m : Rules) (n : Nat) {p : Parser (TaggedValue α)} (hp : Placed p) {i : Input}
    (w : WF i) : ErrIn i (optTaggedField m n p i) := by
  unfold optTaggedField
  split
  · exact errIn_ok
  · refine (errIn_header m w).bind fun x _ => ?_
    simp only
    split
    · exact (errIn_parse m hp w).bind fun _ _ => errIn_ok
    · exact errIn_ok

theorem errIn_optional (m : Rules) (tag : FieldTag) {p : Parser α} (hp : Placed p) {i : Input} (w : WF i) :
    ErrIn i (optionalField m tag p i) := by
  cases tag with
  | untagged => exact errIn_optionParse m hp w
  | explicit cls n => exact errIn_optTagged m n (placed_explicit cls n fun _ w => errIn_parse m hp w) w
  | implicit cls n => exact errIn_optTagged m n (placed_implicit cls n hp) w

/-! ### `&[u8]`, EMBEDDED PDV -/

theorem placed_slice : Placed sliceBer := by
  intro h i w
  show ErrIn i (sliceContent h i)
  unfold sliceContent
  split
  · exact errIn_self w
  · exact errIn_takeSplit.bind fun _ _ => errIn_ok

theorem errIn_context {p : Parser α} (hp : Placed p) (tag : Nat) {i : Input} (w : WF i) :
    ErrIn i (contextBer tag p i) := errIn_ber (placed_implicit _ _ hp) w

theorem errIn_pair {p : Parser α} {q : Parser β} (hp : Placed p) (hq : Placed q) {i : Input} (w : WF i) :
    ErrIn i (pdvPair p q i) :=
  ErrIn.step w (ahead_ber i) (errIn_context hp 0 w) fun _ _ _ wr =>
    (errIn_context hq 1 wr).bind fun _ _ => errIn_ok

theorem contextAny_data {i r : Input} {t : TaggedValue Any} (w : WF i)
    (h : contextBer 0 anyBer i = .ok (r, t)) : Inside t.inner.data i := by
  unfold contextBer Parser.parseBer at h
  obtain ⟨x, h1, h⟩ := bind_eq_ok.mp h
  simp only at h
  split at h
  · cases h
  · obtain ⟨y, h2, h⟩ := bind_eq_ok.mp h
    obtain ⟨z, h3, h⟩ := bind_eq_ok.mp h
    injection h with h; injection h with _ h
    have h4 := (implicitP_content (r := z.1) (v := z.2)).mp h3
    refine inside_trans ?_ (inside_trans (berContent_data (r := y.1) (data := y.2) h2)
      (inside_ahead w (ahead_good good_parseHeader i) (r := x.1) (v := x.2) h1))
    rw [← h]
    have key : ∀ {n : Nat}, takeS n y.2 >>= (fun d => pure (d.1, (⟨x.2, d.2⟩ : Any))) = .ok (z.1, z.2.inner) →
        Inside z.2.inner.data y.2 := by
      intro n h5
      obtain ⟨d, h6, h7⟩ := bind_eq_ok.mp h5
      injection h7 with h7; injection h7 with _ h7
      rw [← h7]
      exact takeS_data (r := d.1) h6
    have h5 := h4.2
    unfold anyBer at h5
    simp only at h5
    cases hl : x.2.length with
    | definite n => rw [hl] at h5; exact key h5
    | indefinite => rw [hl] at h5; exact key h5

theorem placed_pdv : Placed pdvP := by
  have hi : Placed integerBer := fun h i w => errIn_integer h w
  intro h i w
  show ErrIn i (pdvContent h i)
  unfold pdvContent
  refine (errIn_context placed_any.1 0 w).bind fun x hx => ?_
  have ha : Inside x.2.inner.data i := contextAny_data (r := x.1) w hx
  have wa := inside_wf ha
  have hr : Inside x.1 i := inside_ahead w (ahead_ber i) (v := x.2) hx
  refine ErrIn.bind (ErrIn.within (j := x.2.inner.data) ?_ ha) fun _ _ => ErrIn.within (j := x.1) ?_ hr
  · unfold pdvIdentification
    split
    · exact errIn_map _ (errIn_pair placed_oid placed_oid wa)
    · exact errIn_map _ (placed_oid _ _ wa)
    · exact errIn_map _ (hi _ _ wa)
    · exact errIn_map _ (errIn_pair hi placed_oid wa)
    · exact errIn_map _ (placed_oid _ _ wa)
    · exact errIn_ok
    · exact errIn_self wa
  · exact ErrIn.step (inside_wf hr) (ahead_optionParse .ber _ _)
      (errIn_optionParse .ber (placed_implicit _ _ (placed_str _)) (inside_wf hr)) fun _ _ _ wr =>
        (errIn_context placed_slice 2 wr).bind fun _ _ => errIn_ok

/-! ### All types -/

theorem placed_built {real : Bool} {pb pd : Parser α} (h : Built real pb pd) : Placed pb ∧ Placed pd := by
  have hb := itemParse_ber
  have hd := itemParse_der
  refine Built.rec
    (motive_1 := fun pb pd _ => Placed pb ∧ Placed pd)
    (motive_2 := fun fb fd _ => (AheadAll fb ∧ AheadAll fd) ∧ PlacedAll fb ∧ PlacedAll fd)
    (motive_3 := fun fb fd _ => (AheadAll (fb.fns .ber) ∧ AheadAll (fd.fns .der)) ∧
      PlacedAll (fb.fns .ber) ∧ PlacedAll (fd.fns .der))
    (motive_4 := fun vb vd _ => ∀ k h i, WF i → ErrIn i (vb.content .ber k h i) ∧ ErrIn i (vd.content .der k h i))
    ?_ ?_ ?_ ?_ ?_ ?_ ?_ ?_ ?_ ?_ ?_ ?_ ?_ ?_ ?_ ?_ ?_ ?_ ?_ ?_ ?_ ?_ ?_ ?_ ?_ ?_ ?_ ?_ ?_ h
  · exact fun h => placed_universal h
  · exact fun lib _ => ⟨placed_real lib, placed_real lib⟩
  · exact fun lib _ => ⟨placed_map (placed_real lib) _, placed_map (placed_real lib) _⟩
  · exact fun lib _ => ⟨placed_map (placed_real lib) _, placed_map (placed_real lib) _⟩
  · exact placed_boolean
  · exact ⟨placed_slice, fun h i w => (errIn_assertPrimitive w).bind fun _ _ => placed_slice h i w⟩
  · exact ⟨placed_map placed_any.1 _, placed_map placed_any.2 _⟩
  · exact ⟨placed_pdv, placed_pdv⟩
  · exact fun _ h => ⟨placed_vec hb h.1, placed_vec hd h.2⟩
  · exact fun _ h => ⟨placed_sequenceOf hb h.1, placed_sequenceOf hd h.2⟩
  · exact fun _ h => ⟨placed_map (placed_setItems hb h.1) _, placed_map (placed_setItems hd h.2) _⟩
  · exact fun _ _ h => ⟨placed_map (placed_setItems hb h.1) _, placed_map (placed_setItems hd h.2) _⟩
  · exact fun _ _ h => ⟨placed_array hb _ h.1, placed_array hd _ h.2⟩
  · exact fun _ h => ⟨fun _ i w => errIn_run _ h.1.1 h.2.1 i w, fun _ i w => errIn_run _ h.1.2 h.2.2 i w⟩
  · exact fun tag => ⟨placed_raw tag, placed_raw tag⟩
  · exact fun cls tag _ h => ⟨placed_explicit cls tag fun i w => errIn_ber h.1 w,
      placed_explicit cls tag fun i w => errIn_der h.2 w⟩
  · exact fun cls tag _ h => ⟨placed_implicit cls tag h.1, placed_implicit cls tag h.2⟩
  · exact fun tag _ h => ⟨fun _ i w => (errIn_assertConstructed w).bind fun _ _ => errIn_run _ h.1.1 h.2.1 i w,
      fun _ i w => (errIn_assertConstructed w).bind fun _ _ => errIn_run _ h.1.2 h.2.2 i w⟩
  · intro Ts vb vd k _ h
    refine ⟨fun hd i w => ?_, fun hd i w => ?_⟩
    · have := fun k => (h k hd i w).1
      cases k
      · exact (errIn_assertConstructed w).bind fun _ _ => this _
      · exact this _
      · exact this _
    · have := fun k => (h k hd i w).2
      cases k
      · exact (errIn_assertConstructed w).bind fun _ _ => this _
      · exact this _
      · exact this _
  · intro ds
    have key : ∀ {p : Parser Nat}, Placed p → Placed (enumP p ds) := by
      intro p hp h i w
      refine (errIn_assertPrimitive w).bind fun _ _ => (hp h i w).bind fun _ _ => ?_
      simp only
      split
      · exact errIn_ok
      · exact errIn_self w
    exact ⟨key (placed_universal .enumerated).1, key (placed_universal .enumerated).2⟩
  · exact fun _ h => ⟨fun hd i w => (h.1 hd i w).bind fun _ _ => errIn_ok,
      fun hd i w => (h.2 hd i w).bind fun _ _ => errIn_ok⟩
  · exact ⟨⟨trivial, trivial⟩, trivial, trivial⟩
  · exact fun _ _ h ht => ⟨⟨⟨ahead_ber, ht.1.1⟩, ⟨ahead_der, ht.1.2⟩⟩,
      ⟨fun i w => errIn_ber h.1 w, ht.2.1⟩, ⟨fun i w => errIn_der h.2 w, ht.2.2⟩⟩
  · exact ⟨⟨trivial, trivial⟩, trivial, trivial⟩
  · exact fun tag _ _ h ht => ⟨⟨⟨ahead_required .ber tag _, ht.1.1⟩, ⟨ahead_required .der tag _, ht.1.2⟩⟩,
      ⟨fun i w => errIn_required .ber tag h.1 w, ht.2.1⟩, ⟨fun i w => errIn_required .der tag h.2 w, ht.2.2⟩⟩
  · exact fun tag _ _ h ht => ⟨⟨⟨ahead_optional .ber tag _, ht.1.1⟩, ⟨ahead_optional .der tag _, ht.1.2⟩⟩,
      ⟨fun i w => errIn_optional .ber tag h.1 w, ht.2.1⟩, ⟨fun i w => errIn_optional .der tag h.2 w, ht.2.2⟩⟩
  · exact fun tag x _ _ h ht =>
      ⟨⟨⟨fun i => Ahead.bind (ahead_optional .ber tag _ i) fun _ _ _ => ahead_same, ht.1.1⟩,
        ⟨fun i => Ahead.bind (ahead_optional .der tag _ i) fun _ _ _ => ahead_same, ht.1.2⟩⟩,
       ⟨fun i w => (errIn_optional .ber tag h.1 w).bind fun _ _ => errIn_ok, ht.2.1⟩,
       ⟨fun i w => (errIn_optional .der tag h.2 w).bind fun _ _ => errIn_ok, ht.2.2⟩⟩
  · exact fun _ _ _ w => ⟨errIn_self w, errIn_self w⟩
  · intro T Ts pb pd vb vd tag _ _ h ht k hd i w
    have hv : ∀ (m : Rules) {p : Parser T}, Placed p → ErrIn i (variantContent m k p hd i) := by
      intro m p hp
      cases k
      · exact errIn_parse m hp w
      · exact hp hd i w
      · exact hp hd i w
    constructor
    · unfold Variants.content
      split
      · exact (hv .ber h.1).bind fun _ _ => errIn_ok
      · exact (ht k hd i w).1.bind fun _ _ => errIn_ok
    · unfold Variants.content
      split
      · exact (hv .der h.2).bind fun _ _ => errIn_ok
      · exact (ht k hd i w).2.bind fun _ _ => errIn_ok

end Asn1

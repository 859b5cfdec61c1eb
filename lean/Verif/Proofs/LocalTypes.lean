import Verif.Props.Arrays
/-!
# The content parsers of the modelled types do not look at positions
-/
namespace Asn1
open Spec

variable {α β γ : Type}

/-- If the first computation succeeds, so does the second, with a related result. -/
def Sim (R : β → γ → Prop) (x : Except PErr β) (y : Except PErr γ) : Prop :=
  ∀ a, x = .ok a → ∃ b, y = .ok b ∧ R a b

/-- The same bytes. -/
def SameD (i j : Input) : Prop := i.data = j.data
/-- The same bytes remain, with the same value. -/
def SameR (a b : Input × α) : Prop := a.1.data = b.1.data ∧ a.2 = b.2
/-- The same bytes remain, and the same bytes are returned. -/
def SameDD (a b : Input × Input) : Prop := a.1.data = b.1.data ∧ a.2.data = b.2.data
/-- The same object, up to spans. -/
def SameAny (a b : Any) : Prop := SameHdr a.header b.header ∧ a.data.data = b.data.data

theorem sim_ok {R : β → γ → Prop} {a : β} {b : γ} (h : R a b) : Sim R (.ok a) (.ok b) := by
  rintro _ ⟨rfl⟩; exact ⟨b, rfl, h⟩

theorem sim_err {R : β → γ → Prop} {e : PErr} {y : Except PErr γ} : Sim R (.error e) y := by
  rintro a ⟨⟩

theorem sim_nomErr {R : β → γ → Prop} {i : Input} {e : InnerError} {y : Except PErr γ} :
    Sim R (nomErr i e) y := by
  rintro a ⟨⟩

theorem sim_ite {R : β → γ → Prop} {c : Prop} {inst inst' : Decidable c} {x y : Except PErr β}
    {x' y' : Except PErr γ} (h1 : Sim R x x') (h2 : Sim R y y') :
    Sim R (@ite _ c inst x y) (@ite _ c inst' x' y') := by
  by_cases h : c
  · rw [if_pos h, if_pos h]; exact h1
  · rw [if_neg h, if_neg h]; exact h2

theorem sim_refl {x : Except PErr β} : Sim Eq x x := fun a h => ⟨a, h, rfl⟩

theorem sim_bind {β' γ' : Type} {R : β → γ → Prop} {S : β' → γ' → Prop} {x : Except PErr β}
    {y : Except PErr γ} {f : β → Except PErr β'} {g : γ → Except PErr γ'} (h : Sim R x y)
    (hf : ∀ a b, R a b → Sim S (f a) (g b)) : Sim S (x >>= f) (y >>= g) := by
  intro a ha
  obtain ⟨c, h1, h2⟩ := bind_eq_ok.mp ha
  obtain ⟨d, h3, h4⟩ := h c h1
  obtain ⟨b, h5, h6⟩ := hf c d h4 a h2
  exact ⟨b, bind_eq_ok.mpr ⟨d, h3, h5⟩, h6⟩

theorem sim_assertPrimitive {h h' : Header} (hh : SameHdr h h') {i j : Input} :
    Sim (fun _ _ => True) (h.assertPrimitive i) (h'.assertPrimitive j) := by
  intro a ha
  exact ⟨(), assertPrimitive_ok.mpr (hh.2.1 ▸ assertPrimitive_ok.mp ha), trivial⟩

theorem sim_assertConstructed {h h' : Header} (hh : SameHdr h h') {i j : Input} :
    Sim (fun _ _ => True) (h.assertConstructed i) (h'.assertConstructed j) := by
  intro a ha
  exact ⟨(), assertConstructed_ok.mpr (hh.2.1 ▸ assertConstructed_ok.mp ha), trivial⟩

theorem sim_takeSplit {i j : Input} (h : i.data = j.data) (n : Nat) :
    Sim SameDD (i.takeSplit n) (j.takeSplit n) := by
  rw [takeSplit_eq, takeSplit_eq, h]
  split
  · refine sim_ok ⟨?_, ?_⟩ <;> simp [h]
  · exact sim_err

theorem sim_takeS {i j : Input} (h : i.data = j.data) (n : Nat) :
    Sim SameDD (takeS n i) (takeS n j) := by
  rw [takeS_eq, takeS_eq, h]
  split
  · refine sim_ok ⟨?_, ?_⟩ <;> simp [h]
  · exact sim_err

theorem sim_derContent {h h' : Header} (hh : SameHdr h h') {i j : Input} (hd : i.data = j.data) :
    Sim SameDD (derContent h i) (derContent h' j) := by
  unfold derContent
  rw [hh.2.2.2.1]
  split
  · exact sim_takeS hd _
  · exact sim_nomErr

theorem sim_berContent {h h' : Header} (hh : SameHdr h h') {i j : Input} (hd : i.data = j.data)
    (d : Nat) : Sim SameDD (berContent h i (d + 1)) (berContent h' j (d + 1)) := by
  rintro ⟨r, data⟩ ha
  obtain ⟨e, k, h1, h2, h3, h4, h5⟩ := berContent_local ha
  refine ⟨_, h5 h' j r.data hh.2.2.2.1 hh.2.1 (hd ▸ h2), ?_, ?_⟩
  · rw [after_data, ← hd, h2, List.drop_left' rfl]
  · rw [h4]; simp [hd]

theorem sim_atEnd {i j : Input} : Sim SameD i.atEnd j.atEnd := by
  rw [atEnd_eq, atEnd_eq]
  exact sim_ok (by simp [SameD])

theorem sim_liftErr {i j : Input} (x : Except InnerError β) :
    Sim Eq (liftErr i x) (liftErr j x) := by
  cases x with
  | ok a => exact sim_ok rfl
  | error e => exact sim_nomErr

theorem sim_checkDerInt {i j : Input} (h : i.data = j.data) :
    Sim (fun _ _ => True) (checkDerIntInput i) (checkDerIntInput j) := by
  unfold checkDerIntInput
  rw [h]
  cases checkDerIntBytes j.data with
  | ok a => exact sim_ok trivial
  | error e => exact sim_nomErr

/-- `Local` in terms of `Sim`. -/
theorem local_of {p : Parser α} (h : ∀ h h' i j, SameHdr h h' → i.data = j.data →
    Sim SameR (p.content h i) (p.content h' j)) : p.Local := by
  intro hd hd' i j r v hh hij hc
  obtain ⟨⟨r', v'⟩, h1, h2⟩ := h hd hd' i j hh hij _ hc
  obtain ⟨_, h2⟩ := h2
  simp only at h2
  subst h2
  exact ⟨r', h1⟩

/-- A content parser that does not look at positions, and returns the same remaining bytes. -/
def Parser.Strong (p : Parser α) : Prop := ∀ h h' i j, SameHdr h h' → i.data = j.data →
    Sim SameR (p.content h i) (p.content h' j)

theorem Parser.Strong.loc {p : Parser α} (h : p.Strong) : p.Local := local_of h

/-! ### The types -/

theorem sim_uintContent {h h' : Header} (hh : SameHdr h h') {i j : Input} (hd : i.data = j.data)
    (N : Nat) : Sim SameR (uintContent N h i) (uintContent N h' j) := by
  unfold uintContent
  refine sim_bind (sim_assertPrimitive hh) fun _ _ _ => ?_
  rw [hd]
  refine sim_bind (sim_liftErr _) fun a b hab => ?_
  refine sim_bind (sim_atEnd) fun _ _ he => sim_ok ⟨he, by rw [hab]⟩

theorem strong_uint (N : Nat) : (uintBer N).Strong ∧ (uintDer N).Strong :=
  ⟨fun _ _ _ _ hh hd => sim_uintContent hh hd N,
   fun _ _ _ _ hh hd => sim_bind (sim_checkDerInt hd) fun _ _ _ => sim_uintContent hh hd N⟩

theorem sim_intContent {h h' : Header} (hh : SameHdr h h') {i j : Input} (hd : i.data = j.data)
    (N : Nat) : Sim SameR (intContent N h i) (intContent N h' j) := by
  unfold intContent
  refine sim_bind (sim_assertPrimitive hh) fun _ _ _ => ?_
  refine sim_bind (R := Eq) ?_ fun a b hab => ?_
  · unfold intValue
    rw [hd]
    refine sim_ite ?_ ?_
    · exact sim_bind (sim_liftErr _) fun a b hab => sim_ok (by rw [hab])
    · refine sim_bind (sim_liftErr _) fun a b hab => ?_
      subst hab
      simp only
      refine sim_ite ?_ ?_
      · exact sim_nomErr
      · exact sim_ok rfl
  · exact sim_bind (sim_atEnd) fun _ _ he => sim_ok ⟨he, by rw [hab]⟩

theorem strong_int (N : Nat) : (intBer N).Strong ∧ (intDer N).Strong :=
  ⟨fun _ _ _ _ hh hd => sim_intContent hh hd N,
   fun _ _ _ _ hh hd => sim_bind (sim_checkDerInt hd) fun _ _ _ => sim_intContent hh hd N⟩

theorem sim_integerContent {h h' : Header} (hh : SameHdr h h') {i j : Input}
    (hd : i.data = j.data) : Sim SameR (integerContent h i) (integerContent h' j) := by
  unfold integerContent
  refine sim_bind (sim_assertPrimitive hh) fun _ _ _ => ?_
  refine sim_bind (sim_derContent hh hd) fun a b hab => ?_
  obtain ⟨h1, h2⟩ := hab
  simp only [Input.isEmpty, h2]
  refine sim_ite ?_ ?_
  · exact sim_nomErr
  · exact sim_ok ⟨h1, rfl⟩

theorem strong_integer : integerBer.Strong ∧ integerDer.Strong :=
  ⟨fun _ _ _ _ hh hd => sim_integerContent hh hd,
   fun _ _ _ _ hh hd => sim_bind (sim_checkDerInt hd) fun _ _ _ => sim_integerContent hh hd⟩

theorem sim_beU8 {i j : Input} (hd : i.data = j.data) : Sim SameR (beU8 i) (beU8 j) := by
  unfold beU8
  rw [hd]
  split
  · exact sim_err
  · exact sim_ok ⟨rfl, rfl⟩

theorem sim_booleanContent {h h' : Header} (hh : SameHdr h h') {i j : Input}
    (hd : i.data = j.data) : Sim SameR (booleanContent h i) (booleanContent h' j) := by
  unfold booleanContent
  refine sim_bind (sim_assertPrimitive hh) fun _ _ _ => ?_
  rw [hh.2.2.2.1]
  refine sim_ite ?_ ?_
  · exact sim_nomErr
  · exact sim_beU8 hd

theorem strong_map {p : Parser α} (hp : p.Strong) (f : α → β) : (p.map f).Strong := by
  intro h h' i j hh hd
  rintro ⟨r, v⟩ hv
  obtain ⟨a, h1, h2⟩ := map_content.mp hv
  obtain ⟨⟨r', a'⟩, h3, h4, h5⟩ := hp h h' i j hh hd _ h1
  simp only at h5
  exact ⟨(r', v), map_content.mpr ⟨a', h3, h5 ▸ h2⟩, h4, rfl⟩

theorem strong_bool : boolBer.Strong ∧ boolDer.Strong := by
  refine ⟨strong_map (fun _ _ _ _ hh hd => sim_booleanContent hh hd) _, strong_map ?_ _⟩
  intro h h' i j hh hd
  refine sim_bind (sim_booleanContent hh hd) fun a b hab => ?_
  obtain ⟨a1, a2⟩ := a
  obtain ⟨b1, b2⟩ := b
  obtain ⟨h1, h2⟩ := hab
  simp only at h1 h2
  subst h2
  simp only
  refine sim_ite ?_ ?_
  · exact sim_nomErr
  · exact sim_ok ⟨h1, rfl⟩

theorem strong_null : nullP.Strong := by
  intro h h' i j hh hd
  show Sim SameR (nullContent h i) (nullContent h' j)
  unfold nullContent
  refine sim_bind (sim_assertPrimitive hh) fun _ _ _ => ?_
  rw [hh.2.2.2.1]
  refine sim_ite ?_ ?_
  · exact sim_nomErr
  · exact sim_ok ⟨hd, rfl⟩

theorem strong_enum : enumeratedBer.Strong ∧ enumeratedDer.Strong :=
  ⟨fun h h' i j hh hd => sim_bind (sim_assertPrimitive hh) fun _ _ _ =>
    (strong_uint 4).1 h h' i j hh hd,
   fun h h' i j hh hd => sim_bind (sim_assertPrimitive hh) fun _ _ _ =>
    (strong_uint 4).2 h h' i j hh hd⟩

theorem strong_oid : oidP.Strong := by
  intro h h' i j hh hd
  show Sim SameR (oidContent h i) (oidContent h' j)
  unfold oidContent
  refine sim_bind (sim_assertPrimitive hh) fun _ _ _ => ?_
  simp only [Input.isEmpty, Input.len, hd]
  refine sim_ite ?_ ?_
  · exact sim_nomErr
  · refine sim_bind (sim_takeSplit hd _) fun a b hab => ?_
    exact sim_ok ⟨hab.1, by rw [hab.2]⟩

/-- A content parser that reads the bytes of primitive objects as a whole. -/
theorem strong_of_content {p : Parser α} {P : Bytes → α → Prop}
    (h : ∀ {hd : Header} {i x : Input} {v : α}, p.content hd i = .ok (x, v) ↔
      hd.constructed = false ∧ x = after i i.data.length ∧ P i.data v) : p.Strong := by
  rintro hd hd' i j hh hij ⟨x, v⟩ hv
  obtain ⟨h1, h2, h3⟩ := h.mp hv
  refine ⟨(after j j.data.length, v), h.mpr ⟨hh.2.1 ▸ h1, rfl, hij ▸ h3⟩, ?_, rfl⟩
  rw [h2]; simp

theorem strong_utc : utcBer.Strong ∧ utcDer.Strong :=
  ⟨strong_of_content utcBer_content, strong_of_content utcDer_content⟩

theorem strong_gen : genBer.Strong ∧ genDer.Strong :=
  ⟨strong_of_content genBer_content,
   strong_of_content (P := fun text t => GenText text t ∧ text.getLast? = some 0x5a ∧ 0x2c ∉ text)
    genDer_content⟩

/-! ### Segmented strings -/

theorem sim_anyBer {i j : Input} (hd : i.data = j.data) :
    Sim (fun a b => a.1.data = b.1.data ∧ SameAny a.2 b.2) (anyBer.parseBer i)
      (anyBer.parseBer j) := by
  rw [anyBer_parseBer]
  rintro ⟨r, a⟩ ha
  obtain ⟨e, _, h2, _, h4⟩ := parseBerAny_local ha
  refine ⟨_, h4 j r.data (hd ▸ h2), ?_, sameHdr_rebase _ _ _, rfl⟩
  rw [after_data, ← hd, h2, List.drop_left' rfl]

theorem sim_anyDer {i j : Input} (hd : i.data = j.data) :
    Sim (fun a b => a.1.data = b.1.data ∧ SameAny a.2 b.2) (anyDer.parseDer i)
      (anyDer.parseDer j) := by
  rw [anyDer_parseDer]
  rintro ⟨r, a⟩ ha
  obtain ⟨e, _, h2, _, h4⟩ := parseDerAny_local ha
  refine ⟨_, h4 j r.data (hd ▸ h2), ?_, sameHdr_rebase _ _ _, rfl⟩
  rw [after_data, ← hd, h2, List.drop_left' rfl]

/-- A parser of objects that does not look at positions. -/
def ObjSim (parse : Input → PRes Any) : Prop := ObjParser parse ∧ ∀ i j, i.data = j.data →
    Sim (fun a b => a.1.data = b.1.data ∧ SameAny a.2 b.2) (parse i) (parse j)

theorem objSim_ber : ObjSim anyBer.parseBer := ⟨objParser_ber, fun _ _ h => sim_anyBer h⟩
theorem objSim_der : ObjSim anyDer.parseDer := ⟨objParser_der, fun _ _ h => sim_anyDer h⟩

theorem sim_forIter {σ : Type} {parse : Input → PRes Any} (hp : ObjSim parse)
    {f : σ → Any → Except PErr (Bool × σ)}
    (hf : ∀ s a b, SameAny a b → Sim Eq (f s a) (f s b)) {fuel : Nat} {i j : Input} {s : σ}
    (hd : i.data = j.data) :
    Sim (fun a b => a.1.input.data = b.1.input.data ∧ a.2 = b.2)
      (forIter parse f fuel ⟨i, false⟩ s) (forIter parse f fuel ⟨j, false⟩ s) := by
  induction fuel generalizing i j s with
  | zero => exact sim_err
  | succ fuel ih =>
    unfold forIter
    by_cases hne : i.data = []
    · rw [next_nil hne, next_nil (hd ▸ hne)]
      exact sim_ok ⟨hd, rfl⟩
    · cases hpi : parse i with
      | error e =>
        obtain ⟨k, g, hn⟩ := next_err hp.1 hne hpi
        rw [hn]; exact sim_err
      | ok x =>
        obtain ⟨r, a⟩ := x
        obtain ⟨⟨r', a'⟩, h1, h2, h3⟩ := hp.2 i j hd _ hpi
        simp only at h2 h3
        rw [next_ok hp.1 hne hpi, next_ok hp.1 (hd ▸ hne) h1]
        simp only
        have hs := hf s a a' h3
        cases hfa : f s a with
        | error e => exact sim_err
        | ok y =>
          obtain ⟨y', h4, rfl⟩ := hs _ hfa
          rw [h4]
          obtain ⟨c, s'⟩ := y
          cases c with
          | true => exact ih h2
          | false => exact sim_ok ⟨h2, rfl⟩

theorem sim_parseSegmented {acceptTag : Nat → Bool} {empty : α} {append : α → α → α}
    {leaf : Header → Input → PRes α}
    (hleaf : ∀ h h' i j, SameHdr h h' → i.data = j.data → Sim SameR (leaf h i) (leaf h' j))
    (limit : Nat) : ∀ {h h' : Header} {i j : Input}, SameHdr h h' → i.data = j.data →
      Sim SameR (parseSegmented acceptTag empty append leaf limit h i)
        (parseSegmented acceptTag empty append leaf limit h' j) := by
  induction limit with
  | zero => intro h h' i j hh hd; exact sim_nomErr
  | succ limit ih =>
    intro h h' i j hh hd
    unfold parseSegmented
    simp only [Input.isEmpty, hd, hh.2.1]
    refine sim_ite ?_ ?_
    · exact sim_nomErr
    · refine sim_ite ?_ ?_
      · refine sim_bind (R := SameDD) ?_ fun a b hab => ?_
        · unfold segContent
          rw [hh.2.2.2.1]
          refine sim_ite ?_ ?_
          · exact sim_berContent hh hd 49
          · simp only [Input.len, hd]; exact sim_takeSplit hd _
        · obtain ⟨h1, h2⟩ := hab
          have e : a.2.len = b.2.len := by simp only [Input.len, h2]
          simp only [e]
          refine sim_bind (sim_forIter objSim_ber ?_ h2) fun x y hxy => ?_
          · intro s a b hab
            unfold segStep
            simp only [hab.1.2.2.1, Input.isEmpty, hab.2]
            refine sim_ite ?_ ?_
            · exact sim_refl
            · refine sim_ite ?_ ?_
              · exact sim_nomErr
              · refine sim_ite ?_ ?_
                · exact sim_refl
                · have := ih hab.1 hab.2
                  cases hp : parseSegmented acceptTag empty append leaf limit a.header a.data with
                  | error e => exact sim_err
                  | ok x =>
                    obtain ⟨y, h3, h4, h5⟩ := this _ hp
                    rw [h3]
                    obtain ⟨x1, x2⟩ := x
                    obtain ⟨y1, y2⟩ := y
                    simp only at h5
                    subst h5
                    exact sim_ok rfl
          · exact sim_ok ⟨h1, hxy.2⟩
      · refine sim_bind (sim_berContent hh hd 49) fun a b hab => ?_
        refine sim_bind (hleaf _ _ _ _ hh hab.2) fun x y hxy => ?_
        exact sim_ok ⟨hab.1, hxy.2⟩

theorem sim_octetLeaf {h h' : Header} {i j : Input} (hd : i.data = j.data) :
    Sim SameR (octetLeaf h i) (octetLeaf h' j) := by
  rw [octetLeaf_ok, octetLeaf_ok]
  exact sim_ok ⟨by simp, hd⟩

theorem strong_octet : octetBer.Strong ∧ octetDer.Strong := by
  have hb : octetBer.Strong := by
    intro h h' i j hh hd
    show Sim SameR (octetContent h i) (octetContent h' j)
    unfold octetContent
    rw [hh.2.1]
    refine sim_ite ?_ ?_
    · exact sim_octetLeaf hd
    · exact sim_parseSegmented (fun _ _ _ _ _ hd => sim_octetLeaf hd) _ hh hd
  exact ⟨hb, fun h h' i j hh hd => sim_bind (sim_assertPrimitive hh) fun _ _ _ =>
    hb h h' i j hh hd⟩

theorem strong_slice : sliceBer.Strong ∧ sliceDer.Strong := by
  have hb : sliceBer.Strong := by
    intro h h' i j hh hd
    show Sim SameR (sliceContent h i) (sliceContent h' j)
    unfold sliceContent
    simp only [hh.2.1, Input.len, hd]
    refine sim_ite ?_ ?_
    · exact sim_nomErr
    · exact sim_bind (sim_takeSplit hd _) fun a b hab => sim_ok ⟨hab.1, hab.2⟩
  exact ⟨hb, fun h h' i j hh hd => sim_bind (sim_assertPrimitive hh) fun _ _ _ =>
    hb h h' i j hh hd⟩

theorem sim_bitPrimitive {r r' i j : Input} (hr : r.data = r'.data) (hd : i.data = j.data) :
    Sim SameR (bitPrimitive r i) (bitPrimitive r' j) := by
  unfold bitPrimitive
  rw [hd]
  split
  · exact sim_nomErr
  · repeat' split
    all_goals first | exact sim_nomErr | exact sim_ok ⟨hr, rfl⟩

theorem sim_bitLeaf {h h' : Header} (hh : SameHdr h h') {i j : Input} (hd : i.data = j.data) :
    Sim SameR (bitLeaf h i) (bitLeaf h' j) :=
  sim_bind (sim_berContent hh hd 49) fun _ _ hab => sim_bitPrimitive hab.1 hab.2

theorem strong_bit : bitBer.Strong ∧ bitDer.Strong := by
  have hb : bitBer.Strong := by
    intro h h' i j hh hd
    show Sim SameR (bitContent h i) (bitContent h' j)
    unfold bitContent
    rw [hh.2.1]
    refine sim_ite ?_ ?_
    · exact sim_bitLeaf hh hd
    · exact sim_parseSegmented (fun _ _ _ _ hh hd => sim_bitLeaf hh hd) _ hh hd
  exact ⟨hb, fun h h' i j hh hd => sim_bind (sim_assertPrimitive hh) fun _ _ _ =>
    hb h h' i j hh hd⟩

/-! ### Tags and containers -/

theorem sim_tryParseCollect {parse : Input → PRes Any} (hp : ObjSim parse) {p : Parser α}
    (hs : p.Strong) {i j : Input} (hd : i.data = j.data) :
    Sim SameR ((AnyIter.new i).tryParseCollect parse p) ((AnyIter.new j).tryParseCollect parse p) := by
  unfold AnyIter.tryParseCollect AnyIter.new
  simp only [Input.len, hd]
  refine sim_bind (sim_forIter hp ?_ hd) fun x y hxy => sim_ok ⟨hxy.1, hxy.2⟩
  intro s a b hab
  unfold parseCollectStep
  simp only [hab.1.2.2.1]
  refine sim_ite ?_ ?_
  · exact sim_nomErr
  · cases hc : p.content a.header a.data with
    | error e => exact sim_err
    | ok x =>
      obtain ⟨y, h3, h4, h5⟩ := hs _ _ _ _ hab.1 hab.2 _ hc
      rw [h3]
      obtain ⟨x1, x2⟩ := x
      obtain ⟨y1, y2⟩ := y
      simp only at h5
      subst h5
      exact sim_ok rfl

theorem strong_vec {parse : Input → PRes Any} (hp : ObjSim parse) {p : Parser α} (hs : p.Strong) :
    (vecP parse p).Strong := by
  intro h h' i j hh hd
  refine sim_bind (sim_assertConstructed hh) fun _ _ _ => ?_
  simp only [Input.isEmpty, hd]
  refine sim_ite ?_ ?_
  · exact sim_ok ⟨hd, rfl⟩
  · exact sim_tryParseCollect hp hs hd

theorem strong_setItems {parse : Input → PRes Any} (hp : ObjSim parse) {p : Parser α}
    (hs : p.Strong) : (setItemsP parse p).Strong := by
  intro h h' i j hh hd
  exact sim_bind (sim_assertConstructed hh) fun _ _ _ => sim_tryParseCollect hp hs hd

theorem strong_array {N : Nat} {parse : Input → PRes Any} (hp : ObjSim parse) {p : Parser α}
    (hs : p.Strong) : (arrayP N parse p).Strong := by
  intro h h' i j hh hd
  refine sim_bind (strong_vec hp hs h h' i j hh hd) fun a b hab => ?_
  obtain ⟨a1, a2⟩ := a
  obtain ⟨b1, b2⟩ := b
  obtain ⟨h1, h2⟩ := hab
  simp only at h1 h2
  subst h2
  simp only
  split
  · exact sim_ok ⟨h1, rfl⟩
  · exact sim_nomErr

/-- A parser of typed objects that does not look at positions. -/
def Free (f : Input → PRes α) : Prop := ∀ i j, i.data = j.data → Sim SameR (f i) (f j)

theorem free_of_local {f : Input → PRes α} (h : ∀ i r v, f i = .ok (r, v) → ∃ e,
    i.data = e ++ r.data ∧ ∀ j rest, j.data = e ++ rest → f j = .ok (after j e.length, v)) :
    Free f := by
  rintro i j hd ⟨r, v⟩ hv
  obtain ⟨e, h1, h2⟩ := h i r v hv
  refine ⟨_, h2 j r.data (hd ▸ h1), ?_, rfl⟩
  rw [after_data, ← hd, h1, List.drop_left' rfl]

theorem free_ber {p : Parser α} (hs : p.Strong) : Free p.parseBer :=
  free_of_local fun i r v hv => by
    obtain ⟨e, _, h1, _, h2⟩ := parseBer_local hs.loc hv
    exact ⟨e, h1, h2⟩

theorem free_der {p : Parser α} (hs : p.Strong) : Free p.parseDer :=
  free_of_local fun i r v hv => by
    obtain ⟨e, _, h1, _, h2⟩ := parseDer_local hs.loc hv
    exact ⟨e, h1, h2⟩

theorem strong_explicit {cls : Class} {tag : Nat} {f : Input → PRes α} (hf : Free f) :
    (explicitP cls tag f).Strong := by
  intro h h' i j hh hd
  refine sim_bind (sim_assertConstructed hh) fun _ _ _ => ?_
  simp only [hh.1, hh.2.2.1]
  refine sim_ite ?_ ?_
  · exact sim_nomErr
  · refine sim_ite ?_ ?_
    · exact sim_nomErr
    · exact sim_bind (hf i j hd) fun a b hab => sim_ok ⟨hab.1, by rw [hab.2]⟩

theorem strong_implicit {cls : Class} {tag : Nat} {p : Parser α} (hp : p.Strong) :
    (implicitP cls tag p).Strong := by
  intro h h' i j hh hd
  show Sim SameR (if _ then _ else _) (if _ then _ else _)
  simp only [hh.1]
  refine sim_ite ?_ ?_
  · exact sim_nomErr
  · exact sim_bind (hp h h' i j hh hd) fun a b hab => sim_ok ⟨hab.1, by rw [hab.2]⟩

/-- The components of a tuple do not look at positions. -/
inductive FreeAll : {Ts : List Type} → TupFns Ts → Prop
  | nil : FreeAll .nil
  | cons {T : Type} {Ts : List Type} {f : Input → PRes T} {fs : TupFns Ts} (h : Free f)
      (ht : FreeAll fs) : FreeAll (.cons f fs)

theorem strong_tuple {Ts : List Type} {fs : TupFns Ts} (h : FreeAll fs) : (tupleP fs).Strong := by
  intro hd hd' i j _ hij
  show Sim SameR (fs.run i) (fs.run j)
  induction h generalizing i j with
  | nil => exact sim_ok ⟨hij, rfl⟩
  | cons h _ ih =>
    refine sim_bind (h i j hij) fun a b hab => ?_
    refine sim_bind (ih _ _ hab.1) fun c d hcd => sim_ok ⟨hcd.1, ?_⟩
    rw [hab.2, hcd.2]

theorem strong_raw (tag : Nat) : (rawP tag).Strong := by
  intro h h' i j hh hd
  refine sim_bind (sim_assertConstructed hh) fun _ _ _ => ?_
  simp only [Input.len, hd]
  exact sim_bind (sim_takeSplit hd _) fun a b hab => sim_ok ⟨hab.1, by rw [hab.2]⟩

end Asn1

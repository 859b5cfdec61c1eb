import Verif.Spec.CustomError
/-!
# Types with their own error type: the parsers have the same outcome
-/
namespace Asn1
open Spec

variable {α β γ ε ε' : Type}

theorem so_ok (R : BerErr → ε → Prop) (a : β) : SameOutcome R (.ok a) (.ok a) := rfl

theorem so_convert {R : BerErr → ε → Prop} {conv : BerErr → ε} (hR : ∀ b, R b (conv b))
    (x : Except PErr β) : SameOutcome R x (convertG conv x) := by
  cases x with
  | ok a => rfl
  | error e =>
    cases e with
    | error i e => exact hR ⟨i, e⟩
    | incomplete n => rfl
    | panic => trivial
    | diverge => trivial

theorem so_nomErr {R : BerErr → ε → Prop} {conv : BerErr → ε} (hR : ∀ b, R b (conv b))
    (i : Input) (e : InnerError) :
    SameOutcome (β := β) R (nomErr i e) (nomErrG conv i e) := hR ⟨i, e⟩

theorem so_bind {R : BerErr → ε → Prop} {x : Except PErr β} {y : Except (NErr ε) β}
    {f : β → Except PErr γ} {g : β → Except (NErr ε) γ} (h : SameOutcome R x y)
    (hf : ∀ a, SameOutcome R (f a) (g a)) : SameOutcome R (x >>= f) (y >>= g) := by
  cases x with
  | ok a =>
    cases y with
    | ok b => cases (show a = b from h); exact hf a
    | error e => exact h.elim
  | error e =>
    cases y with
    | ok b => cases e <;> exact h.elim
    | error e' => cases e <;> cases e' <;> exact h

theorem so_map {R : BerErr → ε → Prop} {R' : BerErr → ε' → Prop} {f : ε' → ε}
    (hf : ∀ b e, R' b e → R b (f e)) {x : Except PErr β} {y : Except (NErr ε') β}
    (h : SameOutcome R' x y) : SameOutcome R x (mapErrG f y) := by
  cases x with
  | ok a =>
    cases y with
    | ok b => exact h
    | error e => exact h.elim
  | error e =>
    cases y with
    | ok b => cases e <;> exact h.elim
    | error e' =>
      cases e <;> cases e' <;> first | exact h | exact hf _ _ h

theorem so_ite {R : BerErr → ε → Prop} {c : Prop} [Decidable c] {x x' : Except PErr β}
    {y y' : Except (NErr ε) β} (h : c → SameOutcome R x y) (h' : ¬ c → SameOutcome R x' y') :
    SameOutcome R (if c then x else x') (if c then y else y') := by
  by_cases hc : c
  · rw [if_pos hc, if_pos hc]; exact h hc
  · rw [if_neg hc, if_neg hc]; exact h' hc

/-- What `Retyped` gives, case by case. -/
structure Inv (R : BerErr → ε → Prop) (p : Parser α) (g : GParser ε α) : Prop where
  conv : ∀ b, R b (g.conv b)
  accept : p.acceptTag = g.acceptTag
  content : ∀ h i, SameOutcome R (p.content h i) (g.content h i)

variable {R : BerErr → ε → Prop}

theorem Inv.ber {p : Parser α} {g : GParser ε α} (h : Inv R p g) (i : Input) :
    SameOutcome R (p.parseBer i) (g.parseBer i) := by
  unfold Parser.parseBer GParser.parseBer
  refine so_bind (so_convert h.conv _) fun ⟨rem, hd⟩ => ?_
  rw [h.accept]
  refine so_ite (fun _ => so_nomErr h.conv _ _) fun _ => ?_
  refine so_bind (so_convert h.conv _) fun ⟨rem, data⟩ => ?_
  exact so_bind (h.content _ _) fun ⟨_, _⟩ => so_ok _ _

theorem Inv.der {p : Parser α} {g : GParser ε α} (h : Inv R p g) (i : Input) :
    SameOutcome R (p.parseDer i) (g.parseDer i) := by
  unfold Parser.parseDer GParser.parseDer
  refine so_bind (so_convert h.conv _) fun ⟨rem, hd⟩ => ?_
  refine so_bind (so_convert h.conv _) fun len => ?_
  rw [h.accept]
  refine so_ite (fun _ => so_nomErr h.conv _ _) fun _ => ?_
  refine so_bind (so_convert h.conv _) fun ⟨rem, data⟩ => ?_
  exact so_bind (h.content _ _) fun ⟨_, _⟩ => so_ok _ _

theorem Inv.parse {p : Parser α} {g : GParser ε α} (m : Rules) (h : Inv R p g) (i : Input) :
    SameOutcome R (m.parse p i) (m.parseG g i) := by
  cases m with
  | ber => exact h.ber i
  | der => exact h.der i

theorem inv_plain {R : BerErr → BerErr → Prop} (p : Parser α) (hR : ∀ b, R b b) :
    Inv R p p.plain :=
  ⟨hR, rfl, fun h i => so_convert (conv := id) hR _⟩

theorem inv_explicit {p : Parser α} {g : GParser ε α} (m : Rules) (cls : Class) (tag : Nat)
    (h : Inv R p g) : Inv R (explicitP cls tag (m.parse p)) (explicitG m cls tag g) := by
  refine ⟨h.conv, rfl, fun hd i => ?_⟩
  refine so_bind (so_convert h.conv _) fun _ => ?_
  refine so_ite (fun _ => so_nomErr h.conv _ _) fun _ => ?_
  refine so_ite (fun _ => so_nomErr h.conv _ _) fun _ => ?_
  exact so_bind (h.parse m i) fun ⟨_, _⟩ => so_ok _ _

theorem inv_implicit {p : Parser α} {g : GParser ε α} (cls : Class) (tag : Nat)
    (h : Inv R p g) : Inv R (implicitP cls tag p) (implicitG cls tag g) := by
  refine ⟨h.conv, rfl, fun hd i => ?_⟩
  refine so_ite (fun _ => so_nomErr h.conv _ _) fun _ => ?_
  exact so_bind (h.content _ _) fun ⟨_, _⟩ => so_ok _ _

theorem so_step {p : Parser α} {g : GParser ε α} (h : Inv R p g) (l : List α) (a : Any) :
    (∃ l', parseCollectStep p l a = .ok (true, l') ∧ parseCollectStepG g l a = .ok l') ∨
    ∃ e e', parseCollectStep p l a = .error e ∧ parseCollectStepG g l a = .error e' ∧
      SameOutcome (β := β) R (.error e) (.error e') := by
  unfold parseCollectStep parseCollectStepG
  rw [h.accept]
  by_cases ha : (!g.acceptTag a.header.tag) = true
  · rw [if_pos ha, if_pos ha]
    exact .inr ⟨_, _, rfl, rfl, h.conv ⟨a.data, .unexpectedTag none a.header.tag⟩⟩
  · rw [if_neg ha, if_neg ha]
    have hc := h.content a.header a.data
    cases hp : p.content a.header a.data with
    | ok x =>
      rw [hp] at hc
      cases hg : g.content a.header a.data with
      | ok y =>
        rw [hg] at hc
        cases (show x = y from hc)
        exact .inl ⟨_, rfl, rfl⟩
      | error e => rw [hg] at hc; exact hc.elim
    | error e =>
      rw [hp] at hc
      cases hg : g.content a.header a.data with
      | ok y => rw [hg] at hc; cases e <;> exact hc.elim
      | error e' =>
        rw [hg] at hc
        exact .inr ⟨e, e', rfl, rfl, by cases e <;> cases e' <;> exact hc⟩

theorem so_collect {p : Parser α} {g : GParser ε α} (m : Rules) (h : Inv R p g) :
    ∀ (fuel : Nat) (it : AnyIter) (l : List α),
      SameOutcome R (forIter (m.parse m.anyP) (parseCollectStep p) fuel it l)
        (collectG m g fuel it l)
  | 0, _, _ => trivial
  | fuel + 1, it, l => by
    unfold forIter collectG
    cases it.next (m.parse m.anyP) with
    | error e => exact so_convert h.conv (.error e)
    | ok x =>
      obtain ⟨o, it'⟩ := x
      cases o with
      | none => rfl
      | some item =>
        cases item with
        | err i e => exact h.conv ⟨i, e⟩
        | obj sp a =>
          simp only
          rcases so_step h l a with ⟨l', h1, h2⟩ | ⟨e, e', h1, h2, h3⟩
          · rw [h1, h2]; exact so_collect m h fuel it' l'
          · rw [h1, h2]; exact h3

theorem so_vec {p : Parser α} {g : GParser ε α} (m : Rules) (h : Inv R p g) (hd : Header) (i : Input) :
    SameOutcome R ((vecP (m.parse m.anyP) p).content hd i) ((vecG m g).content hd i) := by
  refine so_bind (so_convert h.conv _) fun _ => ?_
  refine so_ite (fun _ => so_ok _ _) fun _ => ?_
  exact so_bind (so_collect m h _ _ _) fun ⟨_, _⟩ => so_ok _ _

theorem inv_vec {p : Parser α} {g : GParser ε α} (m : Rules) (h : Inv R p g) :
    Inv R (match m with | .ber => vecBer p | .der => vecDer p) (vecG m g) := by
  have he : (match m with | .ber => vecBer p | .der => vecDer p) = vecP (m.parse m.anyP) p := by cases m <;> rfl
  rw [he]
  exact ⟨h.conv, rfl, so_vec m h⟩

theorem inv_sequenceOf {p : Parser α} {g : GParser ε α} (m : Rules) (h : Inv R p g) :
    Inv R (match m with | .ber => sequenceOfP anyBer.parseBer p | .der => sequenceOfP anyDer.parseDer p)
      (sequenceOfG m g) := by
  have he : (match m with | .ber => sequenceOfP anyBer.parseBer p | .der => sequenceOfP anyDer.parseDer p) =
      sequenceOfP (m.parse m.anyP) p := by cases m <;> rfl
  rw [he]
  exact ⟨h.conv, rfl, fun hd i => so_bind (so_vec m h hd i) fun ⟨_, _⟩ => so_ok _ _⟩

theorem inv_array {p : Parser α} {g : GParser ε α} (N : Nat) (m : Rules) (h : Inv R p g) :
    Inv R (match m with | .ber => arrayP N anyBer.parseBer p | .der => arrayP N anyDer.parseDer p)
      (arrayG N m g) := by
  have he : (match m with | .ber => arrayP N anyBer.parseBer p | .der => arrayP N anyDer.parseDer p) =
      arrayP N (m.parse m.anyP) p := by cases m <;> rfl
  rw [he]
  refine ⟨h.conv, rfl, fun hd i => so_bind (so_vec m h hd i) fun ⟨r, v⟩ => ?_⟩
  by_cases hN : v.length = N
  · simp only [hN, dite_true]; exact so_ok _ _
  · simp only [hN, dite_false]; exact h.conv _

theorem so_set {p : Parser α} {g : GParser ε α} {σ : Type} (f : List α → σ) (m : Rules) (h : Inv R p g) :
    Inv R ((setItemsP (m.parse m.anyP) p).map f) (setG m f g) := by
  refine ⟨h.conv, rfl, fun hd i => ?_⟩
  have e1 : ((setItemsP (m.parse m.anyP) p).map f).content hd i = (hd.assertConstructed i >>= fun _ =>
      forIter (m.parse m.anyP) (parseCollectStep p) (i.len + 1) (AnyIter.new i) [] >>= fun x =>
        .ok (x.1.input, f x.2)) := by
    have hl : (AnyIter.new i).input.len = i.len := rfl
    simp only [Parser.map, setItemsP, AnyIter.tryParseCollect]
    cases hd.assertConstructed i with
    | error e => rfl
    | ok u =>
      show _ = (forIter (m.parse m.anyP) (parseCollectStep p) (i.len + 1) (AnyIter.new i) [] >>= _)
      cases hf : forIter (m.parse m.anyP) (parseCollectStep p) (i.len + 1) (AnyIter.new i) [] with
      | error e => simp only [hl, hf, bind, Except.bind]
      | ok x => simp only [hl, hf, bind, Except.bind]; rfl
  rw [e1]
  refine so_bind (so_convert h.conv _) fun _ => ?_
  exact so_bind (so_collect m h _ _ _) fun ⟨_, _⟩ => so_ok _ _

theorem inv_setOf {p : Parser α} {g : GParser ε α} (m : Rules) (h : Inv R p g) :
    Inv R (match m with | .ber => setOfP anyBer.parseBer p | .der => setOfP anyDer.parseDer p)
      (setG m SetOf.mk g) := by
  have he : (match m with | .ber => setOfP anyBer.parseBer p | .der => setOfP anyDer.parseDer p) =
      (setItemsP (m.parse m.anyP) p).map SetOf.mk := by cases m <;> rfl
  rw [he]
  exact so_set SetOf.mk m h

theorem inv_set {p : Parser α} {g : GParser ε α} {σ : Type} (S : SetImpl α σ) (m : Rules) (h : Inv R p g) :
    Inv R (match m with | .ber => setP S anyBer.parseBer p | .der => setP S anyDer.parseDer p)
      (setG m S.ofList g) := by
  have he : (match m with | .ber => setP S anyBer.parseBer p | .der => setP S anyDer.parseDer p) =
      (setItemsP (m.parse m.anyP) p).map S.ofList := by cases m <;> rfl
  rw [he]
  exact so_set S.ofList m h

theorem so_optionContent {p : Parser α} {g : GParser ε α} (h : Inv R p g) (hd : Header)
    (i : Input) : SameOutcome R (optionContent p hd i) (optionContentG g hd i) := by
  unfold optionContent optionContentG
  rw [h.accept]
  refine so_ite (fun _ => so_ok _ _) fun _ => ?_
  refine so_bind (so_convert h.conv _) fun ⟨_, _⟩ => ?_
  exact so_bind (h.content _ _) fun ⟨_, _⟩ => so_ok _ _

theorem so_optionParse {p : Parser α} {g : GParser ε α} (m : Rules) (h : Inv R p g) (i : Input) :
    SameOutcome R (optionParse m.header p i) (optionParseG m g i) := by
  unfold optionParse optionParseG
  refine so_ite (fun _ => so_ok _ _) fun _ => ?_
  refine so_bind (so_convert h.conv _) fun ⟨_, hd⟩ => ?_
  rw [h.accept]
  refine so_ite (fun _ => so_ok _ _) fun _ => ?_
  refine so_bind (so_convert h.conv _) fun ⟨_, _⟩ => ?_
  exact so_bind (so_optionContent h _ _) fun ⟨_, _⟩ => so_ok _ _

theorem so_required {p : Parser α} {g : GParser ε α} (m : Rules) (tag : FieldTag) (h : Inv R p g)
    (i : Input) : SameOutcome R (requiredField m tag p i) (requiredFieldG m tag g i) := by
  cases tag with
  | untagged => exact h.parse m i
  | explicit cls n =>
    exact so_bind ((inv_explicit m cls n h).parse m i) fun ⟨_, _⟩ => so_ok _ _
  | implicit cls n =>
    exact so_bind ((inv_implicit cls n h).parse m i) fun ⟨_, _⟩ => so_ok _ _

theorem so_optTagged {R' : BerErr → ε' → Prop} {p : Parser (TaggedValue α)}
    {g : GParser ε' (TaggedValue α)} (m : Rules) (f : ε' → ε) (fh : BerErr → ε)
    (hf : ∀ b e, R' b e → R b (f e)) (hh : ∀ b, R b (fh b)) (n : Nat) (h : Inv R' p g) (i : Input) :
    SameOutcome R (optTaggedField m n p i) (optTaggedFieldG m f fh n g i) := by
  unfold optTaggedField optTaggedFieldG
  refine so_ite (fun _ => so_ok _ _) fun _ => ?_
  refine so_bind (so_convert hh _) fun ⟨_, hd⟩ => ?_
  refine so_ite (fun _ => ?_) fun _ => so_ok _ _
  exact so_bind (so_map hf (h.parse m i)) fun ⟨_, _⟩ => so_ok _ _

theorem so_optional {R' : BerErr → ε' → Prop} {p : Parser α} {g : GParser ε' α} (m : Rules)
    (tag : FieldTag) (f : ε' → ε) (fh : BerErr → ε) (hf : ∀ b e, R' b e → R b (f e))
    (hh : ∀ b, R b (fh b)) (h : Inv R' p g) (i : Input) :
    SameOutcome R (optionalField m tag p i) (optionalFieldG m f fh tag g i) := by
  cases tag with
  | untagged => exact so_map hf (so_optionParse m h i)
  | explicit cls n => exact so_optTagged m f fh hf hh n (inv_explicit m cls n h) i
  | implicit cls n => exact so_optTagged m f fh hf hh n (inv_implicit cls n h) i

theorem inv_retyped {m : Rules} {p : Parser α} {g : GParser ε α} (h : Retyped m R p g) :
    Inv R p g := by
  refine Retyped.rec
    (motive_1 := fun {ε α} R p g _ => Inv R p g)
    (motive_2 := fun {ε} R {Ts} fs gs _ => ∀ hd orig i,
      SameOutcome R ((fs.fns m).run i) (gs.run m hd orig i))
    (motive_3 := fun {ε} R {Ts} vs ws _ => ∀ (k : ChoiceKind) (conv : BerErr → ε),
      (∀ b, R b (conv b)) → vs.accept k = ws.accept k ∧
        ∀ hd i, SameOutcome R (vs.content m k hd i) (ws.content m k conv hd i))
    ?plain ?explicit ?implicit ?vec ?sequenceOf ?array ?setOf ?set ?tuple ?struct ?choice ?enum ?alias ?fnil ?req ?opt ?dflt ?custom ?vnil ?vcons h
  case plain => intro α R p hR; exact inv_plain p hR
  case explicit => intro ε α R p g cls tag _ ih; exact inv_explicit m cls tag ih
  case implicit => intro ε α R p g cls tag _ ih; exact inv_implicit cls tag ih
  case vec => intro ε α R p g _ ih; exact inv_vec m ih
  case sequenceOf => intro ε α R p g _ ih; exact inv_sequenceOf m ih
  case array => intro ε α R p g N _ ih; exact inv_array N m ih
  case setOf => intro ε α R p g _ ih; exact inv_setOf m ih
  case set => intro ε α σ R p g S _ ih; exact inv_set S m ih
  case tuple => intro R Ts fs gs hR _ ih; exact ⟨hR, rfl, fun hd i => ih hd i i⟩
  case struct =>
    intro ε R tag conv Ts fs gs hR _ ih
    exact ⟨hR, rfl, fun hd i => so_bind (so_convert hR _) fun _ => ih hd i i⟩
  case choice =>
    intro ε R k conv Ts vs ws hR _ ih
    refine ⟨hR, (ih k conv hR).1, fun hd i => ?_⟩
    cases k with
    | explicit => exact so_bind (so_convert hR _) fun _ => (ih _ conv hR).2 hd i
    | implicit => exact (ih _ conv hR).2 hd i
    | untagged => exact (ih _ conv hR).2 hd i
  case enum =>
    intro ε R conv p ds hR
    refine ⟨hR, rfl, fun hd i => ?_⟩
    refine so_bind (so_convert hR _) fun _ => so_bind (so_convert hR _) fun ⟨r, n⟩ => ?_
    show SameOutcome R (match ds.finIdxOf? n with
      | some k => .ok (r, k)
      | none => nomErr i (.unexpectedTag none hd.tag)) (match ds.finIdxOf? n with
      | some k => .ok (r, k)
      | none => nomErrG conv i (.unexpectedTag none hd.tag))
    cases ds.finIdxOf? n with
    | some k => exact so_ok _ _
    | none => exact so_nomErr hR _ _
  case alias =>
    intro ε ε' α R R' p g f conv hR hf _ ih
    exact ⟨hR, ih.accept, fun hd i => so_bind (so_map hf (ih.content hd i)) fun ⟨_, _⟩ => so_ok _ _⟩
  case fnil => intro ε R hd orig i; rfl
  case req =>
    intro ε ε' T R R' Ts p g fs gs tag f hf _ _ ih ihs hd orig i
    refine so_bind (so_map hf (so_required m tag ih i)) fun ⟨r, v⟩ => ?_
    exact so_bind (ihs hd orig r) fun ⟨_, _⟩ => so_ok _ _
  case opt =>
    intro ε ε' T R R' Ts p g fs gs tag f fh hf hh _ _ ih ihs hd orig i
    refine so_bind (so_optional m tag f fh hf hh ih i) fun ⟨r, v⟩ => ?_
    exact so_bind (ihs hd orig r) fun ⟨_, _⟩ => so_ok _ _
  case dflt =>
    intro ε ε' T R R' Ts p g fs gs tag f fh x hf hh _ _ ih ihs hd orig i
    refine so_bind (so_bind (so_optional m tag f fh hf hh ih i) fun ⟨r, v⟩ => so_ok _ _)
      fun ⟨r, v⟩ => ?_
    exact so_bind (ihs hd orig r) fun ⟨_, _⟩ => so_ok _ _
  case custom =>
    intro ε T R Ts fs gs parse parse' hp _ ihs hd orig i
    refine so_bind (hp hd orig i) fun ⟨r, v⟩ => ?_
    exact so_bind (ihs hd orig r) fun ⟨_, _⟩ => so_ok _ _
  case vnil => intro ε R k conv hR; exact ⟨rfl, fun hd i => so_nomErr hR _ _⟩
  case vcons =>
    intro ε ε' T R R' Ts p g vs ws tag f hf _ _ ih ihs k conv hR
    have ha : ∀ t, variantAccept k tag p t = variantAcceptG k tag g t := by
      intro t
      cases k with
      | untagged => exact congrFun ih.accept t
      | explicit => rfl
      | implicit => rfl
    refine ⟨funext fun t => ?_, fun hd i => ?_⟩
    · show (variantAccept k tag p t || vs.accept k t) = (variantAcceptG k tag g t || ws.accept k t)
      rw [ha, (ihs k conv hR).1]
    · unfold Variants.content GVariants.content
      rw [ha]
      refine so_ite (fun _ => ?_) fun _ => ?_
      · refine so_bind (so_map hf ?_) fun ⟨_, _⟩ => so_ok _ _
        cases k with
        | explicit => exact ih.parse m i
        | implicit => exact ih.content hd i
        | untagged => exact ih.content hd i
      · exact so_bind ((ihs k conv hR).2 hd i) fun ⟨_, _⟩ => so_ok _ _

/-! ### The byte-slice API -/

section Slice
variable {R : Error → ε → Prop}

theorem ss_convert {conv : Error → ε} (hR : ∀ b, R b (conv b)) (x : Except SErr β) :
    SameOutcomeS R x (convertS conv x) := by
  cases x with
  | ok a => rfl
  | error e =>
    cases e with
    | error e => exact hR e
    | incomplete n => rfl
    | panic => trivial
    | diverge => trivial

theorem ss_bind {x : Except SErr β} {y : Except (NErr ε) β}
    {f : β → Except SErr γ} {g : β → Except (NErr ε) γ} (h : SameOutcomeS R x y)
    (hf : ∀ a, SameOutcomeS R (f a) (g a)) : SameOutcomeS R (x >>= f) (y >>= g) := by
  cases x with
  | ok a =>
    cases y with
    | ok b => cases (show a = b from h); exact hf a
    | error e => exact h.elim
  | error e =>
    cases y with
    | ok b => cases e <;> exact h.elim
    | error e' => cases e <;> cases e' <;> exact h

theorem ss_map {R' : Error → ε' → Prop} {f : ε' → ε} (hf : ∀ b e, R' b e → R b (f e))
    {x : Except SErr β} {y : Except (NErr ε') β}
    (h : SameOutcomeS R' x y) : SameOutcomeS R x (mapErrG f y) := by
  cases x with
  | ok a =>
    cases y with
    | ok b => exact h
    | error e => exact h.elim
  | error e =>
    cases y with
    | ok b => cases e <;> exact h.elim
    | error e' =>
      cases e <;> cases e' <;> first | exact h | exact hf _ _ h

theorem ss_ite {c : Prop} [Decidable c] {x x' : Except SErr β} {y y' : Except (NErr ε) β}
    (h : c → SameOutcomeS R x y) (h' : ¬ c → SameOutcomeS R x' y') :
    SameOutcomeS R (if c then x else x') (if c then y else y') := by
  by_cases hc : c
  · rw [if_pos hc, if_pos hc]; exact h hc
  · rw [if_neg hc, if_neg hc]; exact h' hc

/-- `?` from `nom::Err<Error>` to `Error`. -/
def flatS (x : Except SErr β) : Except SErr β :=
  match x with
  | .ok a => .ok a
  | .error e => .error e.flatten

theorem flatS_bind (x : Except SErr β) (f : β → Except SErr γ) :
    flatS (x >>= f) = (flatS x >>= fun a => flatS (f a)) := by
  cases x <;> rfl

theorem ss_flat {conv : Error → ε} (hR : ∀ b, R b (conv b)) {x : Except SErr β}
    {y : Except (NErr ε) β} (h : SameOutcomeS R x y) :
    SameOutcomeS R (flatS x) (flattenG conv y) := by
  cases x with
  | ok a =>
    cases y with
    | ok b => exact h
    | error e => exact h.elim
  | error e =>
    cases y with
    | ok b => cases e <;> exact h.elim
    | error e' =>
      cases e <;> cases e' <;> first | exact h | exact h.elim | skip
      rename_i n k
      cases (show n = k from h)
      exact hR _

/-- The errors of a field under the given rules. -/
def fieldS (m : Rules) (x : Except SErr β) : Except SErr β :=
  match m with
  | .ber => flatS x
  | .der => x

theorem fieldS_bind (m : Rules) (x : Except SErr β) (f : β → Except SErr γ) :
    fieldS m (x >>= f) = (fieldS m x >>= fun a => fieldS m (f a)) := by
  cases m with
  | ber => exact flatS_bind x f
  | der => rfl

theorem fieldS_ok (m : Rules) (a : β) : fieldS m (.ok a) = .ok a := by cases m <;> rfl
theorem fieldS_pure (m : Rules) (a : β) : fieldS m (pure a) = .ok a := by cases m <;> rfl

theorem fieldS_ite (m : Rules) {c : Prop} [Decidable c] (x y : Except SErr β) :
    fieldS m (if c then x else y) = if c then fieldS m x else fieldS m y := by
  split <;> rfl

theorem ss_sliceErr {R' : Error → ε' → Prop} {f : ε' → ε} {conv : Error → ε} (m : Rules)
    (hf : ∀ b e, R' b e → R b (f e)) (hR : ∀ b, R b (conv b)) {x : Except SErr β}
    {y : Except (NErr ε') β} (h : SameOutcomeS R' x y) :
    SameOutcomeS R (fieldS m x) (sliceErr m f conv y) := by
  cases m with
  | ber => exact ss_flat hR (ss_map hf h)
  | der => exact ss_map hf h

/-- What `RetypedS` gives. -/
structure InvS (R : Error → ε → Prop) (ty : SliceType α) (g : GSlice ε α) : Prop where
  conv : ∀ b, R b (g.conv b)
  accept : ty.acceptTag = g.acceptTag
  tag : ty.tag = g.tag
  from_ : ∀ bs, SameOutcomeS R (ty.from_ bs) (g.from_ bs)
  tryFrom : ∀ a, SameOutcomeS R (ty.tryFrom a) (g.tryFrom a)

theorem ss_fromBer {conv : Error → ε} (hR : ∀ b, R b (conv b)) {t : Any → Except SErr α}
    {u : Any → Except (NErr ε) α} (h : ∀ a, SameOutcomeS R (t a) (u a)) (bs : Bytes) :
    SameOutcomeS R (fromBerWith t bs) (fromBerG conv u bs) := by
  unfold fromBerWith fromBerG
  refine ss_bind (ss_convert hR _) fun ⟨i, a⟩ => ?_
  exact ss_bind (h a) fun _ => rfl

theorem ss_class {conv : Error → ε} (hR : ∀ b, R b (conv b)) (e : Error) :
    SameOutcomeS (β := β) R (.error (.error e)) (.error (.error (conv e))) := hR e

theorem ss_explicitTryFrom {ty : SliceType α} {g : GSlice ε α} (cls : Class) (n : Nat)
    (h : InvS R ty g) (a : Any) :
    SameOutcomeS R (explicitTryFrom cls n ty.from_ a) (explicitTryFromG cls n g a) := by
  unfold explicitTryFrom explicitTryFromG
  refine ss_bind (ss_convert h.conv _) fun _ => ss_bind (ss_convert h.conv _) fun _ => ?_
  refine ss_ite (fun _ => ss_class h.conv _) fun _ => ?_
  have hb := ss_bind (ss_flat h.conv (h.from_ a.data.data)) (f := fun x : Bytes × α => .ok (⟨x.2⟩ : TaggedValue α))
    (g := fun x : Bytes × α => .ok ⟨x.2⟩) fun _ => rfl
  cases hx : ty.from_ a.data.data with
  | ok x => rw [hx] at hb; exact hb
  | error e => rw [hx] at hb; exact hb

theorem ss_implicitTryFrom {ty : SliceType α} {g : GSlice ε α} (cls : Class) (n : Nat)
    (h : InvS R ty g) (a : Any) :
    SameOutcomeS R (implicitTryFrom cls n ty.tag ty.tryFrom a) (implicitTryFromG cls n g a) := by
  unfold implicitTryFrom implicitTryFromG
  refine ss_bind (ss_convert h.conv _) fun _ => ?_
  refine ss_ite (fun _ => ss_class h.conv _) fun _ => ?_
  rw [h.tag]
  exact ss_bind (h.tryFrom _) fun _ => rfl

theorem ss_tagged {ty : SliceType α} {g : GSlice ε α} (m : Rules) (tag : FieldTag)
    (h : InvS R ty g) (i : Bytes) : SameOutcomeS R (ty.tagged m tag i) (g.tagged m tag i) := by
  cases tag with
  | untagged => exact h.from_ i
  | explicit cls n =>
    cases m with
    | ber => exact ss_bind (ss_fromBer h.conv (ss_explicitTryFrom cls n h) i) fun _ => rfl
    | der =>
      refine ss_bind (?_ : SameOutcomeS R (explicitFromDer cls n ty.from_ i)
        (explicitFromDerG cls n g i)) fun _ => rfl
      unfold explicitFromDer explicitFromDerG
      refine ss_bind (ss_convert h.conv _) fun ⟨r, a⟩ => ?_
      refine ss_bind (ss_convert h.conv _) fun _ => ss_bind (ss_convert h.conv _) fun _ => ?_
      refine ss_ite (fun _ => ss_class h.conv _) fun _ => ?_
      exact ss_bind (h.from_ _) fun _ => rfl
  | implicit cls n =>
    cases m with
    | ber => exact ss_bind (ss_fromBer h.conv (ss_implicitTryFrom cls n h) i) fun _ => rfl
    | der =>
      refine ss_bind (?_ : SameOutcomeS R (implicitFromDer cls n ty.tag ty.tryFrom i)
        (implicitFromDerG cls n g i)) fun _ => rfl
      unfold implicitFromDer implicitFromDerG
      refine ss_bind (ss_convert h.conv _) fun ⟨r, a⟩ => ?_
      exact ss_bind (ss_implicitTryFrom cls n h a) fun _ => rfl

theorem ss_optionFrom {ty : SliceType α} {g : GSlice ε α} (m : Rules) (h : InvS R ty g)
    (i : Bytes) : SameOutcomeS R (optionFrom ty.acceptTag m.header ty.from_ i) (optionFromG m g i) := by
  unfold optionFrom optionFromG
  rw [h.accept]
  refine ss_ite (fun _ => rfl) fun _ => ?_
  refine ss_ite (fun _ => rfl) fun _ => ?_
  have hb := ss_bind (h.from_ i) (f := fun x : Bytes × α => .ok (x.1, some x.2))
    (g := fun x : Bytes × α => .ok (x.1, some x.2)) fun _ => rfl
  cases hx : ty.from_ i with
  | ok x => rw [hx] at hb; exact hb
  | error e => rw [hx] at hb; exact hb

theorem ss_optTagged {R' : Error → ε' → Prop} {ty : SliceType α} {g : GSlice ε' α} (m : Rules)
    (tag : FieldTag) (n : Nat) {conv : Error → ε} (f : ε' → ε) (fh : Error → ε)
    (hR : ∀ b, R b (conv b)) (hf : ∀ b e, R' b e → R b (f e)) (hh : ∀ b, R b (fh b))
    (h : InvS R' ty g) (i : Bytes) :
    SameOutcomeS R (fieldS m (ty.optTagged m tag n i)) (optTaggedSliceG m conv f fh tag n g i) := by
  unfold SliceType.optTagged optTaggedSliceG
  rw [fieldS_ite]
  refine ss_ite (fun _ => by rw [fieldS_ok]; rfl) fun _ => ?_
  rw [fieldS_bind]
  refine ss_bind (ss_sliceErr (R' := fun a b => a = b) m (fun b e hb => by cases hb; exact hh b) hR
    (ss_convert (conv := id) (fun _ => rfl) _)) fun ⟨_, hd⟩ => ?_
  rw [fieldS_ite]
  refine ss_ite (fun _ => ?_) fun _ => by rw [fieldS_pure]; rfl
  rw [fieldS_bind]
  exact ss_bind (ss_sliceErr m hf hR (ss_tagged m tag h i)) fun ⟨_, _⟩ => by
    rw [fieldS_pure]; rfl

theorem ss_optional {R' : Error → ε' → Prop} {ty : SliceType α} {g : GSlice ε' α} (m : Rules)
    (tag : FieldTag) {conv : Error → ε} (f : ε' → ε) (fh : Error → ε)
    (hR : ∀ b, R b (conv b)) (hf : ∀ b e, R' b e → R b (f e)) (hh : ∀ b, R b (fh b))
    (h : InvS R' ty g) (i : Bytes) :
    SameOutcomeS R (fieldS m (ty.optional m tag i)) (optionalSliceG m conv f fh tag g i) := by
  cases tag with
  | untagged => exact ss_sliceErr m hf hR (ss_optionFrom m h i)
  | explicit cls n => exact ss_optTagged m _ n f fh hR hf hh h i
  | implicit cls n => exact ss_optTagged m _ n f fh hR hf hh h i

theorem ss_tryFrom {conv : Error → ε} (hR : ∀ b, R b (conv b)) (tag : Nat) {Ts : List Type}
    {fs : SliceFields Ts} {gs : GSliceFields ε Ts}
    (h : ∀ i, SameOutcomeS R (fieldS .ber (fs.run .ber i)) (gs.run .ber conv i)) (a : Any) :
    SameOutcomeS R (structTryFrom tag fs a) (structTryFromG tag conv gs a) := by
  unfold structTryFrom structTryFromG
  refine ss_bind (ss_convert hR _) fun _ => ?_
  have hb := ss_bind (h a.data.data) (f := fun x : Bytes × Tup Ts => .ok x.2)
    (g := fun x : Bytes × Tup Ts => .ok x.2) fun _ => rfl
  cases hx : fs.run .ber a.data.data with
  | ok x => rw [hx] at hb; exact hb
  | error e => rw [hx] at hb; exact hb

theorem ss_next {conv : Error → ε} (hR : ∀ b, R b (conv b)) {f : Bytes → Except SErr (Bytes × α)}
    {g : Bytes → Except (NErr ε) (Bytes × α)} (h : ∀ bs, SameOutcomeS R (f bs) (g bs)) :
    ∀ (fuel : Nat) (it : SeqIter), SameOutcomeS R (SeqIter.collect f fuel it) (SeqIter.collectG conv g fuel it)
  | 0, _ => trivial
  | fuel + 1, it => by
    unfold SeqIter.collect SeqIter.collectG SeqIter.next SeqIter.nextG
    by_cases hi : (it.hasError || it.data.isEmpty) = true
    · rw [if_pos hi, if_pos hi]; rfl
    · rw [if_neg hi, if_neg hi]
      have hd := h it.data
      cases hf : f it.data with
      | ok x =>
        rw [hf] at hd
        cases hg : g it.data with
        | ok y =>
          rw [hg] at hd
          cases (show x = y from hd)
          have ih := ss_next hR h fuel { it with data := x.1 }
          simp only
          cases h1 : SeqIter.collect f fuel { it with data := x.1 } with
          | ok vs =>
            rw [h1] at ih
            cases h2 : SeqIter.collectG conv g fuel { it with data := x.1 } with
            | ok ws => rw [h2] at ih; cases (show vs = ws from ih); rfl
            | error e => rw [h2] at ih; exact ih.elim
          | error e =>
            rw [h1] at ih
            cases h2 : SeqIter.collectG conv g fuel { it with data := x.1 } with
            | ok ws => rw [h2] at ih; cases e <;> exact ih.elim
            | error e' => rw [h2] at ih; cases e <;> cases e' <;> exact ih
        | error e => rw [hg] at hd; exact hd.elim
      | error e =>
        rw [hf] at hd
        cases hg : g it.data with
        | ok y => rw [hg] at hd; cases e <;> exact hd.elim
        | error e' =>
          rw [hg] at hd
          cases e <;> cases e' <;> first | exact hd.elim | trivial | exact hd | skip
          rename_i n k
          cases (show n = k from hd)
          exact hR _

theorem inv_listDer {ty : SliceType α} {g : GSlice ε α} (tag : Nat) (tf : Any → Except SErr (List α))
    (h : InvS R ty g) : InvS R (listDerType tag tf ty) (listDerTypeG tag tf g) := by
  refine ⟨h.conv, rfl, rfl, fun bs => ?_, fun a => ss_convert h.conv (tf a)⟩
  refine ss_bind (ss_convert h.conv _) fun ⟨r, a⟩ => ss_bind (ss_convert h.conv _) fun _ => ?_
  exact ss_bind (ss_next h.conv h.from_ _ _) fun _ => rfl

theorem inv_setDer {σ : Type} {ty : SliceType α} {g : GSlice ε α} (S : SetImpl α σ) (tf : Any → Except SErr σ)
    (h : InvS R ty g) : InvS R (setDerType S tf ty) (setDerTypeG S tf g) := by
  refine ⟨h.conv, rfl, rfl, fun bs => ?_, fun a => ss_convert h.conv (tf a)⟩
  refine ss_bind (ss_convert h.conv _) fun ⟨r, a⟩ => ss_bind (ss_convert h.conv _) fun _ => ?_
  refine ss_bind (ss_convert h.conv _) fun _ => ?_
  exact ss_bind (ss_next h.conv h.from_ _ _) fun _ => rfl

theorem inv_retypedS {m : Rules} {ty : SliceType α} {g : GSlice ε α} (h : RetypedS m R ty g) :
    InvS R ty g := by
  refine RetypedS.rec
    (motive_1 := fun _ {ε α} R ty g _ => InvS R ty g)
    (motive_2 := fun m {ε} R {Ts} fs gs _ => ∀ conv : Error → ε, (∀ b, R b (conv b)) → ∀ i,
      SameOutcomeS R (fieldS m (fs.run m i)) (gs.run m conv i))
    ?plain ?ber ?der ?list ?set ?nil ?req ?opt ?dflt h
  case plain =>
    intro m α R ty hR
    exact ⟨hR, rfl, rfl, fun _ => ss_convert (conv := id) hR _, fun _ => ss_convert (conv := id) hR _⟩
  case ber =>
    intro ε R tag conv Ts fs gs hR _ ih
    have ht := ss_tryFrom hR tag (ih conv hR)
    exact ⟨hR, rfl, rfl, ss_fromBer hR ht, ht⟩
  case der =>
    intro ε R tag conv Ts fs ds gs dgs hR _ _ ih ihd
    have ht := ss_tryFrom hR tag (ih conv hR)
    refine ⟨hR, rfl, rfl, fun bs => ?_, ht⟩
    show SameOutcomeS R (structFromDer tag ds bs) (structFromDerG tag conv dgs bs)
    unfold structFromDer structFromDerG
    refine ss_bind (ss_convert hR _) fun ⟨r, a⟩ => ?_
    refine ss_bind (ss_convert hR _) fun _ => ?_
    exact ss_bind (ihd conv hR a.data.data) fun _ => rfl
  case list => intro ε α R ty g tag tf _ ih; exact inv_listDer tag tf ih
  case set => intro ε α σ R ty g S tf _ ih; exact inv_setDer S tf ih
  case nil => intro m ε R conv hR i; show SameOutcomeS R (fieldS m (.ok (i, ()))) (.ok (i, ())); rw [fieldS_ok]; rfl
  case req =>
    intro m ε ε' T R R' Ts ty g fs gs tag f hf _ _ ih ihs conv hR i
    show SameOutcomeS R (fieldS m (ty.tagged m tag i >>= fun x => fs.run m x.1 >>= fun y => pure (y.1, (x.2, y.2)))) _
    rw [fieldS_bind]
    refine ss_bind (ss_sliceErr m hf hR (ss_tagged m tag ih i)) fun ⟨r, v⟩ => ?_
    rw [fieldS_bind]
    exact ss_bind (ihs conv hR r) fun ⟨_, _⟩ => by rw [fieldS_pure]; rfl
  case opt =>
    intro m ε ε' T R R' Ts ty g fs gs tag f fh hf hh _ _ ih ihs conv hR i
    show SameOutcomeS R (fieldS m (ty.optional m tag i >>= fun x => fs.run m x.1 >>= fun y => pure (y.1, (x.2, y.2)))) _
    rw [fieldS_bind]
    refine ss_bind (ss_optional m tag f fh hR hf hh ih i) fun ⟨r, v⟩ => ?_
    rw [fieldS_bind]
    exact ss_bind (ihs conv hR r) fun ⟨_, _⟩ => by rw [fieldS_pure]; rfl
  case dflt =>
    intro m ε ε' T R R' Ts ty g fs gs tag f fh x hf hh _ _ ih ihs conv hR i
    show SameOutcomeS R (fieldS m ((ty.optional m tag i >>= fun y => pure (y.1, y.2.getD x)) >>= fun x => fs.run m x.1 >>= fun y => pure (y.1, (x.2, y.2)))) _
    rw [fieldS_bind, fieldS_bind]
    refine ss_bind (ss_bind (ss_optional m tag f fh hR hf hh ih i) fun ⟨r, v⟩ => by
      rw [fieldS_pure]; rfl) fun ⟨r, v⟩ => ?_
    rw [fieldS_bind]
    exact ss_bind (ihs conv hR r) fun ⟨_, _⟩ => by rw [fieldS_pure]; rfl

end Slice

end Asn1

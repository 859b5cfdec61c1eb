import Verif.Spec.Recursive
import Verif.Proofs.Built
import Verif.Proofs.Weight
/-!
# Types that contain themselves: what is read depends on smaller objects only
-/
namespace Asn1
open Spec
variable {α β ρ : Type}

/-- The same answers on contents of fewer than `n` bytes. -/
def AgreeBelow (n : Nat) (p q : Parser α) : Prop :=
  0 < n → p.acceptTag = q.acceptTag ∧ ∀ h i, i.data.length < n → p.content h i = q.content h i

/-- The same answers on inputs of at most `n` bytes. -/
def AgreeUpTo (n : Nat) (f g : Input → PRes α) : Prop := ∀ i, i.data.length ≤ n → f i = g i

theorem header_shrinks {m : Rules} {i r : Input} {h : Header} (hp : m.header i = .ok (r, h)) :
    r.data.length + 2 ≤ i.data.length := by
  have key : parseHeader i = .ok (r, h) := by
    cases m
    · exact hp
    · exact (parseHeaderDer_ok.mp hp).1
  obtain ⟨k, hk, hk', rfl⟩ := parseHeader_consumes key
  rw [after_data, List.length_drop]; omega

theorem takeS_shrinks {n : Nat} {i r d : Input} (h : takeS n i = .ok (r, d)) :
    r.data.length + d.data.length ≤ i.data.length := by
  rw [takeS_eq] at h
  split at h
  · injection h with h; injection h with h1 h2
    subst h1 h2
    rw [after_data, first_data, List.length_take, List.length_drop]; omega
  · cases h

/-- A parser that agrees on contents agrees on objects two bytes longer. -/
theorem shorter_parse {n : Nat} {p q : Parser α} (h : AgreeBelow n p q) (m : Rules) :
    AgreeUpTo (n + 1) (m.parse p) (m.parse q) := by
  intro i hi
  cases m
  · show p.parseBer i = q.parseBer i
    unfold Parser.parseBer
    refine bind_congr_ok fun x hx => ?_
    have hx' := header_shrinks (m := .ber) hx
    obtain ⟨ha, hc⟩ := h (by omega)
    simp only [ha]
    split
    · rfl
    · refine bind_congr_ok fun y hy => ?_
      have := berContent_len hy
      rw [hc _ _ (by omega)]
  · show p.parseDer i = q.parseDer i
    unfold Parser.parseDer
    refine bind_congr_ok fun x hx => ?_
    have hx' := header_shrinks (m := .der) hx
    obtain ⟨ha, hc⟩ := h (by omega)
    simp only [ha]
    refine bind_congr_ok fun l _ => ?_
    split
    · rfl
    · refine bind_congr_ok fun y hy => ?_
      have := takeS_shrinks hy
      rw [hc _ _ (by omega)]

theorem shorter_mono {n m : Nat} {p q : Parser α} (h : AgreeBelow n p q) (hm : m ≤ n) : AgreeBelow m p q :=
  fun h0 => ⟨(h (by omega)).1, fun hd i hi => (h (by omega)).2 hd i (by omega)⟩

theorem shorter_same (n : Nat) (p : Parser α) : AgreeBelow n p p := fun _ => ⟨rfl, fun _ _ _ => rfl⟩

theorem shorter_map {n : Nat} {p q : Parser α} (h : AgreeBelow n p q) (f : α → β) :
    AgreeBelow n (p.map f) (q.map f) := fun h0 =>
  ⟨(h h0).1, fun hd i hi => by
    unfold Parser.map
    simp only
    rw [(h h0).2 hd i hi]⟩

/-- What `Any` needs: the item and the remainder share what is left after the header. -/
def Shrinks (parse : Input → PRes Any) : Prop :=
  ∀ i r a, parse i = .ok (r, a) → 2 + r.data.length + a.data.data.length ≤ i.data.length

theorem shrinks_ber : Shrinks anyBer.parseBer := fun _ _ _ h => berAny_len (anyBer_parseBer ▸ h)
theorem shrinks_der : Shrinks anyDer.parseDer := fun _ _ _ h => derAny_len (anyDer_parseDer ▸ h)

theorem next_shrinks {parse : Input → PRes Any} (hs : Shrinks parse) {it it' : AnyIter} {span : Input} {a : Any}
    (h : it.next parse = .ok (some (.obj span a), it')) :
    2 + it'.input.data.length + a.data.data.length ≤ it.input.data.length := by
  unfold AnyIter.next at h
  split at h
  · cases h
  · split at h
    · rename_i rem obj hp
      split at h
      · cases h
      · obtain ⟨d, _, h2⟩ := bind_eq_ok.mp h
        injection h2 with h2; injection h2 with h2 h3
        injection h2 with h2; injection h2 with _ h2
        subst h2 h3
        exact hs _ _ _ hp
    · injection h with h; injection h with h; injection h with h; cases h
    · injection h with h; injection h with h; injection h with h; cases h
    · cases h
    · cases h

theorem shorter_forIter {σ : Type} {parse : Input → PRes Any} (hs : Shrinks parse)
    {f g : σ → Any → Except PErr (Bool × σ)} {n : Nat}
    (hfg : ∀ s a, a.data.data.length + 2 ≤ n → f s a = g s a) (fuel : Nat) (it : AnyIter) (s : σ)
    (hn : it.input.data.length ≤ n) : forIter parse f fuel it s = forIter parse g fuel it s := by
  induction fuel generalizing it s with
  | zero => rfl
  | succ fuel ih =>
    unfold forIter
    cases hx : it.next parse with
    | error e => rfl
    | ok x =>
      obtain ⟨o, it'⟩ := x
      cases o with
      | none => rfl
      | some o =>
        cases o with
        | err i e => rfl
        | obj span a =>
          have := next_shrinks hs hx
          simp only
          rw [hfg s a (by omega)]
          cases g s a with
          | error e => rfl
          | ok y =>
            obtain ⟨b, s'⟩ := y
            cases b
            · rfl
            · exact ih _ _ (by omega)

theorem shorter_collect {parse : Input → PRes Any} (hs : Shrinks parse) {p q : Parser α} {n : Nat}
    (h : AgreeBelow n p q) (i : Input) (hi : i.data.length ≤ n + 1) :
    (AnyIter.new i).tryParseCollect parse p = (AnyIter.new i).tryParseCollect parse q := by
  unfold AnyIter.tryParseCollect
  rw [shorter_forIter hs (g := parseCollectStep q) (n := n + 1) (fun s a ha => ?_) _ _ _ hi]
  unfold parseCollectStep
  obtain ⟨h1, h2⟩ := h (by omega)
  rw [h1, h2 _ _ (by omega)]

theorem shorter_vec {parse : Input → PRes Any} (hs : Shrinks parse) {p q : Parser α} {n : Nat}
    (h : AgreeBelow n p q) : AgreeBelow (n + 2) (vecP parse p) (vecP parse q) := fun _ =>
  ⟨rfl, fun hd i hi => by
    unfold vecP
    simp only
    refine bind_congr_ok fun _ _ => ?_
    split
    · rfl
    · exact shorter_collect hs h i (by omega)⟩

theorem shorter_sequenceOf {parse : Input → PRes Any} (hs : Shrinks parse) {p q : Parser α} {n : Nat}
    (h : AgreeBelow n p q) : AgreeBelow (n + 2) (sequenceOfP parse p) (sequenceOfP parse q) := by
  rw [sequenceOf_map, sequenceOf_map]
  exact shorter_map (shorter_vec hs h) _

theorem shorter_setItems {parse : Input → PRes Any} (hs : Shrinks parse) {p q : Parser α} {n : Nat}
    (h : AgreeBelow n p q) : AgreeBelow (n + 2) (setItemsP parse p) (setItemsP parse q) := fun _ =>
  ⟨rfl, fun hd i hi => by
    unfold setItemsP
    simp only
    exact bind_congr_ok fun _ _ => shorter_collect hs h i (by omega)⟩

theorem shorter_array (N : Nat) {parse : Input → PRes Any} (hs : Shrinks parse) {p q : Parser α} {n : Nat}
    (h : AgreeBelow n p q) : AgreeBelow (n + 2) (arrayP N parse p) (arrayP N parse q) := fun _ =>
  ⟨rfl, fun hd i hi => by
    unfold arrayP
    simp only
    rw [((shorter_vec hs h) (by omega)).2 hd i hi]⟩

theorem shorter_explicit {f g : Input → PRes α} {n : Nat} (cls : Class) (tag : Nat) (h : AgreeUpTo (n + 1) f g) :
    AgreeBelow (n + 2) (explicitP cls tag f) (explicitP cls tag g) := fun _ =>
  ⟨rfl, fun hd i hi => by
    unfold explicitP
    simp only
    rw [h i (by omega)]⟩

theorem shorter_implicit {p q : Parser α} {n : Nat} (cls : Class) (tag : Nat) (h : AgreeBelow n p q) :
    AgreeBelow n (implicitP cls tag p) (implicitP cls tag q) := fun h0 =>
  ⟨rfl, fun hd i hi => by
    unfold implicitP
    simp only
    rw [(h h0).2 hd i hi]⟩

/-! ### Fields -/

theorem shorter_tagged {p q : Parser (TaggedValue α)} {n : Nat} (m : Rules) (h : AgreeBelow n p q) :
    AgreeUpTo (n + 1) (taggedField m p) (taggedField m q) := fun i hi => by
  unfold taggedField
  rw [shorter_parse h m i hi]

theorem shorter_required {p q : Parser α} {n : Nat} (m : Rules) (tag : FieldTag) (h : AgreeBelow n p q) :
    AgreeUpTo (n + 1) (requiredField m tag p) (requiredField m tag q) := by
  cases tag with
  | untagged => exact shorter_parse h m
  | explicit cls k => exact shorter_tagged m (shorter_mono (shorter_explicit cls k (shorter_parse h m)) (by omega))
  | implicit cls k => exact shorter_tagged m (shorter_implicit cls k h)

theorem shorter_optTagged {p q : Parser (TaggedValue α)} {n : Nat} (m : Rules) (k : Nat) (h : AgreeBelow n p q) :
    AgreeUpTo (n + 1) (optTaggedField m k p) (optTaggedField m k q) := fun i hi => by
  unfold optTaggedField
  rw [shorter_parse h m i hi]

theorem shorter_option {p q : Parser α} {n : Nat} (m : Rules) (h : AgreeBelow n p q) :
    AgreeUpTo (n + 1) (optionParse m.header p) (optionParse m.header q) := fun i hi => by
  unfold optionParse
  split
  · rfl
  · refine bind_congr_ok fun x hx => ?_
    have hx' := header_shrinks hx
    obtain ⟨ha, hc⟩ := h (by omega)
    simp only [ha]
    split
    · rfl
    · refine bind_congr_ok fun y hy => ?_
      have hy' := berContent_len hy
      unfold optionContent
      rw [ha]
      have : ∀ z : Input, (do let (rem, data) ← berContent x.2 z MAX_RECURSION; let (_, obj) ← p.content x.2 data; pure (rem, some obj) : PRes (Option α)) = (do let (rem, data) ← berContent x.2 z MAX_RECURSION; let (_, obj) ← q.content x.2 data; pure (rem, some obj)) ∨ n ≤ z.data.length := by
        intro z
        by_cases hz : z.data.length < n
        · refine .inl (bind_congr_ok fun w hw => ?_)
          have := berContent_len hw
          simp only
          rw [hc _ _ (by omega)]
        · exact .inr (by omega)
      rcases this y.2 with h' | h'
      · rw [h']
      · omega

theorem shorter_optional {p q : Parser α} {n : Nat} (m : Rules) (tag : FieldTag) (h : AgreeBelow n p q) :
    AgreeUpTo (n + 1) (optionalField m tag p) (optionalField m tag q) := by
  cases tag with
  | untagged => exact shorter_option m h
  | explicit cls k => exact shorter_optTagged m k (shorter_mono (shorter_explicit cls k (shorter_parse h m)) (by omega))
  | implicit cls k => exact shorter_optTagged m k (shorter_implicit cls k h)

/-- The components of a tuple, or the fields of a struct. -/
inductive AgreeEach (n : Nat) : {Ts : List Type} → TupFns Ts → TupFns Ts → Prop
  | nil : AgreeEach n .nil .nil
  | cons {T : Type} {Ts : List Type} {f g : Input → PRes T} {fs gs : TupFns Ts} (h : AgreeUpTo n f g)
      (hf : ∀ i r v, f i = .ok (r, v) → r.data.length ≤ i.data.length) (ht : AgreeEach n fs gs) :
      AgreeEach n (.cons f fs) (.cons g gs)

theorem shorter_run {n : Nat} {Ts : List Type} {fs gs : TupFns Ts} (h : AgreeEach n fs gs) (i : Input)
    (hi : i.data.length ≤ n) : fs.run i = gs.run i := by
  induction h generalizing i with
  | nil => rfl
  | @cons T Ts f g fs gs h hf ht ih =>
    unfold TupFns.run
    rw [← h i hi]
    refine bind_congr_ok fun x hx => ?_
    have := hf _ _ _ hx
    simp only
    rw [ih _ (by omega)]

theorem parse_len {m : Rules} {p : Parser α} {i r : Input} {v : α} (h : m.parse p i = .ok (r, v)) :
    r.data.length ≤ i.data.length := by
  cases m
  · obtain ⟨a, x, h1, _⟩ := parseBer_ok.mp h
    have := berAny_len h1
    omega
  · obtain ⟨a, x, h1, _⟩ := parseDer_ok.mp h
    have := derAny_len h1
    omega

theorem required_len {m : Rules} {tag : FieldTag} {p : Parser α} {i r : Input} {v : α}
    (h : requiredField m tag p i = .ok (r, v)) : r.data.length ≤ i.data.length := by
  cases tag with
  | untagged => exact parse_len h
  | explicit cls k => exact parse_len (taggedField_ok.mp h)
  | implicit cls k => exact parse_len (taggedField_ok.mp h)

theorem optTagged_len {m : Rules} {k : Nat} {p : Parser (TaggedValue α)} {i r : Input} {v : Option α}
    (h : optTaggedField m k p i = .ok (r, v)) : r.data.length ≤ i.data.length := by
  unfold optTaggedField at h
  split at h
  · injection h with h; injection h with h; subst h; exact Nat.le_refl _
  · obtain ⟨x, _, h2⟩ := bind_eq_ok.mp h
    simp only at h2
    split at h2
    · obtain ⟨y, h3, h4⟩ := bind_eq_ok.mp h2
      injection h4 with h4; injection h4 with h4; subst h4
      exact parse_len h3
    · injection h2 with h2; injection h2 with h2; subst h2; exact Nat.le_refl _

theorem optional_len {m : Rules} {tag : FieldTag} {p : Parser α} {i r : Input} {v : Option α}
    (h : optionalField m tag p i = .ok (r, v)) : r.data.length ≤ i.data.length := by
  cases tag with
  | untagged =>
    rcases optionParse_ok.mp h with ⟨x, _, h2, _⟩ | ⟨_, h2, _⟩
    · exact parse_len h2
    · subst h2; exact Nat.le_refl _
  | explicit cls k => exact optTagged_len h
  | implicit cls k => exact optTagged_len h

/-! ### CHOICE -/

theorem shorter_choice {n : Nat} {Ts : List Type} {vs ws : Variants Ts} (m : Rules) (k : ChoiceKind)
    (ha : 0 < n → vs.accept k = ws.accept k)
    (hc : 0 < n → ∀ h i, i.data.length < n → vs.content m k h i = ws.content m k h i) :
    AgreeBelow n (choiceP m k vs) (choiceP m k ws) := fun h0 =>
  ⟨ha h0, fun hd i hi => by
    have := hc h0 hd i hi
    cases k
    · show (_ >>= fun _ => vs.content m .explicit hd i) = (_ >>= fun _ => ws.content m .explicit hd i)
      rw [this]
    · exact this
    · exact this⟩

/-- What is shown of the variants of a CHOICE. -/
structure VariantsAgree (m : Rules) (n : Nat) {Ts : List Type} (vs ws : Variants Ts) : Prop where
  accept : ∀ k, (k = .untagged → 0 < n) → vs.accept k = ws.accept k
  inner : 0 < n → ∀ k h i, i.data.length < n → vs.content m k h i = ws.content m k h i
  explicit : ∀ h i, i.data.length < n + 2 → vs.content m .explicit h i = ws.content m .explicit h i

theorem variantsAgree_nil (m : Rules) (n : Nat) : VariantsAgree m n .nil .nil :=
  ⟨fun _ _ => rfl, fun _ _ _ _ _ => rfl, fun _ _ _ => rfl⟩

theorem variantsAgree_cons {m : Rules} {n : Nat} {T : Type} {Ts : List Type} {p q : Parser T}
    {vs ws : Variants Ts} (tag : Nat) (h : AgreeBelow n p q) (ht : VariantsAgree m n vs ws) :
    VariantsAgree m n (.cons tag p vs) (.cons tag q ws) := by
  have hacc : ∀ k, (k = .untagged → 0 < n) → ∀ t, variantAccept k tag p t = variantAccept k tag q t := by
    intro k hk t
    cases k
    · rfl
    · rfl
    · show p.acceptTag t = q.acceptTag t
      rw [(h (hk rfl)).1]
  refine ⟨fun k hk => funext fun t => ?_, fun h0 k hd i hi => ?_, fun hd i hi => ?_⟩
  · unfold Variants.accept
    rw [hacc k hk, ht.accept k hk]
  · unfold Variants.content
    rw [hacc k (fun _ => h0), ht.inner h0 k hd i hi]
    have : variantContent m k p hd i = variantContent m k q hd i := by
      cases k
      · exact shorter_parse h m i (by omega)
      · exact (h h0).2 hd i hi
      · exact (h h0).2 hd i hi
    rw [this]
  · unfold Variants.content
    rw [hacc .explicit (by simp), ht.explicit hd i hi]
    have : variantContent m .explicit p hd i = variantContent m .explicit q hd i :=
      shorter_parse h m i (by omega)
    rw [this]

/-! ### The texts of types -/

variable {real : Bool}

/-- How many bytes the headers take. -/
def guard (g : Bool) : Nat := if g then 2 else 0

/-- What is carried through the texts: agreement. -/
def Narrows (g : Bool) (F : Parser ρ → Parser α) : Prop :=
  ∀ n p q, AgreeBelow n p q → AgreeBelow (n + guard g) (F p) (F q)

theorem narrows_up {g : Bool} {F : Parser ρ → Parser α} (h : Narrows g F) {n : Nat} {p q : Parser ρ}
    (hn : AgreeBelow n p q) : AgreeBelow n (F p) (F q) := shorter_mono (h n p q hn) (by omega)

theorem selfType_narrows {g : Bool} {fb fd : Parser ρ → Parser α} (h : SelfType real ρ g fb fd) :
    Narrows g fb ∧ Narrows g fd := by
  refine SelfType.rec (real := real) (ρ := ρ)
    (motive_1 := fun g _ fb fd _ => Narrows g fb ∧ Narrows g fd)
    (motive_2 := fun {_} fb fd _ => ∀ n p q, AgreeBelow n p q →
      AgreeEach (n + 1) (fb p) (fb q) ∧ AgreeEach (n + 1) (fd p) (fd q))
    (motive_3 := fun {_} fb fd _ => ∀ n p q, AgreeBelow n p q →
      AgreeEach (n + 1) ((fb p).fns .ber) ((fb q).fns .ber) ∧ AgreeEach (n + 1) ((fd p).fns .der) ((fd q).fns .der))
    (motive_4 := fun g _ vb vd _ => ∀ n p q, AgreeBelow n p q →
      (VariantsAgree .ber (n + guard g) (vb p) (vb q) ∧ VariantsAgree .der (n + guard g) (vd p) (vd q)) ∧
      (VariantsAgree .ber n (vb p) (vb q) ∧ VariantsAgree .der n (vd p) (vd q)))
    ?_ ?_ ?_ ?_ ?_ ?_ ?_ ?_ ?_ ?_ ?_ ?_ ?_ ?_ ?_ ?_ ?_ ?_ ?_ ?_ ?_ ?_ ?_ h
  · exact ⟨fun n p q h => h, fun n p q h => h⟩
  · intro α pb pd _
    exact ⟨fun n p q _ => shorter_same _ _, fun n p q _ => shorter_same _ _⟩
  · rintro α fb fd _ ⟨h1, h2⟩
    exact ⟨fun n p q h => narrows_up h1 h, fun n p q h => narrows_up h2 h⟩
  · rintro g α β fb fd f _ ⟨h1, h2⟩
    exact ⟨fun n p q h => shorter_map (h1 n p q h) f, fun n p q h => shorter_map (h2 n p q h) f⟩
  · rintro g α fb fd _ ⟨h1, h2⟩
    exact ⟨fun n p q h => shorter_vec shrinks_ber (narrows_up h1 h),
      fun n p q h => shorter_vec shrinks_der (narrows_up h2 h)⟩
  · rintro g α fb fd _ ⟨h1, h2⟩
    exact ⟨fun n p q h => shorter_sequenceOf shrinks_ber (narrows_up h1 h),
      fun n p q h => shorter_sequenceOf shrinks_der (narrows_up h2 h)⟩
  · rintro g α fb fd _ ⟨h1, h2⟩
    exact ⟨fun n p q h => shorter_map (shorter_setItems shrinks_ber (narrows_up h1 h)) _,
      fun n p q h => shorter_map (shorter_setItems shrinks_der (narrows_up h2 h)) _⟩
  · rintro g α σ fb fd S _ ⟨h1, h2⟩
    exact ⟨fun n p q h => shorter_map (shorter_setItems shrinks_ber (narrows_up h1 h)) _,
      fun n p q h => shorter_map (shorter_setItems shrinks_der (narrows_up h2 h)) _⟩
  · rintro g α fb fd N _ ⟨h1, h2⟩
    exact ⟨fun n p q h => shorter_array N shrinks_ber (narrows_up h1 h),
      fun n p q h => shorter_array N shrinks_der (narrows_up h2 h)⟩
  · intro Ts fb fd _ ih
    exact ⟨fun n p q h _ => ⟨rfl, fun hd i hi => shorter_run (ih n p q h).1 i (by simp [guard] at hi; omega)⟩,
      fun n p q h _ => ⟨rfl, fun hd i hi => shorter_run (ih n p q h).2 i (by simp [guard] at hi; omega)⟩⟩
  · rintro g α fb fd cls tag _ ⟨h1, h2⟩
    exact ⟨fun n p q h => shorter_explicit cls tag (shorter_parse (m := .ber) (narrows_up h1 h)),
      fun n p q h => shorter_explicit cls tag (shorter_parse (m := .der) (narrows_up h2 h))⟩
  · rintro g α fb fd cls tag _ ⟨h1, h2⟩
    exact ⟨fun n p q h => shorter_implicit cls tag (h1 n p q h), fun n p q h => shorter_implicit cls tag (h2 n p q h)⟩
  · intro Ts fb fd tag _ ih
    exact ⟨fun n p q h _ => ⟨rfl, fun hd i hi => bind_congr_ok fun _ _ =>
        shorter_run (ih n p q h).1 i (by simp [guard] at hi; omega)⟩,
      fun n p q h _ => ⟨rfl, fun hd i hi => bind_congr_ok fun _ _ =>
        shorter_run (ih n p q h).2 i (by simp [guard] at hi; omega)⟩⟩
  · intro g Ts vb vd k _ ih
    have key : ∀ (m : Rules) (n : Nat) (vs ws : Variants Ts), VariantsAgree m (n + guard g) vs ws →
        VariantsAgree m n vs ws →
        AgreeBelow (n + guard (g || k == .explicit)) (choiceP m k vs) (choiceP m k ws) := by
      intro m n vs ws h1 h2
      by_cases hk : k = .explicit
      · subst hk
        refine shorter_choice m _ (fun _ => h2.accept _ (by simp)) fun _ hd i hi => h2.explicit hd i ?_
        simp [guard] at hi
        omega
      · have : (g || k == .explicit) = g := by cases k <;> simp_all
        rw [this]
        exact shorter_choice m _ (fun h0 => h1.accept _ fun _ => h0) fun h0 hd i hi => h1.inner h0 _ hd i hi
    exact ⟨fun n p q h => key .ber n _ _ (ih n p q h).1.1 (ih n p q h).2.1,
      fun n p q h => key .der n _ _ (ih n p q h).1.2 (ih n p q h).2.2⟩
  · rintro g α fb fd _ ⟨h1, h2⟩
    simp only [alias_map]
    exact ⟨fun n p q h => shorter_map (h1 n p q h) _, fun n p q h => shorter_map (h2 n p q h) _⟩
  · intro n p q _
    exact ⟨.nil, .nil⟩
  · rintro g T Ts fb fd gb gd _ _ ⟨h1, h2⟩ ih n p q h
    exact ⟨.cons (shorter_parse (m := .ber) (narrows_up h1 h)) (fun _ _ _ => parse_len (m := .ber)) (ih n p q h).1,
      .cons (shorter_parse (m := .der) (narrows_up h2 h)) (fun _ _ _ => parse_len (m := .der)) (ih n p q h).2⟩
  · intro n p q _
    exact ⟨.nil, .nil⟩
  · rintro g T Ts fb fd gb gd tag _ _ ⟨h1, h2⟩ ih n p q h
    exact ⟨.cons (shorter_required .ber tag (narrows_up h1 h)) (fun _ _ _ => required_len) (ih n p q h).1,
      .cons (shorter_required .der tag (narrows_up h2 h)) (fun _ _ _ => required_len) (ih n p q h).2⟩
  · rintro g T Ts fb fd gb gd tag _ _ ⟨h1, h2⟩ ih n p q h
    exact ⟨.cons (shorter_optional .ber tag (narrows_up h1 h)) (fun _ _ _ => optional_len) (ih n p q h).1,
      .cons (shorter_optional .der tag (narrows_up h2 h)) (fun _ _ _ => optional_len) (ih n p q h).2⟩
  · rintro g T Ts fb fd gb gd tag x _ _ ⟨h1, h2⟩ ih n p q h
    have key : ∀ (m : Rules) (f g : Parser T), AgreeBelow n f g →
        AgreeUpTo (n + 1) (Field.parse m (.default tag f x)) (Field.parse m (.default tag g x)) ∧
        ∀ i r v, Field.parse m (.default tag f x) i = .ok (r, v) → r.data.length ≤ i.data.length := by
      intro m f g hfg
      refine ⟨fun i hi => ?_, fun i r v hv => ?_⟩
      · show (optionalField m tag f i >>= _) = (optionalField m tag g i >>= _)
        rw [shorter_optional m tag hfg i hi]
      · replace hv : (optionalField m tag f i >>= fun y => .ok (y.1, y.2.getD x)) = .ok (r, v) := hv
        obtain ⟨y, h3, h4⟩ := bind_eq_ok.mp hv
        injection h4 with h4; injection h4 with h4; subst h4
        exact optional_len h3
    exact ⟨.cons (key .ber _ _ (narrows_up h1 h)).1 (key .ber _ _ (narrows_up h1 h)).2 (ih n p q h).1,
      .cons (key .der _ _ (narrows_up h2 h)).1 (key .der _ _ (narrows_up h2 h)).2 (ih n p q h).2⟩
  · intro g n p q _
    exact ⟨⟨variantsAgree_nil _ _, variantsAgree_nil _ _⟩, variantsAgree_nil _ _, variantsAgree_nil _ _⟩
  · rintro g T Ts fb fd gb gd tag _ _ ⟨h1, h2⟩ ih n p q h
    obtain ⟨⟨i1, i2⟩, i3, i4⟩ := ih n p q h
    exact ⟨⟨variantsAgree_cons tag (h1 n p q h) i1, variantsAgree_cons tag (h2 n p q h) i2⟩,
      variantsAgree_cons tag (narrows_up h1 h) i3, variantsAgree_cons tag (narrows_up h2 h) i4⟩

end Asn1

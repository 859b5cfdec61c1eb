import Verif.Proofs.WorkBound
/-!
# At least one header is read for each object
-/
namespace Asn1
open Spec
variable {α β : Type}

theorem tick_bind_split {x : Tick α} {f : α → Tick β} {b : β} (h : (x >>= f).1 = .ok b) :
    ∃ a, x.1 = .ok a ∧ (f a).1 = .ok b ∧ (x >>= f).2 = x.2 + (f a).2 := by
  cases hx : x.1 with
  | error e => rw [tick_bind_error hx] at h; cases h
  | ok a =>
    rw [tick_bind_ok hx] at h
    exact ⟨a, rfl, h, by rw [tick_bind_ok hx]⟩

/-- To decode the value `v`, at least `f v` headers are read in the content. -/
def Least (f : α → Nat) (p : CParser α) : Prop := ∀ h i r v, (p.content h i).1 = .ok (r, v) → f v ≤ (p.content h i).2

/-- The same of a function that parses. -/
def LeastOf (f : α → Nat) (p : Input → Tick (Input × α)) : Prop := ∀ i r v, (p i).1 = .ok (r, v) → f v ≤ (p i).2

theorem least_zero (p : CParser α) : Least (fun _ => 0) p := fun _ _ _ _ _ => Nat.zero_le _

/-- The result is only converted. -/
theorem least_conv {x : Tick (Input × α)} {g : Input × α → Tick (Input × β)} {r : Input} {w : β} {n : Nat}
    (h : (x >>= g).1 = .ok (r, w)) (hx : ∀ r' v, x.1 = .ok (r', v) → (g (r', v)).1 = .ok (r, w) → n ≤ x.2) :
    n ≤ (x >>= g).2 := by
  obtain ⟨⟨r', v⟩, h1, h2, h3⟩ := tick_bind_split h
  have := hx r' v h1 h2
  omega

theorem least_map {f : β → Nat} {p : CParser α} (g : α → β) (hp : Least (fun v => f (g v)) p) : Least f (p.map g) := by
  intro h i r w hw
  refine least_conv hw fun r' v h1 h2 => ?_
  have h3 : g v = w := congrArg Prod.snd (Except.ok.inj h2)
  rw [← h3]
  exact hp h i r' v h1

theorem least_parse {f : α → Nat} {p : CParser α} (hp : Least f p) (m : Rules) :
    LeastOf (fun v => 1 + f v) (p.parse m) := by
  intro i r v h
  cases m with
  | ber =>
    unfold CParser.parse at h ⊢
    simp only at h ⊢
    obtain ⟨⟨rem, hd⟩, h1, h2, h3⟩ := tick_bind_split h
    rw [h3]
    simp only at h2 ⊢
    split at h2
    · cases h2
    · rename_i hb
      rw [if_neg hb]
      obtain ⟨⟨rem2, d⟩, h4, h5, h6⟩ := tick_bind_split h2
      rw [h6]
      have h7 : f v ≤ ((p.content hd d >>= fun z => (pure (rem2, z.2) : Tick (Input × α)))).2 := by
        refine least_conv h5 fun r' w h8 h9 => ?_
        have h10 : w = v := congrArg Prod.snd (Except.ok.inj h9)
        rw [← h10]
        exact hp _ _ _ _ h8
      show _ ≤ 1 + (_ + ((p.content hd d >>= fun z => (pure (rem2, z.2) : Tick (Input × α)))).2)
      omega
  | der =>
    unfold CParser.parse at h ⊢
    simp only at h ⊢
    obtain ⟨⟨rem, hd⟩, h1, h2, h3⟩ := tick_bind_split h
    rw [h3]
    simp only at h2 ⊢
    obtain ⟨l, _, h2, h11⟩ := tick_bind_split h2
    rw [h11]
    split at h2
    · cases h2
    · rename_i hb
      rw [if_neg hb]
      obtain ⟨⟨rem2, d⟩, h4, h5, h6⟩ := tick_bind_split h2
      rw [h6]
      have h7 : f v ≤ ((p.content hd d >>= fun z => (pure (rem2, z.2) : Tick (Input × α)))).2 := by
        refine least_conv h5 fun r' w h8 h9 => ?_
        have h10 : w = v := congrArg Prod.snd (Except.ok.inj h9)
        rw [← h10]
        exact hp _ _ _ _ h8
      show _ ≤ 1 + (_ + (_ + ((p.content hd d >>= fun z => (pure (rem2, z.2) : Tick (Input × α)))).2))
      omega

theorem nextTick_pos {m : Rules} {it it' : AnyIter} {s : Input} {a : Any}
    (h : (nextTick m it).1 = .ok (some (.obj s a), it')) : 1 ≤ (nextTick m it).2 := by
  unfold nextTick at h ⊢
  simp only at h ⊢
  split
  · rename_i hc
    unfold AnyIter.next at h
    simp [hc] at h
  · rename_i hc
    unfold AnyIter.next at h
    rw [if_neg hc] at h
    cases hq : m.anyParse it.input with
    | error e =>
      rw [hq] at h
      cases e <;> simp at h
    | ok y =>
      have := least_parse (least_zero m.anyC) m it.input y.1 y.2 ((plain_anyParse m it.input).trans hq)
      simpa using this

theorem collectStepTick_ok {p : CParser α} {l l2 : List α} {a : Any} {b : Bool}
    (h : (collectStepTick p l a).1 = .ok (b, l2)) :
    ∃ v r, (p.content a.header a.data).1 = .ok (r, v) ∧ b = true ∧ l2 = l ++ [v] ∧
      (collectStepTick p l a).2 = (p.content a.header a.data).2 := by
  unfold collectStepTick at h ⊢
  split at h
  · cases h
  · rename_i hb
    rw [if_neg hb]
    obtain ⟨⟨r, v⟩, h1, h2, h3⟩ := tick_bind_split h
    have h4 := Except.ok.inj h2
    exact ⟨v, r, h1, (congrArg Prod.fst h4).symm, (congrArg Prod.snd h4).symm, h3⟩

theorem forIterTick_least {m : Rules} {p : CParser α} {f : α → Nat} (hp : Least f p) :
    ∀ fuel it l it' l', (forIterTick m (collectStepTick p) fuel it l).1 = .ok (it', l') →
      ∃ vs, l' = l ++ vs ∧ (vs.map fun v => 1 + f v).sum ≤ (forIterTick m (collectStepTick p) fuel it l).2 := by
  intro fuel
  induction fuel with
  | zero => intro it l it' l' h; cases h
  | succ k ih =>
    intro it l it' l' h
    unfold forIterTick at h ⊢
    obtain ⟨⟨o, it1⟩, h1, h2, h3⟩ := tick_bind_split h
    rw [h3]
    cases o with
    | none =>
      have h4 := congrArg Prod.snd (Except.ok.inj h2)
      exact ⟨[], by simpa using h4.symm, by simp⟩
    | some o =>
      cases o with
      | err j e => cases h2
      | obj s a =>
        simp only at h2 ⊢
        have hpos := nextTick_pos h1
        obtain ⟨⟨b, l2⟩, h4, h5, h6⟩ := tick_bind_split h2
        obtain ⟨v, r, h7, rfl, rfl, h8⟩ := collectStepTick_ok h4
        rw [h6, h8]
        simp only [if_true] at h5 ⊢
        obtain ⟨vs, h9, h10⟩ := ih it1 (l ++ [v]) it' l' h5
        refine ⟨v :: vs, by rw [h9]; simp, ?_⟩
        have := hp _ _ _ _ h7
        simp only [List.map_cons, List.sum_cons]
        omega

theorem collectTick_least {m : Rules} {p : CParser α} {f : α → Nat} (hp : Least f p) {i r : Input} {vs : List α}
    (h : (collectTick m (AnyIter.new i) p).1 = .ok (r, vs)) :
    (vs.map fun v => 1 + f v).sum ≤ (collectTick m (AnyIter.new i) p).2 := by
  unfold collectTick at h ⊢
  obtain ⟨⟨it', l⟩, h1, h2, h3⟩ := tick_bind_split h
  rw [h3]
  obtain ⟨ws, h4, h5⟩ := forIterTick_least hp _ _ _ _ _ h1
  have h6 : l = vs := congrArg Prod.snd (Except.ok.inj h2)
  rw [← h6, h4, List.nil_append]
  exact Nat.le_trans h5 (Nat.le_add_right _ _)

theorem least_free {x : Except PErr β} {g : β → Tick (Input × α)} {r : Input} {v : α} {n : Nat}
    (h : (Tick.free x >>= g).1 = .ok (r, v)) (hg : ∀ b, (g b).1 = .ok (r, v) → n ≤ (g b).2) :
    n ≤ (Tick.free x >>= g).2 := by
  obtain ⟨b, h1, h2, h3⟩ := tick_bind_split h
  have := hg b h2
  omega

theorem least_vec {f : α → Nat} {p : CParser α} (hp : Least f p) (m : Rules) :
    Least (fun vs => (vs.map fun v => 1 + f v).sum) (CParser.vec m p) := by
  intro h i r vs hv
  refine least_free hv fun _ h1 => ?_
  split at h1
  · rename_i hb
    rw [if_pos hb]
    have h2 : [] = vs := congrArg Prod.snd (Except.ok.inj h1)
    simp [← h2]
  · rename_i hb
    rw [if_neg hb]
    exact collectTick_least hp h1

theorem least_setItems {f : α → Nat} {p : CParser α} (hp : Least f p) (m : Rules) :
    Least (fun vs => (vs.map fun v => 1 + f v).sum) (CParser.setItems m p) := by
  intro h i r vs hv
  exact least_free hv fun _ h1 => collectTick_least hp h1

theorem sum_subset (f : α → Nat) : ∀ a b : List α, a.Nodup → (∀ x ∈ a, x ∈ b) → (a.map f).sum ≤ (b.map f).sum := by
  intro a
  induction a with
  | nil => intro b _ _; simp
  | cons x a ih =>
    intro b hn hs
    obtain ⟨l1, l2, rfl⟩ := List.append_of_mem (hs x (by simp))
    have hx := List.nodup_cons.mp hn
    have := ih (l1 ++ l2) hx.2 fun y hy => by
      have := hs y (by simp [hy])
      simp only [List.mem_append, List.mem_cons] at this ⊢
      rcases this with h | h | h
      · exact .inl h
      · subst h; exact absurd hy hx.1
      · exact .inr h
    simp only [List.map_cons, List.sum_cons, List.map_append, List.sum_append] at this ⊢
    omega

theorem least_set {σ : Type} {f : α → Nat} {p : CParser α} (hp : Least f p) (m : Rules) (S : SetImpl α σ) :
    Least (fun s => ((S.toList s).map fun v => 1 + f v).sum) ((CParser.setItems m p).map S.ofList) := by
  refine least_map S.ofList fun h i r vs hv => ?_
  exact Nat.le_trans (sum_subset _ _ _ (S.nodup _) fun x hx => (S.mem vs x).mp hx) (least_setItems hp m h i r vs hv)

theorem least_array {f : α → Nat} {p : CParser α} (hp : Least f p) (m : Rules) (N : Nat) :
    Least (fun v => (v.1.map fun v => 1 + f v).sum) (CParser.array N m p) := by
  intro h i r v hv
  refine least_conv hv fun r' w h1 h2 => ?_
  simp only [Tick.free] at h2
  split at h2
  · have h3 := congrArg Prod.snd (Except.ok.inj h2)
    simp only at h3
    rw [← h3]
    exact least_vec hp m h i r' w h1
  · cases h2

theorem least_explicit {f : α → Nat} {p : CParser α} (hp : Least f p) (m : Rules) (cls : Class) (tag : Nat) :
    Least (fun v => 1 + f v.inner) (CParser.explicit m cls tag p) := by
  intro h i r v hv
  refine least_free hv fun _ h1 => ?_
  split at h1
  · cases h1
  · rename_i hb
    rw [if_neg hb]
    split at h1
    · cases h1
    · rename_i hc
      rw [if_neg hc]
      refine least_conv h1 fun r' w h2 h3 => ?_
      have h4 := congrArg Prod.snd (Except.ok.inj h3)
      simp only at h4
      rw [← h4]
      exact least_parse hp m i r' w h2

theorem least_implicit {f : α → Nat} {p : CParser α} (hp : Least f p) (cls : Class) (tag : Nat) :
    Least (fun v => f v.inner) (CParser.implicit cls tag p) := by
  intro h i r v hv
  simp only [CParser.implicit] at hv ⊢
  split at hv
  · cases hv
  · rename_i hb
    rw [if_neg hb]
    refine least_conv hv fun r' w h2 h3 => ?_
    have h4 := congrArg Prod.snd (Except.ok.inj h3)
    simp only at h4
    rw [← h4]
    exact hp h i r' w h2

/-- What an optional field counts. -/
def ifPresent (f : α → Nat) : Option α → Nat
  | some v => f v
  | none => 0

theorem least_option {f : α → Nat} {p : CParser α} (hp : Least f p) (m : Rules) :
    LeastOf (ifPresent fun v => 1 + f v) (optionTick m p) := by
  intro i r o ho
  cases o with
  | none => exact Nat.zero_le _
  | some v =>
    unfold optionTick at ho ⊢
    split at ho
    · cases ho
    · rename_i hb
      rw [if_neg hb]
      obtain ⟨⟨rem, h⟩, h1, h2, h3⟩ := tick_bind_split ho
      rw [h3]
      simp only at h2 ⊢
      split at h2
      · cases h2
      · rename_i hc
        rw [if_neg hc]
        obtain ⟨⟨rem2, d⟩, h4, h5, h6⟩ := tick_bind_split h2
        rw [h6]
        have h7 : f v ≤ ((optionContentTick p h d >>= fun z => (pure (rem2, z.2) : Tick (Input × Option α)))).2 := by
          refine least_conv h5 fun r' w h8 h9 => ?_
          have h10 : w = some v := congrArg Prod.snd (Except.ok.inj h9)
          subst h10
          unfold optionContentTick at h8 ⊢
          rw [if_neg hc] at h8 ⊢
          obtain ⟨⟨rem3, d3⟩, h11, h12, h13⟩ := tick_bind_split h8
          rw [h13]
          have h14 : f v ≤ ((p.content h d3 >>= fun z => (pure (rem3, some z.2) : Tick (Input × Option α)))).2 := by
            refine least_conv h12 fun r' w h8 h9 => ?_
            have h10 : some w = some v := congrArg Prod.snd (Except.ok.inj h9)
            rw [← Option.some.inj h10]
            exact hp _ _ _ _ h8
          exact Nat.le_trans h14 (Nat.le_add_left _ _)
        show 1 + f v ≤ 1 +
          (_ + ((optionContentTick p h d >>= fun z => (pure (rem2, z.2) : Tick (Input × Option α)))).2)
        omega

theorem least_tagged {f : α → Nat} {p : CParser (TaggedValue α)} (hp : Least (fun t => f t.inner) p) (m : Rules) :
    LeastOf (fun v => 1 + f v) (taggedTick m p) := by
  intro i r v h
  refine least_conv h fun r' w h2 h3 => ?_
  have h4 : w.inner = v := congrArg Prod.snd (Except.ok.inj h3)
  rw [← h4]
  exact least_parse hp m i r' w h2

theorem least_optTagged {f : α → Nat} {p : CParser (TaggedValue α)} (hp : Least (fun t => f t.inner) p) (m : Rules)
    (n : Nat) : LeastOf (ifPresent fun v => 1 + f v) (optTaggedTick m n p) := by
  intro i r o ho
  cases o with
  | none => exact Nat.zero_le _
  | some v =>
    unfold optTaggedTick at ho ⊢
    split at ho
    · cases ho
    · rename_i hb
      rw [if_neg hb]
      obtain ⟨⟨rem, h⟩, h1, h2, h3⟩ := tick_bind_split ho
      rw [h3]
      simp only at h2 ⊢
      split at h2
      · rename_i hc
        rw [if_pos hc]
        have h7 : 1 + f v ≤ ((p.parse m i >>= fun z => (pure (z.1, some z.2.inner) : Tick (Input × Option α)))).2 := by
          refine least_conv h2 fun r' w h8 h9 => ?_
          have h10 : some w.inner = some v := congrArg Prod.snd (Except.ok.inj h9)
          rw [← Option.some.inj h10]
          exact least_parse hp m i r' w h8
        exact Nat.le_trans h7 (Nat.le_add_left _ _)
      · cases h2

theorem leastOf_congr {f g : α → Nat} {p : Input → Tick (Input × α)} (h : LeastOf f p) (he : ∀ v, g v = f v) :
    LeastOf g p := fun i r v hv => by rw [he]; exact h i r v hv

theorem least_required {f : α → Nat} {p : CParser α} (hp : Least f p) (m : Rules) (tag : FieldTag) :
    LeastOf (fun v => 1 + tagLayers tag + f v) (requiredTick m tag p) := by
  cases tag with
  | untagged => exact least_parse hp m
  | explicit cls n =>
    exact leastOf_congr (least_tagged (f := fun v => 1 + f v) (least_explicit hp m cls n) m)
      (fun v => Nat.add_assoc 1 1 (f v))
  | implicit cls n => exact least_tagged (f := f) (least_implicit hp cls n) m

theorem least_optional {f : α → Nat} {p : CParser α} (hp : Least f p) (m : Rules) (tag : FieldTag) :
    LeastOf (ifPresent fun v => 1 + tagLayers tag + f v) (optionalTick m tag p) := by
  cases tag with
  | untagged => exact least_option hp m
  | explicit cls n =>
    refine leastOf_congr (least_optTagged (f := fun v => 1 + f v) (least_explicit hp m cls n) m n) (fun v => ?_)
    cases v with
    | none => rfl
    | some v => exact Nat.add_assoc 1 1 (f v)
  | implicit cls n => exact least_optTagged (f := f) (least_implicit hp cls n) m n

/-! ### EMBEDDED PDV -/

theorem least_context {f : α → Nat} {p : CParser α} (hp : Least f p) (tag : Nat) :
    LeastOf (fun v => 1 + f v.inner) (contextTick tag p) := least_parse (least_implicit hp _ tag) .ber

theorem least_pair {p : CParser α} {q : CParser β} {d : Input} {v : α × β} (h : (pdvPairTick p q d).1 = .ok v) :
    2 ≤ (pdvPairTick p q d).2 := by
  unfold pdvPairTick at h ⊢
  obtain ⟨⟨r1, x⟩, h1, h2, h3⟩ := tick_bind_split h
  obtain ⟨⟨r2, y⟩, h4, h5, h6⟩ := tick_bind_split h2
  have h7 := least_context (least_zero p) 0 _ _ _ h1
  have h8 := least_context (least_zero q) 1 _ _ _ h4
  simp only at h6 h7 h8
  rw [h3]
  simp only
  rw [h6]
  omega

theorem pdvFields_le (v : PdvIdentification) : pdvFields v ≤ 2 := by cases v <;> simp [pdvFields]

theorem least_identification {a : Any} {v : PdvIdentification} (h : (pdvIdentificationTick a).1 = .ok v) :
    pdvFields v ≤ (pdvIdentificationTick a).2 := by
  unfold pdvIdentificationTick at h ⊢
  split at h
  · rename_i hb
    rw [if_pos hb]
    obtain ⟨⟨x, y⟩, h1, h2, h3⟩ := tick_bind_split h
    have := least_pair h1
    rw [h3]
    have := pdvFields_le v
    omega
  · rename_i hb
    rw [if_neg hb]
    split at h
    · rename_i hc
      rw [if_pos hc]
      obtain ⟨⟨x, y⟩, h1, h2, h3⟩ := tick_bind_split h
      have := least_pair h1
      rw [h3]
      have := pdvFields_le v
      omega
    · rename_i hc
      have h : pdvIdentification a = .ok v := h
      unfold pdvIdentification at h
      have : pdvFields v = 0 := by
        split at h
        · rename_i hx; exact absurd hx hb
        · obtain ⟨x, _, rfl⟩ := map_eq_ok h; rfl
        · obtain ⟨x, _, rfl⟩ := map_eq_ok h; rfl
        · rename_i hx; exact absurd hx hc
        · obtain ⟨x, _, rfl⟩ := map_eq_ok h; rfl
        · rw [← Except.ok.inj h]; rfl
        · cases h
      omega

theorem least_pdv : Least (Ty.within .embeddedPdv) CParser.pdv := by
  intro h i r v hv
  simp only [CParser.pdv] at hv ⊢
  obtain ⟨⟨r0, t0⟩, h1, h2, h3⟩ := tick_bind_split hv
  obtain ⟨id, h4, h5, h6⟩ := tick_bind_split h2
  obtain ⟨⟨r1, t1⟩, h7, h8, h9⟩ := tick_bind_split h5
  obtain ⟨⟨r2, t2⟩, h10, h11, h12⟩ := tick_bind_split h8
  have h13 := congrArg Prod.snd (Except.ok.inj h11)
  simp only at h13
  subst h13
  have k0 := least_context (least_zero _) 0 _ _ _ h1
  have k1 := least_identification h4
  have k2 := least_option (least_zero _) .ber _ _ _ h7
  have k3 := least_context (least_zero _) 2 _ _ _ h10
  simp only at h6 h9 h12 k0 k3
  rw [h3]
  simp only
  rw [h6, h9, h12]
  simp only [Ty.within]
  have k4 : (if (Option.map (fun x => x.inner) t1).isSome = true then 1 else 0) ≤
      ifPresent (fun v => 1 + 0) t1 := by
    cases t1 <;> simp [ifPresent]
  have k5 := Nat.le_trans k4 k2
  simp only at k1 k5
  omega

/-! ### Every type -/

mutual

theorem least_ty (m : Rules) : {α : Type} → (t : Ty α) → Least t.within (t.counter m)
  | _, .leaf _ _ _ => fun _ _ _ _ _ => Nat.zero_le _
  | _, .octetString => fun _ _ _ _ _ => Nat.zero_le _
  | _, .bitString => fun _ _ _ _ _ => Nat.zero_le _
  | _, .text _ => fun _ _ _ _ _ => Nat.zero_le _
  | _, .string => fun _ _ _ _ _ => Nat.zero_le _
  | _, .bmpString => fun _ _ _ _ _ => Nat.zero_le _
  | _, .universalString => fun _ _ _ _ _ => Nat.zero_le _
  | _, .embeddedPdv => least_pdv
  | _, .vec t => least_vec (least_ty m t) m
  | _, .sequenceOf t => least_map SequenceOf.mk (least_vec (least_ty m t) m)
  | _, .setOf t => least_map SetOf.mk (least_setItems (least_ty m t) m)
  | _, .set S t => least_set (least_ty m t) m S
  | _, .array N t => least_array (least_ty m t) m N
  | _, .tuple ts => fun _ i r v h => least_tys m ts i r v h
  | _, .explicit cls tag t => least_explicit (least_ty m t) m cls tag
  | _, .implicit cls tag t => least_implicit (least_ty m t) cls tag
  | _, .struct tag fs => fun _ i r v h => least_free h fun _ h1 => least_fields m fs i r v h1
  | _, .choice k vs => by
    intro h i r v hv
    cases k with
    | explicit => exact least_free hv fun _ h1 => least_variants m .explicit vs h i r v h1
    | implicit => exact least_variants m .implicit vs h i r v hv
    | untagged => exact least_variants m .untagged vs h i r v hv
  | _, .alias t => least_map Alias.mk (least_ty m t)

theorem least_tys (m : Rules) : {Ts : List Type} → (ts : Tys Ts) → LeastOf ts.within (ts.run m)
  | _, .nil => fun _ _ _ _ => Nat.zero_le _
  | _, .cons t ts => fun i r v h => by
    obtain ⟨⟨r1, x⟩, h1, h2, h3⟩ := tick_bind_split h
    obtain ⟨⟨r2, y⟩, h4, h5, h6⟩ := tick_bind_split h2
    have h7 : (x, y) = v := congrArg Prod.snd (Except.ok.inj h5)
    subst h7
    have h8 := least_parse (least_ty m t) m _ _ _ h1
    have h9 := least_tys m ts _ _ _ h4
    refine Nat.le_trans ?_ (Nat.le_of_eq h3.symm)
    simp only at h6
    rw [h6]
    show 1 + t.within x + ts.within y ≤ _
    simp only at h8 h9
    omega

theorem least_fields (m : Rules) : {Ts : List Type} → (fs : FieldTys Ts) → LeastOf fs.within (fs.run m)
  | _, .nil => fun _ _ _ _ => Nat.zero_le _
  | _, .required tag t fs => fun i r v h => by
    obtain ⟨⟨r1, x⟩, h1, h2, h3⟩ := tick_bind_split h
    obtain ⟨⟨r2, y⟩, h4, h5, h6⟩ := tick_bind_split h2
    have h7 : (x, y) = v := congrArg Prod.snd (Except.ok.inj h5)
    subst h7
    have h8 := least_required (least_ty m t) m tag _ _ _ h1
    have h9 := least_fields m fs _ _ _ h4
    refine Nat.le_trans ?_ (Nat.le_of_eq h3.symm)
    simp only at h6
    rw [h6]
    show 1 + tagLayers tag + t.within x + fs.within y ≤ _
    simp only at h8 h9
    omega
  | _, .optional tag t fs => fun i r v h => by
    obtain ⟨⟨r1, x⟩, h1, h2, h3⟩ := tick_bind_split h
    obtain ⟨⟨r2, y⟩, h4, h5, h6⟩ := tick_bind_split h2
    have h7 : (x, y) = v := congrArg Prod.snd (Except.ok.inj h5)
    subst h7
    have h8 := least_optional (least_ty m t) m tag _ _ _ h1
    have h9 := least_fields m fs _ _ _ h4
    refine Nat.le_trans ?_ (Nat.le_of_eq h3.symm)
    simp only at h6
    rw [h6]
    cases x with
    | none =>
      show 0 + fs.within y ≤ _
      omega
    | some x =>
      show 1 + tagLayers tag + t.within x + fs.within y ≤ _
      simp only [ifPresent] at h8 h9
      omega
  | _, .default tag d t fs => fun i r v h => by
    obtain ⟨⟨r1, x⟩, h1, h2, h3⟩ := tick_bind_split h
    obtain ⟨⟨r2, y⟩, h4, h5, h6⟩ := tick_bind_split h2
    have h7 : (x.getD d, y) = v := congrArg Prod.snd (Except.ok.inj h5)
    subst h7
    have h8 := least_optional (least_ty m t) m tag _ _ _ h1
    have h9 := least_fields m fs _ _ _ h4
    refine Nat.le_trans ?_ (Nat.le_of_eq h3.symm)
    simp only at h6
    rw [h6]
    simp only [FieldTys.within]
    cases x with
    | none =>
      rw [if_pos (show Option.getD none d = d from rfl)]
      omega
    | some x =>
      simp only [ifPresent] at h8 h9
      split
      · omega
      · show 1 + tagLayers tag + t.within x + fs.within y ≤ _
        omega

theorem least_variants (m : Rules) (k : ChoiceKind) : {Ts : List Type} → (vs : VariantTys Ts) → (h : Header) →
    LeastOf (vs.within k) (vs.content m k h)
  | _, .nil, _ => fun _ _ v _ => nomatch v
  | _, .cons tag t vs, h => fun i r v hv => by
    unfold VariantTys.content at hv ⊢
    split at hv
    · rename_i hb
      rw [if_pos hb]
      refine least_conv hv fun r' w h1 h2 => ?_
      have h3 := congrArg Prod.snd (Except.ok.inj h2)
      simp only at h3
      subst h3
      show (if k = .explicit then 1 else 0) + t.within w ≤ _
      cases k with
      | explicit => exact least_parse (least_ty m t) m i r' w h1
      | implicit => rw [if_neg (by decide), Nat.zero_add]; exact least_ty m t h i r' w h1
      | untagged => rw [if_neg (by decide), Nat.zero_add]; exact least_ty m t h i r' w h1
    · rename_i hb
      rw [if_neg hb]
      refine least_conv hv fun r' w h1 h2 => ?_
      have h3 := congrArg Prod.snd (Except.ok.inj h2)
      simp only at h3
      subst h3
      exact least_variants m k vs h i r' w h1

end

end Asn1

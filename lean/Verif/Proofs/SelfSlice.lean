import Verif.Spec.SelfSlice
import Verif.Proofs.Weight
import Verif.Props.ContainersSafe
/-!
# Types that contain themselves in the byte-slice API: what is read depends on smaller objects only
-/
namespace Asn1
open Spec
variable {α β ρ σ : Type} {safe : Bool}

/-- The same answers on contents of fewer than `n` bytes. -/
def AgreeTry (n : Nat) (f g : Any → Except SErr α) : Prop := ∀ a, a.data.data.length < n → f a = g a

/-- The same answers on fewer than `n` bytes. -/
def AgreeDec (n : Nat) (d e : Bytes → Except SErr (Bytes × α)) : Prop := ∀ b, b.length < n → d b = e b

theorem wrapBer_len {b r : Bytes} {a : Any} (h : wrapBerParser parseBerAny b = .ok (r, a)) :
    2 + r.length + a.data.data.length ≤ b.length := by
  unfold wrapBerParser at h
  split at h
  · rename_i x y hx
    injection h with h; injection h with h1 h2
    subst h1 h2
    exact berAny_len hx
  · cases h

theorem wrapDer_len {b r : Bytes} {a : Any} (h : wrapBerParser parseDerAny b = .ok (r, a)) :
    2 + r.length + a.data.data.length ≤ b.length := by
  unfold wrapBerParser at h
  split at h
  · rename_i x y hx
    injection h with h; injection h with h1 h2
    subst h1 h2
    exact derAny_len hx
  · cases h

theorem agree_fromBer {n : Nat} {f g : Any → Except SErr α} (h : AgreeTry n f g) :
    AgreeDec (n + 2) (fromBerWith f) (fromBerWith g) := by
  intro b hb
  unfold fromBerWith
  refine bind_congr_ok fun x hx => ?_
  have := wrapBer_len hx
  simp only [h x.2 (by omega)]

theorem consumes_fromBer (f : Any → Except SErr α) : Consumes (fromBerWith f) := by
  intro b r v h
  unfold fromBerWith at h
  obtain ⟨x, h1, h2⟩ := bind_eq_ok.mp h
  obtain ⟨y, _, h3⟩ := bind_eq_ok.mp h2
  have := wrapBer_len h1
  injection h3 with h3; injection h3 with h3 _
  rw [← h3]; omega

theorem agree_collect {n : Nat} {d e : Bytes → Except SErr (Bytes × α)} (h : AgreeDec n d e) (hd : Consumes e)
    (fuel : Nat) (it : SeqIter) (hi : it.data.length < n) : it.collect d fuel = it.collect e fuel := by
  induction fuel generalizing it with
  | zero => rfl
  | succ fuel ih =>
    unfold SeqIter.collect
    have hn : it.next d = it.next e := by
      unfold SeqIter.next
      rw [h _ hi]
    rw [hn]
    cases hx : it.next e with
    | error e' => rfl
    | ok x =>
      obtain ⟨o, it'⟩ := x
      cases o with
      | none => rfl
      | some o =>
        cases o with
        | error e' => rfl
        | ok v =>
          have hlt : it'.data.length < n := by
            unfold SeqIter.next at hx
            split at hx
            · cases hx
            · split at hx
              · rename_i r w hr
                injection hx with hx; injection hx with _ hx
                have := hd _ _ _ hr
                rw [← hx]
                show r.length < n
                omega
              · injection hx with hx; injection hx with hx; cases hx
              · injection hx with hx; injection hx with hx; cases hx
              · cases hx
              · cases hx
          simp only [ih it' hlt]

theorem agree_items {n : Nat} {d e : Bytes → Except SErr (Bytes × α)} (h : AgreeDec n d e) (hd : Consumes e) (b : Bytes)
    (hb : b.length < n) : collectItems d b = collectItems e b := agree_collect h hd _ _ hb

/-- What is used of the type of a field. -/
structure AgreeSlice (n : Nat) (t u : SliceType α) : Prop where
  from_ : AgreeDec n t.from_ u.from_
  tryFrom : ∀ a, a.data.data.length + 2 < n → t.tryFrom a = u.tryFrom a
  tag : t.tag = u.tag
  acceptTag : t.acceptTag = u.acceptTag
  consumes : Consumes u.from_

theorem sliceAgree_tagged {n : Nat} {t u : SliceType α} (h : AgreeSlice n t u) (m : Rules) (tag : FieldTag) :
    AgreeDec n (t.tagged m tag) (u.tagged m tag) := by
  intro b hb
  cases tag with
  | untagged => cases m <;> exact h.from_ b hb
  | explicit cls k =>
    cases m
    · unfold SliceType.tagged
      simp only
      rw [agree_fromBer (n := n - 2) (g := explicitTryFrom cls k u.from_) (fun a ha => ?_) b (by omega)]
      unfold explicitTryFrom
      rw [h.from_ _ (by omega)]
    · unfold SliceType.tagged
      simp only
      have : explicitFromDer cls k t.from_ b = explicitFromDer cls k u.from_ b := by
        unfold explicitFromDer
        refine bind_congr_ok fun x hx => ?_
        have := wrapDer_len hx
        simp only [h.from_ x.2.data.data (by omega)]
      rw [this]
  | implicit cls k =>
    have key : ∀ a : Any, a.data.data.length + 2 < n →
        implicitTryFrom cls k t.tag t.tryFrom a = implicitTryFrom cls k u.tag u.tryFrom a := by
      intro a ha
      unfold implicitTryFrom
      rw [h.tag, h.tryFrom ⟨{ a.header with tag := u.tag }, a.data⟩ ha]
    cases m
    · unfold SliceType.tagged
      simp only
      rw [agree_fromBer (n := n - 2) (g := implicitTryFrom cls k u.tag u.tryFrom) (fun a ha => key a (by omega)) b
        (by omega)]
    · unfold SliceType.tagged
      simp only
      have : implicitFromDer cls k t.tag t.tryFrom b = implicitFromDer cls k u.tag u.tryFrom b := by
        unfold implicitFromDer
        refine bind_congr_ok fun x hx => ?_
        have := wrapDer_len hx
        simp only [key x.2 (by omega)]
      rw [this]

theorem explicitDer_len {cls : Class} {k : Nat} {d : Bytes → Except SErr (Bytes × α)} : Consumes (explicitFromDer cls k d) := by
  intro b r v h
  unfold explicitFromDer at h
  obtain ⟨x, h1, h2⟩ := bind_eq_ok.mp h
  have := wrapDer_len h1
  obtain ⟨_, _, h2⟩ := bind_eq_ok.mp h2
  obtain ⟨_, _, h2⟩ := bind_eq_ok.mp h2
  split at h2
  · cases h2
  · obtain ⟨_, _, h2⟩ := bind_eq_ok.mp h2
    injection h2 with h2; injection h2 with h2 _
    rw [← h2]; omega

theorem implicitDer_len {cls : Class} {k j : Nat} {f : Any → Except SErr α} : Consumes (implicitFromDer cls k j f) := by
  intro b r v h
  unfold implicitFromDer at h
  obtain ⟨x, h1, h2⟩ := bind_eq_ok.mp h
  have := wrapDer_len h1
  obtain ⟨_, _, h2⟩ := bind_eq_ok.mp h2
  injection h2 with h2; injection h2 with h2 _
  rw [← h2]; omega

theorem consumes_tagged {u : SliceType α} (hu : Consumes u.from_) (m : Rules) (tag : FieldTag) :
    Consumes (u.tagged m tag) := by
  intro b r v h
  cases tag with
  | untagged => cases m <;> exact hu _ _ _ h
  | explicit cls k =>
    cases m <;> (unfold SliceType.tagged at h; simp only at h; obtain ⟨x, h1, h2⟩ := bind_eq_ok.mp h; injection h2 with h2; injection h2 with h2 _; subst h2)
    · exact consumes_fromBer _ _ _ _ h1
    · exact explicitDer_len _ _ _ h1
  | implicit cls k =>
    cases m <;> (unfold SliceType.tagged at h; simp only at h; obtain ⟨x, h1, h2⟩ := bind_eq_ok.mp h; injection h2 with h2; injection h2 with h2 _; subst h2)
    · exact consumes_fromBer _ _ _ _ h1
    · exact implicitDer_len _ _ _ h1

theorem sliceAgree_optional {n : Nat} {t u : SliceType α} (h : AgreeSlice n t u) (m : Rules) (tag : FieldTag) :
    AgreeDec n (t.optional m tag) (u.optional m tag) := by
  intro b hb
  cases tag with
  | untagged =>
    unfold SliceType.optional optionFrom
    simp only [h.acceptTag, h.from_ b hb]
  | explicit cls k =>
    unfold SliceType.optional SliceType.optTagged
    simp only [sliceAgree_tagged h m _ b hb]
  | implicit cls k =>
    unfold SliceType.optional SliceType.optTagged
    simp only [sliceAgree_tagged h m _ b hb]

theorem sliceOptTagged_len {u : SliceType α} (hu : Consumes u.from_) (m : Rules) (tag : FieldTag) (k : Nat) {b r : Bytes}
    {v : Option α} (h : u.optTagged m tag k b = .ok (r, v)) : r.length ≤ b.length := by
  unfold SliceType.optTagged at h
  split at h
  · injection h with h; injection h with h _
    rw [h]; exact Nat.le_refl _
  · obtain ⟨x, h1, h2⟩ := bind_eq_ok.mp h
    simp only at h2
    split at h2
    · obtain ⟨y, h3, h4⟩ := bind_eq_ok.mp h2
      have := consumes_tagged hu _ _ _ _ _ h3
      injection h4 with h4; injection h4 with h4 _
      rw [← h4]; omega
    · injection h2 with h2; injection h2 with h2 _
      rw [h2]; exact Nat.le_refl _

theorem sliceOption_len {u : SliceType α} (hu : Consumes u.from_) (m : Rules) (tag : FieldTag) {b r : Bytes} {v : Option α}
    (h : u.optional m tag b = .ok (r, v)) : r.length ≤ b.length := by
  cases tag with
  | untagged =>
    unfold SliceType.optional optionFrom at h
    simp only at h
    have key : ∀ c : Bool, (if c = true then (.ok (b, none) : Except SErr (Bytes × Option α)) else
        match u.from_ b with
        | .ok (rem, t) => .ok (rem, some t)
        | .error e => .error e) = .ok (r, v) → r.length ≤ b.length := by
      intro c hc
      split at hc
      · injection hc with hc; injection hc with hc _
        rw [hc]; exact Nat.le_refl _
      · split at hc
        · rename_i x y hx
          injection hc with hc; injection hc with hc _
          subst hc
          exact Nat.le_of_lt (hu _ _ _ hx)
        · cases hc
    split at h
    · injection h with h; injection h with h _
      rw [h]; exact Nat.le_refl _
    · exact key _ h
  | explicit cls k => exact sliceOptTagged_len hu _ _ _ h
  | implicit cls k => exact sliceOptTagged_len hu _ _ _ h

/-- What is used of a field. -/
structure AgreeField (m : Rules) (n : Nat) {T : Type} (f g : SliceField T) : Prop where
  parse : AgreeDec n (f.parse m) (g.parse m)
  shrinks : ∀ b r v, g.parse m b = .ok (r, v) → r.length ≤ b.length

theorem sliceAgree_required {m : Rules} {n : Nat} {t u : SliceType α} (h : AgreeSlice n t u) (tag : FieldTag) :
    AgreeField m n (.required tag t) (.required tag u) :=
  ⟨sliceAgree_tagged h m tag, fun _ _ _ hb => Nat.le_of_lt (consumes_tagged h.consumes _ _ _ _ _ hb)⟩

theorem sliceAgree_option {m : Rules} {n : Nat} {t u : SliceType α} (h : AgreeSlice n t u) (tag : FieldTag) :
    AgreeField m n (.optional tag t) (.optional tag u) :=
  ⟨sliceAgree_optional h m tag, fun _ _ _ hb => sliceOption_len h.consumes _ _ hb⟩

theorem sliceAgree_default {m : Rules} {n : Nat} {t u : SliceType α} (h : AgreeSlice n t u) (tag : FieldTag) (x : α) :
    AgreeField m n (.default tag t x) (.default tag u x) := by
  refine ⟨fun b hb => ?_, fun b r v hb => ?_⟩
  · unfold SliceField.parse
    simp only [sliceAgree_optional h m tag b hb]
  · unfold SliceField.parse at hb
    simp only at hb
    obtain ⟨y, h1, h2⟩ := bind_eq_ok.mp hb
    injection h2 with h2; injection h2 with h2 _
    rw [← h2]
    exact sliceOption_len h.consumes _ _ h1

/-- The same, field by field. -/
inductive AgreeFields (m : Rules) (n : Nat) : {Ts : List Type} → SliceFields Ts → SliceFields Ts → Prop
  | nil : AgreeFields m n .nil .nil
  | cons {T : Type} {Ts : List Type} {f g : SliceField T} {fs gs : SliceFields Ts} (h : AgreeField m n f g)
      (ht : AgreeFields m n fs gs) : AgreeFields m n (.cons f fs) (.cons g gs)

theorem sliceAgree_run {m : Rules} {n : Nat} {Ts : List Type} {fs gs : SliceFields Ts} (h : AgreeFields m n fs gs) :
    AgreeDec n (fs.run m) (gs.run m) := by
  induction h with
  | nil => exact fun _ _ => rfl
  | cons h _ ih =>
    intro b hb
    unfold SliceFields.run
    rw [h.parse b hb]
    refine bind_congr_ok fun x hx => ?_
    have := h.shrinks _ _ _ hx
    simp only [ih x.1 (by omega)]

/-- Agreement on short contents gives agreement on longer ones. -/
def NarrowsTry (g : Bool) (F : (Any → Except SErr ρ) → Any → Except SErr α) : Prop :=
  ∀ n f f', AgreeTry n f f' → AgreeTry (n + if g then 2 else 0) (F f) (F f')

/-- The same for the fields. -/
def NarrowsSlices {Ts : List Type} (fs : (Any → Except SErr ρ) → SliceFields Ts) : Prop :=
  ∀ n f f', AgreeTry n f f' → AgreeFields .ber (n + 2) (fs f) (fs f')

theorem agreeTry_mono {n k : Nat} {f g : Any → Except SErr α} (h : AgreeTry n f g) (hk : k ≤ n) : AgreeTry k f g :=
  fun a ha => h a (by omega)

theorem agreeDec_mono {n k : Nat} {f g : Bytes → Except SErr (Bytes × α)} (h : AgreeDec n f g) (hk : k ≤ n) :
    AgreeDec k f g := fun a ha => h a (by omega)

theorem slice_ber {n : Nat} {f g : Any → Except SErr α} (h : AgreeTry n f g) (k : Nat) (acc : Nat → Bool) :
    AgreeSlice (n + 2) ⟨fromBerWith f, f, k, acc⟩ ⟨fromBerWith g, g, k, acc⟩ :=
  ⟨agree_fromBer h, fun a ha => h a (by omega), rfl, rfl, consumes_fromBer _⟩

theorem narrows_ber {g : Bool} {F : (Any → Except SErr ρ) → Any → Except SErr α} (h : SelfFrom safe ρ g F) :
    NarrowsTry g F := by
  refine SelfFrom.rec (motive_1 := fun g _ F _ => NarrowsTry g F) (motive_2 := fun fs _ => NarrowsSlices fs)
    ?_ ?_ ?_ ?_ ?_ ?_ ?_ ?_ ?_ ?_ ?_ ?_ ?_ ?_ h
  · exact fun n f f' h => agreeTry_mono h (by simp)
  · exact fun _ _ _ _ _ _ _ _ => rfl
  · exact fun _ ih n f f' h => agreeTry_mono (ih n f f' h) (by simp)
  · intro g _ _ F c _ ih n f f' h a ha
    simp only [ih n f f' h a ha]
  · intro g _ F tag _ ih n f f' h a ha
    have := agree_fromBer (agreeTry_mono (ih n f f' h) (Nat.le_add_right n _))
    show seqTryFrom tag _ a = seqTryFrom tag _ a
    unfold seqTryFrom
    rw [agree_items this (consumes_fromBer _) _ ha]
  · intro g _ _ F S _ ih n f f' h a ha
    have := agree_fromBer (agreeTry_mono (ih n f f' h) (Nat.le_add_right n _))
    show setTryFrom S _ a = setTryFrom S _ a
    unfold setTryFrom
    rw [agree_items this (consumes_fromBer _) _ ha]
  · intro g _ F cls tag _ ih n f f' h a ha
    have := agree_fromBer (agreeTry_mono (ih n f f' h) (Nat.le_add_right n _))
    show explicitTryFrom cls tag _ a = explicitTryFrom cls tag _ a
    unfold explicitTryFrom
    rw [this _ ha]
  · intro g _ F cls tag it _ ih n f f' h a ha
    show implicitTryFrom cls tag it _ a = implicitTryFrom cls tag it _ a
    unfold implicitTryFrom
    rw [ih n f f' h ⟨{ a.header with tag := it }, a.data⟩ ha]
  · intro _ fs tag _ ih n f f' h a ha
    show structTryFrom tag _ a = structTryFrom tag _ a
    unfold structTryFrom
    rw [sliceAgree_run (ih n f f' h) _ ha]
  · intro g _ F _ ih n f f' h a ha
    show aliasTryFrom _ a = aliasTryFrom _ a
    unfold aliasTryFrom
    rw [ih n f f' h a ha]
  · exact fun _ _ _ _ => .nil
  · exact fun tag k acc _ _ ih ihs n f f' h =>
      .cons (sliceAgree_required (slice_ber (agreeTry_mono (ih n f f' h) (Nat.le_add_right n _)) k acc) tag) (ihs n f f' h)
  · exact fun tag k acc _ _ ih ihs n f f' h =>
      .cons (sliceAgree_option (slice_ber (agreeTry_mono (ih n f f' h) (Nat.le_add_right n _)) k acc) tag) (ihs n f f' h)
  · exact fun tag k acc x _ _ ih ihs n f f' h =>
      .cons (sliceAgree_default (slice_ber (agreeTry_mono (ih n f f' h) (Nat.le_add_right n _)) k acc) tag x) (ihs n f f' h)

/-- The same for `FromDer`. -/
def NarrowsDec (g : Bool) (D : (Bytes → Except SErr (Bytes × ρ)) → Bytes → Except SErr (Bytes × α)) : Prop :=
  (∀ d, (g = true ∨ Consumes d) → Consumes (D d)) ∧
  ∀ n d d', Consumes d' → AgreeDec n d d' → AgreeDec (n + if g then 2 else 0) (D d) (D d')

/-- The same for the fields. -/
def NarrowsSlicesDer {Ts : List Type} (fs : (Bytes → Except SErr (Bytes × ρ)) → SliceFields Ts) : Prop :=
  ∀ n d d', Consumes d' → AgreeDec n d d' → AgreeFields .der n (fs d) (fs d')

theorem seqDer_len {tag : Nat} {d : Bytes → Except SErr (Bytes × α)} : Consumes (seqFromDer tag d) := by
  intro b r v h
  unfold seqFromDer at h
  obtain ⟨x, h1, h2⟩ := bind_eq_ok.mp h
  have := wrapDer_len h1
  obtain ⟨_, _, h2⟩ := bind_eq_ok.mp h2
  obtain ⟨_, _, h2⟩ := bind_eq_ok.mp h2
  injection h2 with h2; injection h2 with h2 _
  rw [← h2]; omega

theorem setDer_len {S : SetImpl α σ} {d : Bytes → Except SErr (Bytes × α)} : Consumes (setFromDer S d) := by
  intro b r v h
  unfold setFromDer at h
  obtain ⟨x, h1, h2⟩ := bind_eq_ok.mp h
  have := wrapDer_len h1
  obtain ⟨_, _, h2⟩ := bind_eq_ok.mp h2
  obtain ⟨_, _, h2⟩ := bind_eq_ok.mp h2
  obtain ⟨_, _, h2⟩ := bind_eq_ok.mp h2
  injection h2 with h2; injection h2 with h2 _
  rw [← h2]; omega

theorem structDer_len {tag : Nat} {Ts : List Type} {fs : SliceFields Ts} : Consumes (structFromDer tag fs) := by
  intro b r v h
  unfold structFromDer at h
  obtain ⟨x, h1, h2⟩ := bind_eq_ok.mp h
  have := wrapDer_len h1
  obtain ⟨_, _, h2⟩ := bind_eq_ok.mp h2
  obtain ⟨_, _, h2⟩ := bind_eq_ok.mp h2
  injection h2 with h2; injection h2 with h2 _
  rw [← h2]; omega

theorem slice_der {n : Nat} {d e : Bytes → Except SErr (Bytes × α)} (h : AgreeDec n d e) (hc : Consumes e)
    (f : Any → Except SErr α) (k : Nat) (acc : Nat → Bool) : AgreeSlice n ⟨d, f, k, acc⟩ ⟨e, f, k, acc⟩ :=
  ⟨h, fun _ _ => rfl, rfl, rfl, hc⟩

theorem narrows_der {g : Bool} {D : (Bytes → Except SErr (Bytes × ρ)) → Bytes → Except SErr (Bytes × α)}
    (h : SelfFromDer safe ρ g D) : NarrowsDec g D := by
  refine SelfFromDer.rec (motive_1 := fun g _ D _ => NarrowsDec g D) (motive_2 := fun fs _ => NarrowsSlicesDer fs)
    ?_ ?_ ?_ ?_ ?_ ?_ ?_ ?_ ?_ ?_ ?_ ?_ h
  · exact ⟨fun d h => h.elim nofun id, fun n d d' _ h => agreeDec_mono h (by simp)⟩
  · exact fun d hc _ => ⟨fun _ _ => hc, fun _ _ _ _ _ _ _ => rfl⟩
  · exact fun _ ih => ⟨fun d _ => ih.1 d (.inl rfl), fun n d d' hc h => agreeDec_mono (ih.2 n d d' hc h) (by simp)⟩
  · intro g _ _ D c _ ih
    refine ⟨fun d hd b r v hb => ?_, fun n d d' hc h b hb => ?_⟩
    · cases hx : D d b with
      | error e => simp only [hx] at hb; cases hb
      | ok x =>
        simp only [hx] at hb
        injection hb with hb; injection hb with hb _
        rw [← hb]
        exact ih.1 d hd _ _ _ hx
    · simp only [ih.2 n d d' hc h b hb]
  · intro g _ D tag _ ih
    refine ⟨fun d _ => seqDer_len, fun n d d' hc h b hb => ?_⟩
    have := agreeDec_mono (ih.2 n d d' hc h) (Nat.le_add_right n _)
    show seqFromDer tag _ b = seqFromDer tag _ b
    unfold seqFromDer
    refine bind_congr_ok fun x hx => ?_
    have hl := wrapDer_len hx
    simp only [if_true] at hb
    simp only [agree_items this (ih.1 d' (.inr hc)) x.2.data.data (by omega)]
  · intro g _ _ D S _ ih
    refine ⟨fun d _ => setDer_len, fun n d d' hc h b hb => ?_⟩
    have := agreeDec_mono (ih.2 n d d' hc h) (Nat.le_add_right n _)
    show setFromDer S _ b = setFromDer S _ b
    unfold setFromDer
    refine bind_congr_ok fun x hx => ?_
    have hl := wrapDer_len hx
    simp only [if_true] at hb
    simp only [agree_items this (ih.1 d' (.inr hc)) x.2.data.data (by omega)]
  · intro g _ D cls tag _ ih
    refine ⟨fun d _ => explicitDer_len, fun n d d' hc h b hb => ?_⟩
    have := agreeDec_mono (ih.2 n d d' hc h) (Nat.le_add_right n _)
    show explicitFromDer cls tag _ b = explicitFromDer cls tag _ b
    unfold explicitFromDer
    refine bind_congr_ok fun x hx => ?_
    have hl := wrapDer_len hx
    simp only [if_true] at hb
    simp only [this x.2.data.data (by omega)]
  · intro _ fs tag _ ih
    refine ⟨fun d _ => structDer_len, fun n d d' hc h b hb => ?_⟩
    show structFromDer tag _ b = structFromDer tag _ b
    unfold structFromDer
    refine bind_congr_ok fun x hx => ?_
    have hl := wrapDer_len hx
    simp only [if_true] at hb
    simp only [sliceAgree_run (ih n d d' hc h) x.2.data.data (by omega)]
  · exact fun _ _ _ _ _ => .nil
  · exact fun tag f k acc _ _ _ ih ihs n d d' hc h => .cons (sliceAgree_required (slice_der
      (agreeDec_mono (ih.2 n d d' hc h) (Nat.le_add_right n _)) (ih.1 d' (.inr hc)) f k acc) tag) (ihs n d d' hc h)
  · exact fun tag f k acc _ _ _ ih ihs n d d' hc h => .cons (sliceAgree_option (slice_der
      (agreeDec_mono (ih.2 n d d' hc h) (Nat.le_add_right n _)) (ih.1 d' (.inr hc)) f k acc) tag) (ihs n d d' hc h)
  · exact fun tag f k acc x _ _ _ ih ihs n d d' hc h => .cons (sliceAgree_default (slice_der
      (agreeDec_mono (ih.2 n d d' hc h) (Nat.le_add_right n _)) (ih.1 d' (.inr hc)) f k acc) tag x) (ihs n d d' hc h)

end Asn1

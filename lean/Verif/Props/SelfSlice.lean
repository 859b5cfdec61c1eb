import Verif.Proofs.SelfSlice
import Verif.Props.Checks
import Verif.Props.DeriveSlice
import Verif.Props.SelfLanguage
import Verif.Props.Panic
/-!
# C143: types that contain themselves in the byte-slice API
-/
namespace Asn1
open Spec
variable {α β ρ σ : Type} {safe : Bool}

/-! ### One function -/

theorem nested_fixed {γ : Type} {F : γ → γ} {x : γ} (hx : x = F x) (n : Nat) : nestedCalls F x n = x := by
  induction n with
  | zero => rfl
  | succ n ih =>
    show F (nestedCalls F x n) = x
    rw [ih, ← hx]

theorem nested_try {F : (Any → Except SErr ρ) → Any → Except SErr ρ} (hF : NarrowsTry true F) (b c : Any → Except SErr ρ)
    (n m k : Nat) (hn : k ≤ n) (hm : k ≤ m) : AgreeTry (2 * k) (nestedCalls F b n) (nestedCalls F c m) := by
  induction k generalizing n m with
  | zero => intro a ha; omega
  | succ k ih =>
    obtain ⟨n, rfl⟩ : ∃ n', n = n' + 1 := ⟨n - 1, by omega⟩
    obtain ⟨m, rfl⟩ : ∃ m', m = m' + 1 := ⟨m - 1, by omega⟩
    exact hF _ _ _ (ih n m (by omega) (by omega))

theorem nested_consumes {D : (Bytes → Except SErr (Bytes × ρ)) → Bytes → Except SErr (Bytes × ρ)} (hD : NarrowsDec true D)
    (c : Bytes → Except SErr (Bytes × ρ)) (n : Nat) (hc : Consumes c) : Consumes (nestedCalls D c n) := by
  cases n with
  | zero => exact hc
  | succ n => exact hD.1 _ (.inl rfl)

theorem nested_dec {D : (Bytes → Except SErr (Bytes × ρ)) → Bytes → Except SErr (Bytes × ρ)} (hD : NarrowsDec true D)
    (b c : Bytes → Except SErr (Bytes × ρ)) (hc : Consumes c) (n m k : Nat) (hn : k ≤ n) (hm : k ≤ m) :
    AgreeDec (2 * k) (nestedCalls D b n) (nestedCalls D c m) := by
  induction k generalizing n m with
  | zero => intro a ha; omega
  | succ k ih =>
    obtain ⟨n, rfl⟩ : ∃ n', n = n' + 1 := ⟨n - 1, by omega⟩
    obtain ⟨m, rfl⟩ : ∃ m', m = m' + 1 := ⟨m - 1, by omega⟩
    exact hD.2 _ _ _ (nested_consumes hD c m hc) (ih n m (by omega) (by omega))

/-- Refuses everything. -/
def refuseTry : Any → Except SErr α := fun _ => .error (.error .invalidTag)

/-- Refuses everything. -/
def refuseDec : Bytes → Except SErr (Bytes × α) := fun _ => .error (.error .invalidTag)

theorem refuse_consumes : Consumes (refuseDec (α := α)) := nofun

/-- **C143** The definition of a type in terms of itself, each time within another object, determines its `TryFrom<Any>`
(and so `from_ber`): there is one function, and only one, that satisfies it. -/
theorem C143_one_try_from {F : (Any → Except SErr ρ) → Any → Except SErr ρ} (h : SelfFrom safe ρ true F) :
    ∃ f, f = F f ∧ ∀ g, g = F g → g = f := by
  have hF := narrows_ber h
  let sol : Any → Except SErr ρ := fun a => nestedCalls F refuseTry (a.data.data.length + 1) a
  have hs : ∀ n, AgreeTry (2 * n) sol (nestedCalls F refuseTry n) := fun n a ha =>
    nested_try hF refuseTry refuseTry (a.data.data.length + 1) n (a.data.data.length / 2 + 1) (by omega) (by omega) a
      (by omega)
  refine ⟨sol, funext fun a => ?_, fun g hg => funext fun a => ?_⟩
  · rw [hs (a.data.data.length + 1) a (by omega)]
    exact (hF _ _ _ (hs a.data.data.length) a (by simp only [if_true]; omega)).symm
  · have := nested_try hF g refuseTry (a.data.data.length + 1) _ _ (Nat.le_refl _) (Nat.le_refl _) a (by omega)
    rw [nested_fixed hg] at this
    exact this

/-- **C143** The same for `from_der`. -/
theorem C143_one_from_der {D : (Bytes → Except SErr (Bytes × ρ)) → Bytes → Except SErr (Bytes × ρ)}
    (h : SelfFromDer safe ρ true D) : ∃ d, d = D d ∧ ∀ e, e = D e → e = d := by
  have hD := narrows_der h
  let sol : Bytes → Except SErr (Bytes × ρ) := fun b => nestedCalls D refuseDec (b.length + 1) b
  have hs : ∀ n, AgreeDec (2 * n) sol (nestedCalls D refuseDec n) := fun n b hb =>
    nested_dec hD refuseDec refuseDec refuse_consumes (b.length + 1) n (b.length / 2 + 1) (by omega) (by omega) b (by omega)
  refine ⟨sol, funext fun b => ?_, fun g hg => funext fun b => ?_⟩
  · rw [hs (b.length + 1) b (by omega)]
    exact (hD.2 _ _ _ (nested_consumes hD _ b.length refuse_consumes) (hs b.length) b (by simp only [if_true]; omega)).symm
  · have := nested_dec hD g refuseDec refuse_consumes (b.length + 1) _ _ (Nat.le_refl _) (Nat.le_refl _) b (by omega)
    rw [nested_fixed hg] at this
    exact this

/-- **C143** No more nested calls are made than half the number of bytes: whatever stands in the place of the next one, the
result is the same. -/
theorem C143_depth {F : (Any → Except SErr ρ) → Any → Except SErr ρ} (h : SelfFrom safe ρ true F)
    {D : (Bytes → Except SErr (Bytes × ρ)) → Bytes → Except SErr (Bytes × ρ)} (h' : SelfFromDer safe ρ true D)
    {f : Any → Except SErr ρ} {d : Bytes → Except SErr (Bytes × ρ)} (hf : f = F f) (hd : d = D d)
    (base : Any → Except SErr ρ) (base' : Bytes → Except SErr (Bytes × ρ)) (n : Nat) (bytes : Bytes) :
    (bytes.length / 2 ≤ n → fromBerWith (nestedCalls F base n) bytes = fromBerWith f bytes) ∧
    (bytes.length / 2 < n → nestedCalls D base' n bytes = d bytes) := by
  have hD := narrows_der h'
  refine ⟨fun hn => ?_, fun hn => ?_⟩
  · have := nested_try (narrows_ber h) base f n n n (Nat.le_refl _) (Nat.le_refl _)
    rw [nested_fixed hf] at this
    exact agree_fromBer this _ (by omega)
  · have hc : Consumes d := by
      rw [hd]
      exact hD.1 _ (.inl rfl)
    have := nested_dec hD base' d hc n n n (Nat.le_refl _) (Nat.le_refl _) bytes (by omega)
    rwa [nested_fixed hd] at this

/-! ### They return -/

theorem noPanicS_fromBer {f : Any → Except SErr α} (hf : ∀ a, NoPanicS (f a)) (b : Bytes) : NoPanicS (fromBerWith f b) :=
  NoPanicS.bind (noPanicS_wrapBer b) fun _ => NoPanicS.bind (hf _) fun _ => noPanicS_ok _

theorem noPanicS_explicitDer {cls : Class} {tag : Nat} {d : Bytes → Except SErr (Bytes × α)} (hd : ∀ b, NoPanicS (d b))
    (b : Bytes) : NoPanicS (explicitFromDer cls tag d b) := ((C61_tagged_no_panic cls tag 0).2.1 d hd b).2

theorem noPanicS_implicitDer {cls : Class} {tag it : Nat} {f : Any → Except SErr α} (hf : ∀ a, NoPanicS (f a)) (b : Bytes) :
    NoPanicS (implicitFromDer cls tag it f b) := ((C61_tagged_no_panic cls tag it).2.2.2.1 f hf b).2

theorem noPanicS_tagged {t : SliceType α} (h1 : ∀ b, NoPanicS (t.from_ b)) (h2 : ∀ a, NoPanicS (t.tryFrom a)) (m : Rules)
    (tag : FieldTag) (b : Bytes) : NoPanicS (t.tagged m tag b) := by
  cases tag with
  | untagged => cases m <;> exact h1 b
  | explicit cls k =>
    cases m
    · exact NoPanicS.bind (noPanicS_fromBer (noPanicS_explicitTryFrom h1) b) fun _ => noPanicS_ok _
    · exact NoPanicS.bind (noPanicS_explicitDer h1 b) fun _ => noPanicS_ok _
  | implicit cls k =>
    cases m
    · exact NoPanicS.bind (noPanicS_fromBer (noPanicS_implicitTryFrom h2) b) fun _ => noPanicS_ok _
    · exact NoPanicS.bind (noPanicS_implicitDer h2 b) fun _ => noPanicS_ok _

theorem noPanicS_optional {t : SliceType α} (h1 : ∀ b, NoPanicS (t.from_ b)) (h2 : ∀ a, NoPanicS (t.tryFrom a)) (m : Rules)
    (tag : FieldTag) (b : Bytes) : NoPanicS (t.optional m tag b) := by
  have key : ∀ tag k, NoPanicS (t.optTagged m tag k b) := by
    intro tag k
    unfold SliceType.optTagged
    split
    · exact noPanicS_ok _
    · refine NoPanicS.bind (safe_wrap (noPanic_header m) b) fun x => ?_
      show NoPanicS (if _ then _ else _)
      split
      · exact NoPanicS.bind (noPanicS_tagged h1 h2 m tag b) fun _ => noPanicS_ok _
      · exact noPanicS_ok _
  cases tag with
  | untagged =>
    unfold SliceType.optional optionFrom
    simp only
    have h3 : NoPanicS (match t.from_ b with
        | .ok (rem, t) => (.ok (rem, some t) : Except SErr (Bytes × Option α))
        | .error e => .error e) := by
      have := h1 b
      cases hx : t.from_ b with
      | ok x => exact noPanicS_ok _
      | error e => rw [hx] at this; simpa [NoPanicS] using this
    have h4 : ∀ c : Bool, NoPanicS (if c = true then (.ok (b, none) : Except SErr (Bytes × Option α)) else
        match t.from_ b with
        | .ok (rem, t) => .ok (rem, some t)
        | .error e => .error e) := by
      intro c
      split
      · exact noPanicS_ok _
      · exact h3
    split
    · exact noPanicS_ok _
    · exact h4 _
  | explicit cls k => exact key _ _
  | implicit cls k => exact key _ _

/-- The fields return. -/
inductive SafeSlices (m : Rules) : {Ts : List Type} → SliceFields Ts → Prop
  | nil : SafeSlices m .nil
  | cons {T : Type} {Ts : List Type} {f : SliceField T} {fs : SliceFields Ts} (h : ∀ b, NoPanicS (f.parse m b))
      (ht : SafeSlices m fs) : SafeSlices m (.cons f fs)

theorem noPanicS_run {m : Rules} {Ts : List Type} {fs : SliceFields Ts} (h : SafeSlices m fs) (b : Bytes) :
    NoPanicS (fs.run m b) := by
  induction h generalizing b with
  | nil => exact noPanicS_ok _
  | cons h _ ih => exact NoPanicS.bind (h b) fun x => NoPanicS.bind (ih x.1) fun _ => noPanicS_ok _

theorem noPanicS_flat {e : SErr} (h : NoPanicS (.error e : Except SErr α)) : NoPanicS (.error e.flatten : Except SErr β) := by
  cases e <;> simp [SErr.flatten, NoPanicS] at h ⊢

theorem noPanicS_struct {tag : Nat} {Ts : List Type} {fs : SliceFields Ts} (h : SafeSlices .ber fs) (a : Any) :
    NoPanicS (structTryFrom tag fs a) := by
  refine NoPanicS.bind (noPanicS_assertTag _ _) fun _ => ?_
  have := noPanicS_run h a.data.data
  cases hx : fs.run .ber a.data.data with
  | ok x => exact noPanicS_ok _
  | error e => rw [hx] at this; exact noPanicS_flat this

theorem returning_safe {m : Rules} {Ts : List Type} {fs : SliceFields Ts} (h : ReturningSlices fs) : SafeSlices m fs := by
  induction h with
  | nil => exact .nil
  | required tag ty h1 h2 _ ih => exact .cons (noPanicS_tagged h1 h2 m tag) ih
  | optional tag ty h1 h2 _ ih => exact .cons (noPanicS_optional h1 h2 m tag) ih
  | default tag ty x h1 h2 _ ih =>
    exact .cons (fun b => NoPanicS.bind (noPanicS_optional h1 h2 m tag b) fun _ => noPanicS_ok _) ih

/-- **C81** The decoders on bytes of a derived struct return, without a panic or an endless loop, if those of the types of
its fields do. -/
theorem C81_no_panic {Ts : List Type} (tag : Nat) (fs : SliceFields Ts) (h : ReturningSlices fs) (a : Any) (bytes : Bytes) :
    NoPanicS (structTryFrom tag fs a) ∧ NoPanicS (fromBerWith (structTryFrom tag fs) bytes) ∧
    NoPanicS (structFromDer tag fs bytes) :=
  ⟨noPanicS_struct (returning_safe h) a, noPanicS_fromBer (noPanicS_struct (returning_safe h)) bytes,
    NoPanicS.bind (noPanicS_wrapDer bytes) fun _ => NoPanicS.bind (noPanicS_assertTag _ _) fun _ =>
      NoPanicS.bind (noPanicS_run (returning_safe h) _) fun _ => noPanicS_ok _⟩

theorem noPanicS_map {γ : Type} {x : Except SErr β} (h : NoPanicS x) (c : β → γ) : NoPanicS (x.map c) := by
  cases x with
  | ok x => exact noPanicS_ok _
  | error e => simpa [NoPanicS, Except.map] using h

theorem safe_ber {g : Bool} {F : (Any → Except SErr ρ) → Any → Except SErr α} (h : SelfFrom true ρ g F)
    {f : Any → Except SErr ρ} (hf : ∀ a, NoPanicS (f a)) (a : Any) : NoPanicS (F f a) := by
  revert a
  refine SelfFrom.rec (motive_1 := fun _ _ F _ => ∀ a, NoPanicS (F f a)) (motive_2 := fun fs _ => SafeSlices .ber (fs f))
    ?_ ?_ ?_ ?_ ?_ ?_ ?_ ?_ ?_ ?_ ?_ ?_ ?_ ?_ h
  · exact hf
  · exact fun f hs => hs rfl
  · exact fun _ ih => ih
  · exact fun c _ ih a => noPanicS_map (ih a) c
  · exact fun tag _ ih => noPanicS_seqTryFrom (noPanicS_fromBer ih) (consumes_fromBer _)
  · exact fun S _ ih a => NoPanicS.bind (noPanicS_assertTag _ _) fun _ => NoPanicS.bind (noPanicS_assertConstructed _)
      fun _ => NoPanicS.bind (noPanicS_collectItems (noPanicS_fromBer ih) (consumes_fromBer _) _) fun _ => noPanicS_ok _
  · exact fun cls tag _ ih => noPanicS_explicitTryFrom (noPanicS_fromBer ih)
  · exact fun cls tag it _ ih => noPanicS_implicitTryFrom ih
  · exact fun tag _ ih => noPanicS_struct ih
  · exact fun _ ih a => NoPanicS.bind (ih a) fun _ => noPanicS_ok _
  · exact .nil
  · exact fun tag k acc _ _ ih ihs => .cons (noPanicS_tagged (t := ⟨_, _, k, acc⟩) (noPanicS_fromBer ih) ih .ber tag) ihs
  · exact fun tag k acc _ _ ih ihs => .cons (noPanicS_optional (t := ⟨_, _, k, acc⟩) (noPanicS_fromBer ih) ih .ber tag) ihs
  · exact fun tag k acc x _ _ ih ihs => .cons (fun b => NoPanicS.bind
      (noPanicS_optional (t := ⟨_, _, k, acc⟩) (noPanicS_fromBer ih) ih .ber tag b) fun _ => noPanicS_ok _) ihs

theorem safe_der {g : Bool} {D : (Bytes → Except SErr (Bytes × ρ)) → Bytes → Except SErr (Bytes × α)}
    (h : SelfFromDer true ρ g D) {d : Bytes → Except SErr (Bytes × ρ)} (hc : Consumes d) (hd : ∀ b, NoPanicS (d b))
    (b : Bytes) : NoPanicS (D d b) := by
  revert b
  refine SelfFromDer.rec (motive_1 := fun _ _ D _ => ∀ b, NoPanicS (D d b))
    (motive_2 := fun fs _ => SafeSlices .der (fs d)) ?_ ?_ ?_ ?_ ?_ ?_ ?_ ?_ ?_ ?_ ?_ ?_ h
  · exact hd
  · exact fun d _ hs => hs rfl
  · exact fun _ ih => ih
  · exact fun c _ ih b => noPanicS_map (ih b) _
  · exact fun tag h ih b => NoPanicS.bind (noPanicS_wrapDer b) fun _ => NoPanicS.bind (noPanicS_assertTag _ _) fun _ =>
      NoPanicS.bind (noPanicS_collectItems ih ((narrows_der h).1 d (.inr hc)) _) fun _ => noPanicS_ok _
  · exact fun S h ih b => NoPanicS.bind (noPanicS_wrapDer b) fun _ => NoPanicS.bind (noPanicS_assertTag _ _) fun _ =>
      NoPanicS.bind (noPanicS_assertConstructed _) fun _ =>
      NoPanicS.bind (noPanicS_collectItems ih ((narrows_der h).1 d (.inr hc)) _) fun _ => noPanicS_ok _
  · exact fun cls tag _ ih => noPanicS_explicitDer ih
  · exact fun tag _ ih b => NoPanicS.bind (noPanicS_wrapDer b) fun _ => NoPanicS.bind (noPanicS_assertTag _ _) fun _ =>
      NoPanicS.bind (noPanicS_run ih _) fun _ => noPanicS_ok _
  · exact .nil
  · exact fun tag f k acc hs _ _ ih ihs => .cons (noPanicS_tagged (t := ⟨_, f, k, acc⟩) ih (hs rfl) .der tag) ihs
  · exact fun tag f k acc hs _ _ ih ihs => .cons (noPanicS_optional (t := ⟨_, f, k, acc⟩) ih (hs rfl) .der tag) ihs
  · exact fun tag f k acc x hs _ _ ih ihs => .cons (fun b => NoPanicS.bind
      (noPanicS_optional (t := ⟨_, f, k, acc⟩) ih (hs rfl) .der tag b) fun _ => noPanicS_ok _) ihs

/-- **C143** They return: no panic, and no endless loop, however deep the input is nested. -/
theorem C143_no_panic {F : (Any → Except SErr ρ) → Any → Except SErr ρ} (h : SelfFrom true ρ true F)
    {D : (Bytes → Except SErr (Bytes × ρ)) → Bytes → Except SErr (Bytes × ρ)} (h' : SelfFromDer true ρ true D)
    {f : Any → Except SErr ρ} {d : Bytes → Except SErr (Bytes × ρ)} (hf : f = F f) (hd : d = D d) (bytes : Bytes) :
    NoPanicS (fromBerWith f bytes) ∧ NoPanicS (d bytes) := by
  have h1 : ∀ n a, NoPanicS (nestedCalls F refuseTry n a) := by
    intro n
    induction n with
    | zero => exact fun _ => noPanicS_error _
    | succ n ih => exact safe_ber h ih
  have h2 : ∀ n b, NoPanicS (nestedCalls D refuseDec n b) := by
    intro n
    induction n with
    | zero => exact fun _ => noPanicS_error _
    | succ n ih => exact safe_der h' (nested_consumes (narrows_der h') _ n refuse_consumes) ih
  have := C143_depth h h' hf hd refuseTry refuseDec (bytes.length + 1) bytes
  rw [← this.1 (by omega), ← this.2 (by omega)]
  exact ⟨noPanicS_fromBer (h1 _) _, h2 _ _⟩

/-- **C143** Whatever is accepted, something was consumed: a list of such types ends. -/
theorem C143_consumes {D : (Bytes → Except SErr (Bytes × ρ)) → Bytes → Except SErr (Bytes × ρ)}
    (h' : SelfFromDer safe ρ true D) {d : Bytes → Except SErr (Bytes × ρ)} (hd : d = D d) (bytes rem : Bytes) (v : ρ)
    (h : d bytes = .ok (rem, v)) : rem.length < bytes.length := by
  rw [hd] at h
  exact (narrows_der h').1 _ (.inl rfl) _ _ _ h

/-! ### A type -/

/-- `#[derive(BerSequence)] struct Twig { label: u32, twigs: Vec<Twig> }`: its `TryFrom<Any>`. -/
def twigTry (f : Any → Except SErr Twig) (a : Any) : Except SErr Twig :=
  (structTryFrom 16 (.cons (.required .untagged (berSlice (uintC 4)))
    (.cons (.required .untagged ⟨fromBerWith (seqTryFrom 16 (fromBerWith f)), seqTryFrom 16 (fromBerWith f), 16,
      (· == 16)⟩) .nil)) a).map fun v => .mk v.1 v.2.1

/-- Its `FromDer` (`DerSequence`), where `f` is its `TryFrom<Any>`. -/
def twigDer (f : Any → Except SErr Twig) (d : Bytes → Except SErr (Bytes × Twig)) (b : Bytes) :
    Except SErr (Bytes × Twig) :=
  (structFromDer 16 (.cons (.required .untagged (derSlice (uintC 4)))
    (.cons (.required .untagged ⟨seqFromDer 16 d, seqTryFrom 16 (fromBerWith f), 16, (· == 16)⟩) .nil)) b).map fun x =>
      (x.1, .mk x.2.1 x.2.2.1)

theorem noPanicS_tryFromAny {p : Parser α} (hp : p.Safe) (a : Any) : NoPanicS (tryFromAny p a) := by
  unfold tryFromAny
  split
  · exact noPanicS_error _
  · have := hp a.header a.data
    cases hx : p.content a.header a.data with
    | ok x => exact noPanicS_ok _
    | error e =>
      rw [hx] at this
      cases e <;> simp [SErr.fromNomBerr, NoPanicS] at this ⊢

/-- A case: `struct { [0] EXPLICIT u32, Option<u32> }`. -/
example : ReturningSlices (.cons (.required (.explicit .contextSpecific 0) (berSlice (uintC 4)))
    (.cons (.optional .untagged (berSlice (uintC 4))) .nil)) :=
  .required _ _ (C61_typed_no_panic_partial.1 4).2.2.1 (noPanicS_tryFromAny (safe_uint 4).1)
    (.optional _ _ (C61_typed_no_panic_partial.1 4).2.2.1 (noPanicS_tryFromAny (safe_uint 4).1) .nil)

theorem twig_try : SelfFrom true Twig true twigTry :=
  .named (fun v : Tup [Nat, List Twig] => Twig.mk v.1 v.2.1) (.struct 16 (.required (F := fun _ => tryFromAny (uintBer 4))
    .untagged 2 _ (.fixed _ fun _ => noPanicS_tryFromAny (safe_uint 4).1) (.required .untagged 16 _ (.vec 16 .self) .nil)))

theorem twig_der {f : Any → Except SErr Twig} (hf : ∀ a, NoPanicS (f a)) : SelfFromDer true Twig true (twigDer f) :=
  .named (fun v : Tup [Nat, List Twig] => Twig.mk v.1 v.2.1) (.struct 16
    (.required (D := fun _ => fromDer (uintBer 4) checkDerInt) .untagged (tryFromAny (uintBer 4)) 2 _
      (fun _ => noPanicS_tryFromAny (safe_uint 4).1)
      (.fixed _ ((C61_containers_no_panic (α := Nat) (σ := Nat)).2.2.2.2 _ |>.2 _) fun _ => (C61_typed_no_panic_partial.1 4).2.2.2)
      (.required .untagged _ 16 _ (fun _ => noPanicS_seqTryFrom (noPanicS_fromBer hf) (consumes_fromBer _)) (.vec 16 .self)
        .nil)))

/-! ### The two APIs, for this type -/

/-- What is used of the decoder of the type: it accepts an object whose content is read field by field. -/
def AcceptsTwigs (m : Rules) (g : Bytes → Except SErr (Bytes × Twig)) : Prop :=
  EndsIn g ∧ ∀ (x : Identity) (cs o o1 o2 rest e : Bytes) (y : Identity) (ds : Bytes) (l : Nat) (ts : List Twig),
    Holds m x cs o → x.2.2 = 16 → cs = o1 ++ (o2 ++ e) →
    LangObject m (· = 2) (fun z bs => z.2.1 = false ∧ (m = .der → MinimalInt bs) ∧ InUint 4 (twos bs) ∧
      (l : Int) = twos bs) o1 →
    Holds m y ds o2 → y.2.2 = 16 → y.2.1 = true → RepeatsB g ds ts → g (o ++ rest) = .ok (rest, .mk l ts)

theorem twigs_accepted {m : Rules} {g : Bytes → Except SErr (Bytes × Twig)} (hg : AcceptsTwigs m g) {w : Twig}
    {x : Identity} {cs : Bytes} (h : TwigLang m w x cs) :
    ∀ o rest, Holds m x cs o → x.2.2 = 16 → g (o ++ rest) = .ok (rest, w) := by
  refine TwigLang.rec (motive_1 := fun w x cs _ => ∀ o rest, Holds m x cs o → x.2.2 = 16 → g (o ++ rest) = .ok (rest, w))
    (motive_2 := fun ts cs _ => RepeatsB g cs ts) ?_ ?_ ?_ h
  · intro l ts x y o o' cs rest _ hl hy ht hc _ ih q rest' hq hx
    exact hg.2 x _ q o o' rest' rest y cs l ts hq hx rfl hl hy ht hc ih
  · exact .nil
  · intro t ts x cs o rest hx ht _ _ ih ihs
    refine .cons ?_ (ih o rest hx ht) ihs
    obtain ⟨r, a, h1, h2, _⟩ := holds_any (i := .fromSlice (o ++ rest)) rfl hx
    intro h0
    have hb := h1
    cases m with
    | ber => have := berAny_len hb; rw [show (Input.fromSlice (o ++ rest)).data = [] from h0] at this; simp at this
    | der => have := derAny_len hb; rw [show (Input.fromSlice (o ++ rest)).data = [] from h0] at this; simp at this

theorem label_accepted {m : Rules} {l : Nat} {o rest : Bytes}
    (h : LangObject m (· = 2) (fun z bs => z.2.1 = false ∧ (m = .der → MinimalInt bs) ∧ InUint 4 (twos bs) ∧
      (l : Int) = twos bs) o) :
    (m = .ber → fromBer (uintBer 4) (o ++ rest) = .ok (rest, l)) ∧
    (m = .der → fromDer (uintBer 4) checkDerInt (o ++ rest) = .ok (rest, l)) := by
  obtain ⟨x, bs, h1, h2, h3⟩ := h
  have := (C141_language (Lang.universal (LeafLang.uint m 4 (by decide))) (.fromSlice (o ++ rest)) l rest).mpr
    ⟨o, rfl, x, bs, h1, .inl h2, h3⟩
  refine ⟨?_, ?_⟩
  · rintro rfl
    exact ((C38_universal_same 4 (by decide)).1 (.fromSlice (o ++ rest)) rest l).mpr this
  · rintro rfl
    exact ((C38_universal_same 4 (by decide)).2.1 (.fromSlice (o ++ rest)) rest l).mpr this

theorem fromBerWith_map (f : Any → Except SErr α) (c : α → β) (b : Bytes) :
    fromBerWith (fun a => (f a).map c) b = (fromBerWith f b).map fun x => (x.1, c x.2) := by
  unfold fromBerWith
  cases wrapBerParser parseBerAny b with
  | error e => rfl
  | ok x =>
    show ((f x.2).map c >>= fun r => pure (x.1, r)) = Except.map _ (f x.2 >>= fun r => pure (x.1, r))
    cases f x.2 <;> rfl

theorem acceptsTwigs_ber {f : Any → Except SErr Twig} (hf : f = twigTry f) : AcceptsTwigs .ber (fromBerWith f) := by
  refine ⟨endsIn_fromBerWith f, fun x cs o o1 o2 rest e y ds l ts ho hx hcs hl hy ht hc hr => ?_⟩
  rw [hf]
  show fromBerWith (fun a => (structTryFrom 16 _ a).map fun v : Tup [Nat, List Twig] => Twig.mk v.1 v.2.1) _ = _
  rw [fromBerWith_map, (C81_slice_accepts (Ts := [Nat, List Twig]) 16 _ (o ++ rest) rest (l, ts, ())).1.mpr ?_]
  · rfl
  · obtain ⟨r, a, h1, h2, h3, h4⟩ := holds_any (i := .fromSlice (o ++ rest)) rfl ho
    refine ⟨a, e, ⟨r, h1, h2⟩, by rw [← hx, ← h3]; rfl, ?_⟩
    rw [h4, hcs]
    refine .cons (c := o2 ++ e) (.untagged ((label_accepted hl).1 rfl)) (.cons (.untagged ?_) .nil)
    obtain ⟨r', a', g1, g2, g3, g4⟩ := holds_any (i := .fromSlice (o2 ++ e)) rfl hy
    refine fromBerWith_ok.mpr ⟨r', a', g1, g2, seqTryFrom_ok.mpr ⟨by rw [← ht, ← g3]; rfl, by rw [← hc, ← g3]; rfl, ?_⟩⟩
    rw [g4]
    exact (collectItems_ok (endsIn_fromBerWith f)).mpr hr

theorem acceptsTwigs_der {f : Any → Except SErr Twig} {d : Bytes → Except SErr (Bytes × Twig)} (hd : d = twigDer f d) :
    AcceptsTwigs .der d := by
  have he : EndsIn d := by
    intro b r v h
    rw [hd] at h
    unfold twigDer at h
    cases hx : structFromDer 16 (.cons (.required .untagged (derSlice (uintC 4)))
      (.cons (.required .untagged ⟨seqFromDer 16 d, seqTryFrom 16 (fromBerWith f), 16, (· == 16)⟩) .nil)) b with
    | error e => rw [hx] at h; cases h
    | ok y =>
      rw [hx] at h
      injection h with h; injection h with h _
      subst h
      obtain ⟨a, _, ⟨r', h1, h2⟩, _⟩ := (C81_slice_accepts 16 _ b y.1 y.2).2.mp hx
      rw [← h2]
      exact endsIn_derAny _ _ a (wrapBerParser_ok.mpr ⟨r', h1, rfl⟩)
  refine ⟨he, fun x cs o o1 o2 rest e y ds l ts ho hx hcs hl hy ht hc hr => ?_⟩
  rw [hd]
  unfold twigDer
  rw [(C81_slice_accepts (Ts := [Nat, List Twig]) 16 _ (o ++ rest) rest (l, ts, ())).2.mpr ?_]
  · rfl
  · obtain ⟨r, a, h1, h2, h3, h4⟩ := holds_any (i := .fromSlice (o ++ rest)) rfl ho
    refine ⟨a, e, ⟨r, h1, h2⟩, by rw [← hx, ← h3]; rfl, ?_⟩
    rw [h4, hcs]
    refine .cons (c := o2 ++ e) (.untagged ((label_accepted hl).2 rfl)) (.cons (.untagged ?_) .nil)
    obtain ⟨r', a', g1, g2, g3, g4⟩ := holds_any (i := .fromSlice (o2 ++ e)) rfl hy
    refine seqFromDer_ok.mpr ⟨r', a', g1, g2, by rw [← ht, ← g3]; rfl, ?_⟩
    rw [g4]
    exact (collectItems_ok he).mpr hr

/-- **C143** For the type of a tree: what `parse_ber` accepts (`parse_der`), however deep, `from_ber` accepts (`from_der`),
with the same value and the same remainder. The converse is false: the decoders on bytes accept a primitive struct. -/
theorem C143_apis_partial {f : Any → Except SErr Twig} {d : Bytes → Except SErr (Bytes × Twig)} (hf : f = twigTry f)
    (hd : d = twigDer f d) {pb pd : Parser Twig} (hb : pb = twigF .ber pb) (hp : pd = twigF .der pd) (i r : Input)
    (w : Twig) :
    (pb.parseBer i = .ok (r, w) → fromBerWith f i.data = .ok (r.data, w)) ∧
    (pd.parseDer i = .ok (r, w) → d i.data = .ok (r.data, w)) := by
  refine ⟨fun h => ?_, fun h => ?_⟩
  · obtain ⟨o, x, cs, h1, h2, h3, h4⟩ := (C142_twig (m := .ber) hb i w r.data).mp ⟨r, h, rfl⟩
    rw [h1]
    exact twigs_accepted (acceptsTwigs_ber hf) h4 o _ h2 h3
  · obtain ⟨o, x, cs, h1, h2, h3, h4⟩ := (C142_twig (m := .der) hp i w r.data).mp ⟨r, h, rfl⟩
    rw [h1]
    exact twigs_accepted (acceptsTwigs_der hd) h4 o _ h2 h3

/-- Whether the result is a twig with one twig, and nothing is left. -/
def isSliceTwig : Except SErr (Bytes × Twig) → Bool
  | .ok ([], .mk 7 [.mk 8 []]) => true
  | _ => false

theorem twig_safe {f : Any → Except SErr Twig} (hf : f = twigTry f) (a : Any) : NoPanicS (f a) := by
  have hs : ∀ n a, NoPanicS (nestedCalls twigTry refuseTry n a) := by
    intro n
    induction n with
    | zero => exact fun _ => noPanicS_error _
    | succ n ih => exact safe_ber twig_try ih
  have := nested_try (narrows_ber twig_try) refuseTry f (a.data.data.length + 1) _ _ (Nat.le_refl _) (Nat.le_refl _) a
    (by omega)
  rw [nested_fixed hf] at this
  rw [← this]
  exact hs _ a

/-- **C143** (deviation) Trees marked as primitive at each level are accepted by `from_ber` and `from_der`, and refused by
`parse_ber` and `parse_der`. -/
theorem C143_primitive_deviation {f : Any → Except SErr Twig} {d : Bytes → Except SErr (Bytes × Twig)} (hf : f = twigTry f)
    (hd : d = twigDer f d) {pb pd : Parser Twig} (hb : pb = twigF .ber pb) (hp : pd = twigF .der pd) :
    (∀ g, g = fromBerWith f ∨ g = d →
      g [0x10, 12, 2, 1, 7, 0x30, 7, 0x10, 5, 2, 1, 8, 0x30, 0] = .ok ([], .mk 7 [.mk 8 []])) ∧
    (∀ r w, pb.parseBer (.fromSlice [0x10, 12, 2, 1, 7, 0x30, 7, 0x10, 5, 2, 1, 8, 0x30, 0]) ≠ .ok (r, w) ∧
      pd.parseDer (.fromSlice [0x10, 12, 2, 1, 7, 0x30, 7, 0x10, 5, 2, 1, 8, 0x30, 0]) ≠ .ok (r, w)) := by
  have hn := fun b => C143_depth twig_try (twig_der (twig_safe hf)) hf hd refuseTry refuseDec 8 b
  have eq : ∀ {x : Except SErr (Bytes × Twig)}, isSliceTwig x = true → x = .ok ([], .mk 7 [.mk 8 []]) := by
    intro x h
    unfold isSliceTwig at h
    split at h
    · rfl
    · cases h
  have no : ∀ {x : PRes Twig} {r w}, x.toBool = false → x ≠ .ok (r, w) := by
    rintro x r w h rfl
    cases h
  refine ⟨?_, fun r w => ⟨?_, ?_⟩⟩
  · rintro g (rfl | rfl)
    · rw [← (hn _).1 (by decide)]
      exact eq (by decide +kernel)
    · have key : ∀ n, nestedCalls (twigDer f) refuseDec n = nestedCalls (twigDer refuseTry) refuseDec n := by
        intro n
        induction n with
        | zero => rfl
        | succ n ih =>
          show twigDer f _ = twigDer refuseTry _
          rw [ih]
          rfl
      rw [← (hn _).2 (by decide), key 8]
      exact eq (by decide +kernel)
  · rw [← (C136_depth (twig_self true) hb hp refuse 8 (.fromSlice _) (by decide)).1]
    exact no (by decide +kernel)
  · rw [← (C136_depth (twig_self true) hb hp refuse 8 (.fromSlice _) (by decide)).2]
    exact no (by decide +kernel)

/-- A case: the functions exist, and return on an input that is cut. -/
example : ∃ f d pb pd, f = twigTry f ∧ d = twigDer f d ∧ pb = twigF .ber pb ∧ pd = twigF .der pd ∧
    NoPanicS (fromBerWith f [0x30, 0x80, 2, 1]) ∧ NoPanicS (d [0x30, 12, 2, 1]) ∧
    ∀ rem v, d [0x30, 5, 2, 1, 8, 0x30, 0, 0xee] = .ok (rem, v) → rem.length < 8 := by
  obtain ⟨f, hf, _⟩ := C143_one_try_from twig_try
  obtain ⟨⟨pb, hb, _⟩, pd, hp, _⟩ := C136_one_parser (twig_self true)
  obtain ⟨d, hd, _⟩ := C143_one_from_der (twig_der (twig_safe hf))
  exact ⟨f, d, pb, pd, hf, hd, hb, hp, (C143_no_panic twig_try (twig_der (twig_safe hf)) hf hd _).1,
    (C143_no_panic twig_try (twig_der (twig_safe hf)) hf hd _).2, fun rem v h =>
      C143_consumes (twig_der (twig_safe hf)) hd _ rem v h⟩

end Asn1

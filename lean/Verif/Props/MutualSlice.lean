import Verif.Props.SelfSlice
import Verif.Spec.MutualSlice
/-!
# C143: types that contain each other
-/
namespace Asn1
open Spec
variable {ρ σ α : Type}

theorem agreeTry_trans {n : Nat} {f g h : Any → Except SErr α} (h1 : AgreeTry n f g) (h2 : AgreeTry n g h) :
    AgreeTry n f h := fun a ha => (h1 a ha).trans (h2 a ha)

theorem two_narrows {F : (Any → Except SErr ρ) → (Any → Except SErr σ) → Any → Except SErr α} (hF : TwoFrom false ρ σ F)
    {n : Nat} {f f' : Any → Except SErr ρ} {g g' : Any → Except SErr σ} (h : AgreeTry n f f') (h' : AgreeTry n g g') :
    AgreeTry (n + 2) (F f g) (F f' g') :=
  agreeTry_trans (narrows_ber (hF.1 g nofun) n f f' h) (narrows_ber (hF.2 f' nofun) n g g' h')

section
variable {F : (Any → Except SErr ρ) → (Any → Except SErr σ) → Any → Except SErr ρ}
  {G : (Any → Except SErr ρ) → (Any → Except SErr σ) → Any → Except SErr σ}

theorem twoCalls_fixed {φ ψ : Type} {F : φ → ψ → φ} {G : φ → ψ → ψ} {f : φ} {g : ψ} (hf : f = F f g) (hg : g = G f g) (n : Nat) :
    twoCalls F G f g n = (f, g) := by
  induction n with
  | zero => rfl
  | succ n ih =>
    show (F (twoCalls F G f g n).1 _, G (twoCalls F G f g n).1 _) = _
    rw [ih]
    exact Prod.ext hf.symm hg.symm

theorem twoCalls_agree (hF : TwoFrom false ρ σ F) (hG : TwoFrom false ρ σ G) (b b' : Any → Except SErr ρ)
    (c c' : Any → Except SErr σ) (k : Nat) : ∀ n m, k ≤ n → k ≤ m →
    AgreeTry (2 * k) (twoCalls F G b c n).1 (twoCalls F G b' c' m).1 ∧
    AgreeTry (2 * k) (twoCalls F G b c n).2 (twoCalls F G b' c' m).2 := by
  induction k with
  | zero => exact fun n m _ _ => ⟨fun a ha => by omega, fun a ha => by omega⟩
  | succ k ih =>
    intro n m hn hm
    obtain ⟨n, rfl⟩ : ∃ n', n = n' + 1 := ⟨n - 1, by omega⟩
    obtain ⟨m, rfl⟩ : ∃ m', m = m' + 1 := ⟨m - 1, by omega⟩
    have := ih n m (by omega) (by omega)
    exact ⟨two_narrows hF this.1 this.2, two_narrows hG this.1 this.2⟩

/-- **C143** Two types that contain each other (and themselves), each time within another object, have one pair of
functions `TryFrom<Any>`, and only one, that satisfies their definitions. -/
theorem C143_mutual (hF : TwoFrom false ρ σ F) (hG : TwoFrom false ρ σ G) :
    ∃ f g, (f = F f g ∧ g = G f g) ∧ ∀ f' g', f' = F f' g' → g' = G f' g' → f' = f ∧ g' = g := by
  let s := twoCalls F G refuseTry refuseTry
  let f : Any → Except SErr ρ := fun a => (s (a.data.data.length + 1)).1 a
  let g : Any → Except SErr σ := fun a => (s (a.data.data.length + 1)).2 a
  have hs : ∀ n, AgreeTry (2 * n) f (s n).1 ∧ AgreeTry (2 * n) g (s n).2 := fun n =>
    ⟨fun a ha => (twoCalls_agree hF hG _ _ _ _ (a.data.data.length / 2 + 1) (a.data.data.length + 1) n (by omega)
      (by omega)).1 a (by omega),
     fun a ha => (twoCalls_agree hF hG _ _ _ _ (a.data.data.length / 2 + 1) (a.data.data.length + 1) n (by omega)
      (by omega)).2 a (by omega)⟩
  refine ⟨f, g, ⟨funext fun a => ?_, funext fun a => ?_⟩, fun f' g' hf hg => ⟨funext fun a => ?_, funext fun a => ?_⟩⟩
  · rw [(hs (a.data.data.length + 1)).1 a (by omega)]
    exact (two_narrows hF (hs a.data.data.length).1 (hs a.data.data.length).2 a (by omega)).symm
  · rw [(hs (a.data.data.length + 1)).2 a (by omega)]
    exact (two_narrows hG (hs a.data.data.length).1 (hs a.data.data.length).2 a (by omega)).symm
  · have := (twoCalls_agree hF hG f' refuseTry g' refuseTry (a.data.data.length + 1) (a.data.data.length + 1) _
      (Nat.le_refl _) (Nat.le_refl _)).1 a (by omega)
    rw [twoCalls_fixed hf hg] at this
    exact this
  · have := (twoCalls_agree hF hG f' refuseTry g' refuseTry (a.data.data.length + 1) (a.data.data.length + 1) _
      (Nat.le_refl _) (Nat.le_refl _)).2 a (by omega)
    rw [twoCalls_fixed hf hg] at this
    exact this

/-- **C143** They return, without a panic or an endless loop, on every object and every input, if the other types do; and
no more nested calls are made than half the number of bytes, and one. -/
theorem C143_mutual_returns (hF : ∀ safe, TwoFrom safe ρ σ F) (hG : ∀ safe, TwoFrom safe ρ σ G) {f : Any → Except SErr ρ}
    {g : Any → Except SErr σ} (hf : f = F f g) (hg : g = G f g) :
    (∀ a, NoPanicS (f a) ∧ NoPanicS (g a)) ∧ (∀ b, NoPanicS (fromBerWith f b) ∧ NoPanicS (fromBerWith g b)) ∧
    ∀ (base : Any → Except SErr ρ) (base' : Any → Except SErr σ) (n : Nat) (a : Any), a.data.data.length / 2 < n →
      (twoCalls F G base base' n).1 a = f a ∧ (twoCalls F G base base' n).2 a = g a := by
  have hd : ∀ (base : Any → Except SErr ρ) (base' : Any → Except SErr σ) (n : Nat) (a : Any), a.data.data.length / 2 < n →
      (twoCalls F G base base' n).1 a = f a ∧ (twoCalls F G base base' n).2 a = g a := by
    intro base base' n a hn
    have := twoCalls_agree (hF false) (hG false) base f base' g n n n (Nat.le_refl _) (Nat.le_refl _)
    rw [twoCalls_fixed hf hg] at this
    exact ⟨this.1 a (by omega), this.2 a (by omega)⟩
  have hs : ∀ n, (∀ a, NoPanicS ((twoCalls F G refuseTry refuseTry n).1 a)) ∧
      ∀ a, NoPanicS ((twoCalls F G refuseTry refuseTry n).2 a) := by
    intro n
    induction n with
    | zero => exact ⟨fun _ => noPanicS_error _, fun _ => noPanicS_error _⟩
    | succ n ih =>
      exact ⟨safe_ber ((hF true).1 _ fun _ => ih.2) ih.1, safe_ber ((hG true).1 _ fun _ => ih.2) ih.1⟩
  have h1 : ∀ a, NoPanicS (f a) ∧ NoPanicS (g a) := by
    intro a
    obtain ⟨e1, e2⟩ := hd refuseTry refuseTry (a.data.data.length / 2 + 1) a (by omega)
    rw [← e1, ← e2]
    exact ⟨(hs _).1 a, (hs _).2 a⟩
  exact ⟨h1, fun b => ⟨noPanicS_fromBer (fun a => (h1 a).1) b, noPanicS_fromBer (fun a => (h1 a).2) b⟩, hd⟩

end

/-! ### `from_der` -/

theorem two_narrows_der {D : (Bytes → Except SErr (Bytes × ρ)) → (Bytes → Except SErr (Bytes × σ)) → Bytes →
    Except SErr (Bytes × α)} (hD : TwoFromDer false ρ σ D) {n : Nat} {d d' : Bytes → Except SErr (Bytes × ρ)}
    {e e' : Bytes → Except SErr (Bytes × σ)} (hd : Consumes d') (he : Consumes e) (he' : Consumes e') (h : AgreeDec n d d')
    (h' : AgreeDec n e e') : AgreeDec (n + 2) (D d e) (D d' e') := fun b hb =>
  ((narrows_der (hD.2.1 e he nofun)).2 n d d' hd h b hb).trans ((narrows_der (hD.2.2 d' hd nofun)).2 n e e' he' h' b hb)

section
variable {D : (Bytes → Except SErr (Bytes × ρ)) → (Bytes → Except SErr (Bytes × σ)) → Bytes → Except SErr (Bytes × ρ)}
  {E : (Bytes → Except SErr (Bytes × ρ)) → (Bytes → Except SErr (Bytes × σ)) → Bytes → Except SErr (Bytes × σ)}

theorem twoCalls_consumes {safe : Bool} (hD : TwoFromDer safe ρ σ D) (hE : TwoFromDer safe ρ σ E)
    {b : Bytes → Except SErr (Bytes × ρ)} {c : Bytes → Except SErr (Bytes × σ)} (hb : Consumes b) (hc : Consumes c) (n : Nat) :
    Consumes (twoCalls D E b c n).1 ∧ Consumes (twoCalls D E b c n).2 := by
  cases n with
  | zero => exact ⟨hb, hc⟩
  | succ n => exact ⟨hD.1 _ _, hE.1 _ _⟩

theorem twoCalls_agree_der (hD : TwoFromDer false ρ σ D) (hE : TwoFromDer false ρ σ E) {b b' : Bytes → Except SErr (Bytes × ρ)}
    {c c' : Bytes → Except SErr (Bytes × σ)} (hb : Consumes b) (hc : Consumes c) (hb' : Consumes b') (hc' : Consumes c')
    (k : Nat) : ∀ n m, k ≤ n → k ≤ m →
    AgreeDec (2 * k) (twoCalls D E b c n).1 (twoCalls D E b' c' m).1 ∧
    AgreeDec (2 * k) (twoCalls D E b c n).2 (twoCalls D E b' c' m).2 := by
  induction k with
  | zero => exact fun n m _ _ => ⟨fun a ha => by omega, fun a ha => by omega⟩
  | succ k ih =>
    intro n m hn hm
    obtain ⟨n, rfl⟩ : ∃ n', n = n' + 1 := ⟨n - 1, by omega⟩
    obtain ⟨m, rfl⟩ : ∃ m', m = m' + 1 := ⟨m - 1, by omega⟩
    have := ih n m (by omega) (by omega)
    have h1 := twoCalls_consumes hD hE hb hc n
    have h2 := twoCalls_consumes hD hE hb' hc' m
    exact ⟨two_narrows_der hD h2.1 h1.2 h2.2 this.1 this.2, two_narrows_der hE h2.1 h1.2 h2.2 this.1 this.2⟩

/-- **C143** The same for `from_der`. -/
theorem C143_mutual_der (hD : TwoFromDer false ρ σ D) (hE : TwoFromDer false ρ σ E) :
    ∃ d e, (d = D d e ∧ e = E d e) ∧ ∀ d' e', d' = D d' e' → e' = E d' e' → d' = d ∧ e' = e := by
  let s := twoCalls D E refuseDec refuseDec
  let d : Bytes → Except SErr (Bytes × ρ) := fun a => (s (a.length + 1)).1 a
  let e : Bytes → Except SErr (Bytes × σ) := fun a => (s (a.length + 1)).2 a
  have hc := twoCalls_consumes hD hE (refuse_consumes (α := ρ)) (refuse_consumes (α := σ))
  have hs : ∀ n, AgreeDec (2 * n) d (s n).1 ∧ AgreeDec (2 * n) e (s n).2 := fun n =>
    ⟨fun a ha => (twoCalls_agree_der hD hE refuse_consumes refuse_consumes refuse_consumes refuse_consumes (a.length / 2 + 1)
      (a.length + 1) n (by omega) (by omega)).1 a (by omega),
     fun a ha => (twoCalls_agree_der hD hE refuse_consumes refuse_consumes refuse_consumes refuse_consumes (a.length / 2 + 1)
      (a.length + 1) n (by omega) (by omega)).2 a (by omega)⟩
  have he : Consumes e := fun b r v h => (hc (b.length + 1)).2 b r v h
  refine ⟨d, e, ⟨funext fun a => ?_, funext fun a => ?_⟩, fun d' e' hd' he' => ⟨funext fun a => ?_, funext fun a => ?_⟩⟩
  · rw [(hs (a.length + 1)).1 a (by omega)]
    exact (two_narrows_der hD (hc a.length).1 he (hc a.length).2 (hs a.length).1 (hs a.length).2 a (by omega)).symm
  · rw [(hs (a.length + 1)).2 a (by omega)]
    exact (two_narrows_der hE (hc a.length).1 he (hc a.length).2 (hs a.length).1 (hs a.length).2 a (by omega)).symm
  all_goals
    have c1 : Consumes d' := by rw [hd']; exact hD.1 _ _
    have c2 : Consumes e' := by rw [he']; exact hE.1 _ _
    have := twoCalls_agree_der hD hE c1 c2 refuse_consumes refuse_consumes (a.length + 1) (a.length + 1) _
      (Nat.le_refl _) (Nat.le_refl _)
    rw [twoCalls_fixed hd' he'] at this
  · exact this.1 a (by omega)
  · exact this.2 a (by omega)

/-- **C143** They return on every input, without a panic or an endless loop, if the other types do, and consume something of
what they accept. -/
theorem C143_mutual_der_returns (hD : ∀ safe, TwoFromDer safe ρ σ D) (hE : ∀ safe, TwoFromDer safe ρ σ E)
    {d : Bytes → Except SErr (Bytes × ρ)} {e : Bytes → Except SErr (Bytes × σ)} (hd : d = D d e) (he : e = E d e) (b : Bytes) :
    NoPanicS (d b) ∧ NoPanicS (e b) ∧ (∀ r v, d b = .ok (r, v) → r.length < b.length) ∧
    ∀ r v, e b = .ok (r, v) → r.length < b.length := by
  have c1 : Consumes d := by rw [hd]; exact (hD true).1 _ _
  have c2 : Consumes e := by rw [he]; exact (hE true).1 _ _
  have hc := twoCalls_consumes (hD true) (hE true) (refuse_consumes (α := ρ)) (refuse_consumes (α := σ))
  have hs : ∀ n, (∀ a, NoPanicS ((twoCalls D E refuseDec refuseDec n).1 a)) ∧
      ∀ a, NoPanicS ((twoCalls D E refuseDec refuseDec n).2 a) := by
    intro n
    induction n with
    | zero => exact ⟨fun _ => noPanicS_error _, fun _ => noPanicS_error _⟩
    | succ n ih =>
      exact ⟨safe_der ((hD true).2.1 _ (hc n).2 fun _ => ih.2) (hc n).1 ih.1,
        safe_der ((hE true).2.1 _ (hc n).2 fun _ => ih.2) (hc n).1 ih.1⟩
  have := twoCalls_agree_der (hD false) (hE false) refuse_consumes refuse_consumes c1 c2 (b.length + 1) (b.length + 1)
    (b.length + 1) (Nat.le_refl _) (Nat.le_refl _)
  rw [twoCalls_fixed hd he] at this
  refine ⟨?_, ?_, c1 b, c2 b⟩
  · rw [show d b = _ from (this.1 b (by omega)).symm]
    exact (hs _).1 b
  · rw [show e b = _ from (this.2 b (by omega)).symm]
    exact (hs _).2 b

end

/-! ### A case: `struct Bough { label: u32, knots: Vec<Knot> }`, `struct Knot { next: Option<Bough>, knots: Vec<Knot> }` -/

mutual

/-- The values of the first type. -/
inductive Bough
  | mk (label : Nat) (knots : List Knot)

/-- The values of the second type. -/
inductive Knot
  | mk (next : Option Bough) (knots : List Knot)

end

/-- `TryFrom<Any>` of the first type. -/
def boughTry (_ : Any → Except SErr Bough) (q : Any → Except SErr Knot) (a : Any) : Except SErr Bough :=
  (structTryFrom 16 (.cons (.required .untagged (berSlice (uintC 4)))
    (.cons (.required .untagged ⟨fromBerWith (seqTryFrom 16 (fromBerWith q)), seqTryFrom 16 (fromBerWith q), 16, (· == 16)⟩)
      .nil)) a).map fun v : Tup [Nat, List Knot] => Bough.mk v.1 v.2.1

/-- `TryFrom<Any>` of the second type (`next` is `[0] EXPLICIT OPTIONAL`). -/
def knotTry (p : Any → Except SErr Bough) (q : Any → Except SErr Knot) (a : Any) : Except SErr Knot :=
  (structTryFrom 16 (.cons (.optional (.explicit .contextSpecific 0) ⟨fromBerWith p, p, 16, (· == 16)⟩)
    (.cons (.required .untagged ⟨fromBerWith (seqTryFrom 16 (fromBerWith q)), seqTryFrom 16 (fromBerWith q), 16, (· == 16)⟩)
      .nil)) a).map fun v : Tup [Option Bough, List Knot] => Knot.mk v.1 v.2.1

theorem bough_two (safe : Bool) : TwoFrom safe Bough Knot boughTry := by
  refine ⟨fun q hq => .fixed _ ?_, fun p hp => .named (fun v : Tup [Nat, List Knot] => Bough.mk v.1 v.2.1) (.struct 16
    (.required (F := fun _ => tryFromAny (uintBer 4)) .untagged 2 _ (.fixed _ fun _ => noPanicS_tryFromAny (safe_uint 4).1)
      (.required .untagged 16 _ (.vec 16 .self) .nil)))⟩
  rintro rfl
  exact safe_ber (ρ := Knot) (F := boughTry refuseTry) (.named (fun v : Tup [Nat, List Knot] => Bough.mk v.1 v.2.1)
    (.struct 16 (.required (F := fun _ => tryFromAny (uintBer 4)) .untagged 2 _
      (.fixed _ fun _ => noPanicS_tryFromAny (safe_uint 4).1) (.required .untagged 16 _ (.vec 16 .self) .nil)))) (hq rfl)

theorem knot_two (safe : Bool) : TwoFrom safe Bough Knot knotTry :=
  ⟨fun q hq => .named (fun v : Tup [Option Bough, List Knot] => Knot.mk v.1 v.2.1) (.struct 16
      (.optional (.explicit .contextSpecific 0) 16 _ .self (.required (F := fun _ => seqTryFrom 16 (fromBerWith q)) .untagged 16
        _ (.fixed _ fun h => noPanicS_seqTryFrom (noPanicS_fromBer (hq h)) (consumes_fromBer _)) .nil))),
   fun p hp => .named (fun v : Tup [Option Bough, List Knot] => Knot.mk v.1 v.2.1) (.struct 16
      (.optional (F := fun _ => p) (.explicit .contextSpecific 0) 16 _ (.fixed p hp)
        (.required .untagged 16 _ (.vec 16 .self) .nil)))⟩

/-- Whether the result is the bough 7 with one knot, in which there is the bough 8. -/
def isKnotted : Except SErr (Bytes × Bough) → Bool
  | .ok ([], .mk 7 [.mk (some (.mk 8 [])) []]) => true
  | _ => false

/-- A case: the functions exist, return on all inputs, and read a bough within a knot within a bough. -/
example : ∃ f g, f = boughTry f g ∧ g = knotTry f g ∧ (∀ b, NoPanicS (fromBerWith f b)) ∧
    isKnotted (fromBerWith f [0x30, 18, 2, 1, 7, 0x30, 13, 0x30, 11, 0xa0, 7, 0x30, 5, 2, 1, 8, 0x30, 0, 0x30, 0]) = true := by
  obtain ⟨f, g, ⟨hf, hg⟩, _⟩ := C143_mutual (bough_two false) (knot_two false)
  have h := C143_mutual_returns bough_two knot_two hf hg
  refine ⟨f, g, hf, hg, fun b => (h.2.1 b).1, ?_⟩
  have e := twoCalls_agree (bough_two false) (knot_two false) refuseTry f refuseTry g 12 12 12 (Nat.le_refl _) (Nat.le_refl _)
  rw [twoCalls_fixed hf hg] at e
  rw [← agree_fromBer e.1 _ (by decide)]
  decide +kernel

/-- `FromDer` of the first type, where `g` is the `TryFrom<Any>` of the second. -/
def boughDer (g : Any → Except SErr Knot) (_ : Bytes → Except SErr (Bytes × Bough)) (e : Bytes → Except SErr (Bytes × Knot))
    (b : Bytes) : Except SErr (Bytes × Bough) :=
  (structFromDer 16 (.cons (.required .untagged (derSlice (uintC 4)))
    (.cons (.required .untagged ⟨seqFromDer 16 e, seqTryFrom 16 (fromBerWith g), 16, (· == 16)⟩) .nil)) b).map
      fun x : Bytes × Tup [Nat, List Knot] => (x.1, Bough.mk x.2.1 x.2.2.1)

/-- `FromDer` of the second type. -/
def knotDer (f : Any → Except SErr Bough) (g : Any → Except SErr Knot) (d : Bytes → Except SErr (Bytes × Bough))
    (e : Bytes → Except SErr (Bytes × Knot)) (b : Bytes) : Except SErr (Bytes × Knot) :=
  (structFromDer 16 (.cons (.optional (.explicit .contextSpecific 0) ⟨d, f, 16, (· == 16)⟩)
    (.cons (.required .untagged ⟨seqFromDer 16 e, seqTryFrom 16 (fromBerWith g), 16, (· == 16)⟩) .nil)) b).map
      fun x : Bytes × Tup [Option Bough, List Knot] => (x.1, Knot.mk x.2.1 x.2.2.1)

theorem structMap_consumes {Ts : List Type} {tag : Nat} {fs : SliceFields Ts} {c : Tup Ts → α} :
    Consumes fun b => (structFromDer tag fs b).map fun x => (x.1, c x.2) := by
  intro b r v h
  cases hx : structFromDer tag fs b with
  | error e => simp only [hx] at h; cases h
  | ok y =>
    simp only [hx] at h
    injection h with h; injection h with h _
    subst h
    obtain ⟨a, _, ⟨r', h1, h2⟩, _⟩ := (C81_slice_accepts tag fs b y.1 y.2).2.mp hx
    have := derAny_len h1
    rw [h2] at this
    have e : (Input.fromSlice b).data = b := rfl
    rw [e] at this
    omega

theorem bough_two_der {g : Any → Except SErr Knot} (hg : ∀ a, NoPanicS (g a)) (safe : Bool) :
    TwoFromDer safe Bough Knot (boughDer g) := by
  have key : ∀ safe p, SelfFromDer safe Knot true (boughDer g p) := fun safe p =>
    .named (fun v : Tup [Nat, List Knot] => Bough.mk v.1 v.2.1) (.struct 16
      (.required (D := fun _ => fromDer (uintBer 4) checkDerInt) .untagged (tryFromAny (uintBer 4)) 2 _
        (fun _ => noPanicS_tryFromAny (safe_uint 4).1)
        (.fixed _ ((C61_containers_no_panic (α := Nat) (σ := Nat)).2.2.2.2 _ |>.2 _) fun _ => (C61_typed_no_panic_partial.1 4).2.2.2)
        (.required .untagged _ 16 _ (fun _ => noPanicS_seqTryFrom (noPanicS_fromBer hg) (consumes_fromBer _)) (.vec 16 .self)
          .nil)))
  refine ⟨fun p q => structMap_consumes (c := fun v : Tup [Nat, List Knot] => Bough.mk v.1 v.2.1), fun q hc hq =>
    .fixed _ (structMap_consumes (c := fun v : Tup [Nat, List Knot] => Bough.mk v.1 v.2.1)) ?_, fun p _ _ => key safe p⟩
  rintro rfl
  exact safe_der (key true refuseDec) hc (hq rfl)

theorem knot_two_der {f : Any → Except SErr Bough} {g : Any → Except SErr Knot} (hf : ∀ a, NoPanicS (f a))
    (hg : ∀ a, NoPanicS (g a)) (safe : Bool) : TwoFromDer safe Bough Knot (knotDer f g) := by
  refine ⟨fun p q => structMap_consumes (c := fun v : Tup [Option Bough, List Knot] => Knot.mk v.1 v.2.1), fun q hc hq =>
    .named (fun v : Tup [Option Bough, List Knot] => Knot.mk v.1 v.2.1) (.struct 16
      (.optional (.explicit .contextSpecific 0) f 16 _ (fun _ => hf) .self (.required (D := fun _ => seqFromDer 16 q) .untagged
        _ 16 _ (fun _ => noPanicS_seqTryFrom (noPanicS_fromBer hg) (consumes_fromBer _)) (.fixed _ seqDer_len ?_) .nil))),
   fun p hc hp => .named (fun v : Tup [Option Bough, List Knot] => Knot.mk v.1 v.2.1) (.struct 16
      (.optional (D := fun _ => p) (.explicit .contextSpecific 0) f 16 _ (fun _ => hf) (.fixed p hc hp) (.required .untagged
        _ 16 _ (fun _ => noPanicS_seqTryFrom (noPanicS_fromBer hg) (consumes_fromBer _)) (.vec 16 .self) .nil)))⟩
  intro h
  exact fun b => NoPanicS.bind (noPanicS_wrapDer b) fun _ => NoPanicS.bind (noPanicS_assertTag _ _) fun _ =>
    NoPanicS.bind (noPanicS_collectItems (hq h) hc _) fun _ => noPanicS_ok _

/-- A case. -/
example : ∃ f g d e, f = boughTry f g ∧ g = knotTry f g ∧ d = boughDer g d e ∧ e = knotDer f g d e ∧
    ∀ b, NoPanicS (d b) ∧ NoPanicS (e b) := by
  obtain ⟨f, g, ⟨hf, hg⟩, _⟩ := C143_mutual (bough_two false) (knot_two false)
  have h := (C143_mutual_returns bough_two knot_two hf hg).1
  have h1 := bough_two_der fun a => (h a).2
  have h2 := knot_two_der (fun a => (h a).1) fun a => (h a).2
  obtain ⟨d, e, ⟨hd, he⟩, _⟩ := C143_mutual_der (h1 false) (h2 false)
  exact ⟨f, g, d, e, hf, hg, hd, he, fun b =>
    ⟨(C143_mutual_der_returns h1 h2 hd he b).1, (C143_mutual_der_returns h1 h2 hd he b).2.1⟩⟩

end Asn1

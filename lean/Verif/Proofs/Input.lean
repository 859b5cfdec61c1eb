import Verif.Model.Header
import Verif.Spec.Header
/-!
# Basic facts on inputs and primitive parsers
-/
namespace Asn1
open Spec

@[simp] theorem bind_ok {ε α β} (a : α) (f : α → Except ε β) :
    ((Except.ok a : Except ε α) >>= f) = f a := rfl
@[simp] theorem bind_err {ε α β} (e : ε) (f : α → Except ε β) :
    ((Except.error e : Except ε α) >>= f) = .error e := rfl
@[simp] theorem pure_ok {ε α} (a : α) : (pure a : Except ε α) = .ok a := rfl

theorem bind_eq_ok {ε α β} {x : Except ε α} {f : α → Except ε β} {b : β} :
    (x >>= f) = .ok b ↔ ∃ a, x = .ok a ∧ f a = .ok b := by
  cases x <;> simp

theorem bind_eq_err {ε α β} {x : Except ε α} {f : α → Except ε β} {e : ε} :
    (x >>= f) = .error e ↔ x = .error e ∨ ∃ a, x = .ok a ∧ f a = .error e := by
  cases x <;> simp

theorem takeS_eq (c : Nat) (i : Input) : takeS c i =
    if c ≤ i.data.length then .ok (after i c, first i c)
    else .error (.incomplete (c - i.data.length)) := by
  unfold takeS Input.sliceIndex Input.takeFrom Input.take
  by_cases h : c ≤ i.data.length <;> simp [h, after, first]

theorem takeSplit_eq (c : Nat) (i : Input) : i.takeSplit c =
    if c ≤ i.data.length then .ok (after i c, first i c) else .error .panic := by
  unfold Input.takeSplit Input.takeFrom Input.take
  by_cases h : c ≤ i.data.length <;> simp [h, after, first]

theorem take_eq (c : Nat) (i : Input) : i.take c =
    if c ≤ i.data.length then .ok (first i c) else .error .panic := rfl

theorem beU8_ok {i r : Input} {b : UInt8} :
    beU8 i = .ok (r, b) ↔ i.data = b :: r.data ∧ r = after i 1 := by
  unfold beU8 after
  rcases i with ⟨data, s, e⟩
  rcases r with ⟨rd, rs, re⟩
  cases data with
  | nil => simp
  | cons x xs => simp; grind

theorem beU8_err {i : Input} {e : PErr} :
    beU8 i = .error e ↔ i.data = [] ∧ e = .incomplete 1 := by
  unfold beU8
  cases i.data <;> simp [eq_comm]

theorem beU8_cons {b : UInt8} {bs : Bytes} {s e : Nat} :
    beU8 ⟨b :: bs, s, e⟩ = .ok (⟨bs, s + 1, e⟩, b) := rfl

@[simp] theorem after_zero (i : Input) : after i 0 = i := by simp [after]
@[simp] theorem after_after (i : Input) (a b : Nat) : after (after i a) b = after i (a + b) := by
  simp [after, Nat.add_assoc]
@[simp] theorem after_data (i : Input) (k : Nat) : (after i k).data = i.data.drop k := rfl
@[simp] theorem after_start (i : Input) (k : Nat) : (after i k).start = i.start + k := rfl
@[simp] theorem after_stop (i : Input) (k : Nat) : (after i k).stop = i.stop := rfl
@[simp] theorem first_data (i : Input) (k : Nat) : (first i k).data = i.data.take k := rfl
@[simp] theorem first_start (i : Input) (k : Nat) : (first i k).start = i.start := rfl
@[simp] theorem first_stop (i : Input) (k : Nat) : (first i k).stop = i.start + k := rfl
@[simp] theorem extend_data (i : Input) (y) : (extend i y).data = i.data ++ y := rfl
@[simp] theorem extend_start (i : Input) (y) : (extend i y).start = i.start := rfl
@[simp] theorem extend_stop (i : Input) (y) : (extend i y).stop = i.stop + y.length := rfl

theorem after_extend {i : Input} {k : Nat} (h : k ≤ i.data.length) (y : Bytes) :
    after (extend i y) k = extend (after i k) y := by
  simp [after, extend, List.drop_append_of_le_length h]

theorem first_extend {i : Input} {k : Nat} (h : k ≤ i.data.length) (y : Bytes) :
    first (extend i y) k = first i k := by
  simp [first, extend, List.take_append_of_le_length h]

theorem WF_after {i : Input} (h : WF i) {k : Nat} (hk : k ≤ i.data.length) : WF (after i k) := by
  simp [WF, after] at *; omega

theorem WF_first {i : Input} {k : Nat} (hk : k ≤ i.data.length) : WF (first i k) := by
  simp [WF, first]; omega

/-- What every parser of the crate does with its input: it consumes a prefix, its result does
not depend on later bytes, `Incomplete(n)` is a promise about every extension shorter than
`n`, and it neither panics nor loops forever. -/
structure Good {α : Type} (p : Input → PRes α) : Prop where
  adv : ∀ i r a, p i = .ok (r, a) → ∃ k, k ≤ i.data.length ∧ r = after i k
  ext : ∀ i r a y, p i = .ok (r, a) → p (extend i y) = .ok (extend r y, a)
  inc : ∀ i n, p i = .error (.incomplete n) →
    0 < n ∧ ∀ y, y.length < n → p (extend i y) = .error (.incomplete (n - y.length))
  noPanic : ∀ i, p i ≠ .error .panic
  noDiverge : ∀ i, p i ≠ .error .diverge

theorem good_takeS (c : Nat) : Good (takeS c) where
  adv i r a h := by
    rw [takeS_eq] at h; split at h <;> simp at h
    exact ⟨c, by assumption, h.1.symm⟩
  ext i r a y h := by
    rw [takeS_eq] at h ⊢
    split at h <;> simp at h
    rename_i hc
    have : c ≤ (extend i y).data.length := by simp; omega
    rw [if_pos this, after_extend hc, first_extend hc, h.1, h.2]
  inc i n h := by
    rw [takeS_eq] at h; split at h <;> simp at h
    subst h
    refine ⟨by omega, fun y hy => ?_⟩
    rw [takeS_eq, if_neg (by simp; omega)]
    simp; omega
  noPanic i h := by rw [takeS_eq] at h; split at h <;> simp at h
  noDiverge i h := by rw [takeS_eq] at h; split at h <;> simp at h

theorem good_beU8 : Good beU8 where
  adv i r a h := by
    obtain ⟨h1, h2⟩ := beU8_ok.mp h
    exact ⟨1, by simp [h1], h2⟩
  ext i r a y h := by
    obtain ⟨h1, h2⟩ := beU8_ok.mp h
    refine beU8_ok.mpr ⟨by simp [h1], ?_⟩
    rw [after_extend (by simp [h1]), h2]
  inc i n h := by
    obtain ⟨h1, h2⟩ := beU8_err.mp h
    simp at h2; subst h2
    refine ⟨by omega, fun y hy => ?_⟩
    have : y = [] := by cases y <;> simp at hy ⊢
    subst this
    simp [extend, beU8, h1]
  noPanic i h := by simpa using (beU8_err.mp h).2
  noDiverge i h := by simpa using (beU8_err.mp h).2

/-- Sequencing: run `p`, then `q` (depending on the value of `p`) on the remainder. -/
theorem good_bind {α β : Type} {p : Input → PRes α} {q : α → Input → PRes β}
    (hp : Good p) (hq : ∀ a, Good (q a)) : Good (fun i => p i >>= fun x => q x.2 x.1) where
  adv i r b h := by
    obtain ⟨⟨r1, a⟩, h1, h2⟩ := bind_eq_ok.mp h
    obtain ⟨k1, hk1, rfl⟩ := hp.adv _ _ _ h1
    obtain ⟨k2, hk2, rfl⟩ := (hq a).adv _ _ _ h2
    refine ⟨k1 + k2, ?_, by simp⟩
    simp at hk2; omega
  ext i r b y h := by
    obtain ⟨⟨r1, a⟩, h1, h2⟩ := bind_eq_ok.mp h
    exact bind_eq_ok.mpr ⟨_, hp.ext _ _ _ y h1, (hq a).ext _ _ _ y h2⟩
  inc i n h := by
    rcases bind_eq_err.mp h with h1 | ⟨⟨r1, a⟩, h1, h2⟩
    · obtain ⟨hn, he⟩ := hp.inc _ _ h1
      exact ⟨hn, fun y hy => bind_eq_err.mpr (Or.inl (he y hy))⟩
    · obtain ⟨hn, he⟩ := (hq a).inc _ _ h2
      exact ⟨hn, fun y hy => bind_eq_err.mpr (Or.inr ⟨_, hp.ext _ _ _ y h1, he y hy⟩)⟩
  noPanic i h := by
    rcases bind_eq_err.mp h with h1 | ⟨⟨r1, a⟩, h1, h2⟩
    · exact hp.noPanic _ h1
    · exact (hq a).noPanic _ h2
  noDiverge i h := by
    rcases bind_eq_err.mp h with h1 | ⟨⟨r1, a⟩, h1, h2⟩
    · exact hp.noDiverge _ h1
    · exact (hq a).noDiverge _ h2

theorem good_pure {α : Type} (a : α) : Good (fun i => (.ok (i, a) : PRes α)) where
  adv i r b h := by simp at h; exact ⟨0, by omega, by simp [h.1]⟩
  ext i r b y h := by simp at h ⊢; simp [h]
  inc i n h := by simp at h
  noPanic i h := by simp at h
  noDiverge i h := by simp at h

theorem good_fail {α : Type} (f : Input → Input) (e : InnerError) :
    Good (fun i => (nomErr (f i) e : PRes α)) where
  adv i r b h := by simp [nomErr] at h
  ext i r b y h := by simp [nomErr] at h
  inc i n h := by simp [nomErr] at h
  noPanic i h := by simp [nomErr] at h
  noDiverge i h := by simp [nomErr] at h

end Asn1

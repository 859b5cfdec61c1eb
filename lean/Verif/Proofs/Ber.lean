import Verif.Proofs.Header
import Verif.Model.Ber
import Verif.Spec.Ber
/-!
# Generic objects: consumption, stability, termination, and the language accepted
-/
namespace Asn1
open Spec

theorem parseHeader_consumes {i r : Input} {h : Header} (hp : parseHeader i = .ok (r, h)) :
    ∃ k, 2 ≤ k ∧ k ≤ i.data.length ∧ r = after i k := by
  obtain ⟨id, l, h1, h2, h3, h4, _⟩ := parseHeader_ok.mp hp
  refine ⟨id.length + l.length, ?_, by simp [h3], h4⟩
  have : 1 ≤ id.length := by cases h1 <;> simp
  have : 1 ≤ l.length := by cases h2 <;> simp
  omega

/-- The loop does not depend on the fuel as soon as it exceeds the input length. -/
theorem skipLoop_fuel {skip : Input → Header → PRes Bool} (hs : ∀ h, Good (fun i => skip i h))
    {f f' : Nat} {i : Input} (hf : i.data.length < f) (hf' : i.data.length < f') :
    skipLoop skip f i = skipLoop skip f' i := by
  induction f generalizing f' i with
  | zero => omega
  | succ f ih =>
    cases f' with
    | zero => omega
    | succ f' =>
      unfold skipLoop
      cases hp : parseHeader i with
      | error e => rfl
      | ok v =>
        obtain ⟨i2, h2⟩ := v
        simp only [bind_ok]
        cases hk : skip i2 h2 with
        | error e => rfl
        | ok v =>
          obtain ⟨i3, eoc⟩ := v
          simp only [bind_ok]
          obtain ⟨k, hk2, hk3, rfl⟩ := parseHeader_consumes hp
          obtain ⟨k', hk4, rfl⟩ := (hs h2).adv _ _ _ hk
          simp at hk4
          cases eoc
          · simp only [Bool.false_eq_true, if_false]
            exact ih (by simp; omega) (by simp; omega)
          · rfl

/-- The loop with its own fuel. -/
def skipLoopL (skip : Input → Header → PRes Bool) (i : Input) : PRes Bool :=
  skipLoop skip (i.data.length + 1) i

theorem skipLoopL_eq {skip : Input → Header → PRes Bool} (hs : ∀ h, Good (fun i => skip i h))
    (i : Input) :
    skipLoopL skip i = parseHeader i >>= fun x => skip x.1 x.2 >>= fun y =>
      if y.2 then pure (y.1, false) else skipLoopL skip y.1 := by
  unfold skipLoopL
  rw [skipLoop]
  cases hp : parseHeader i with
  | error e => rfl
  | ok v =>
    obtain ⟨i2, h2⟩ := v
    simp only [bind_ok]
    cases hk : skip i2 h2 with
    | error e => rfl
    | ok v =>
      obtain ⟨i3, eoc⟩ := v
      simp only [bind_ok]
      obtain ⟨k, hk2, hk3, rfl⟩ := parseHeader_consumes hp
      obtain ⟨k', hk4, rfl⟩ := (hs h2).adv _ _ _ hk
      simp at hk4
      cases eoc
      · simp only [Bool.false_eq_true, if_false]
        exact skipLoop_fuel hs (by simp; omega) (by simp)
      · rfl

/-- One turn of the loop that succeeds in reading an element leaves a shorter input. -/
theorem skipStep_lt {skip : Input → Header → PRes Bool} (hs : ∀ h, Good (fun i => skip i h))
    {i i2 i3 : Input} {h2 : Header} {eoc : Bool}
    (hp : parseHeader i = .ok (i2, h2)) (hk : skip i2 h2 = .ok (i3, eoc)) :
    i3.data.length + 2 ≤ i.data.length := by
  obtain ⟨k, hk2, hk3, rfl⟩ := parseHeader_consumes hp
  obtain ⟨k', hk4, rfl⟩ := (hs h2).adv _ _ _ hk
  simp at hk4 ⊢; omega

theorem good_skipLoopL {skip : Input → Header → PRes Bool} (hs : ∀ h, Good (fun i => skip i h)) :
    Good (skipLoopL skip) := by
  have main : ∀ (n : Nat) (i : Input), i.data.length ≤ n →
      (∀ r a, skipLoopL skip i = .ok (r, a) → ∃ k, k ≤ i.data.length ∧ r = after i k) ∧
      (∀ r a y, skipLoopL skip i = .ok (r, a) →
        skipLoopL skip (extend i y) = .ok (extend r y, a)) ∧
      (∀ m, skipLoopL skip i = .error (.incomplete m) →
        0 < m ∧ ∀ y, y.length < m →
          skipLoopL skip (extend i y) = .error (.incomplete (m - y.length))) ∧
      skipLoopL skip i ≠ .error .panic ∧ skipLoopL skip i ≠ .error .diverge := by
    intro n
    induction n with
    | zero =>
      intro i hi
      have hnil : i.data = [] := List.length_eq_zero_iff.mp (by omega)
      have hp : parseHeader i = .error (.incomplete 1) := by
        unfold parseHeader beU8; rw [hnil]; rfl
      have hL : skipLoopL skip i = .error (.incomplete 1) := by
        rw [skipLoopL_eq hs, hp]; rfl
      refine ⟨by simp [hL], by simp [hL], ?_, by simp [hL], by simp [hL]⟩
      intro m hm
      rw [hL] at hm; simp at hm; subst hm
      refine ⟨by omega, fun y hy => ?_⟩
      have : y = [] := by cases y <;> simp at hy ⊢
      subst this
      have : extend i [] = i := by simp [extend]
      rw [this, hL]; simp
    | succ n ih =>
      intro i hi
      rw [skipLoopL_eq hs]
      cases hp : parseHeader i with
      | error e =>
        refine ⟨by simp, by simp, ?_, ?_, ?_⟩
        · intro m hm
          simp at hm; subst hm
          obtain ⟨h1, h2⟩ := good_parseHeader.inc _ _ hp
          refine ⟨h1, fun y hy => ?_⟩
          rw [skipLoopL_eq hs, h2 y hy]; rfl
        · intro h; simp at h; subst h; exact good_parseHeader.noPanic _ hp
        · intro h; simp at h; subst h; exact good_parseHeader.noDiverge _ hp
      | ok v =>
        obtain ⟨i2, h2⟩ := v
        simp only [bind_ok]
        obtain ⟨k, hk2, hk3, hi2⟩ := parseHeader_consumes hp
        cases hk : skip i2 h2 with
        | error e =>
          refine ⟨by simp, by simp, ?_, ?_, ?_⟩
          · intro m hm
            simp at hm; subst hm
            obtain ⟨h1, h3⟩ := (hs h2).inc _ _ hk
            refine ⟨h1, fun y hy => ?_⟩
            rw [skipLoopL_eq hs, good_parseHeader.ext _ _ _ y hp]
            simp only [bind_ok]
            rw [h3 y hy]; rfl
          · intro h; simp at h; subst h; exact (hs h2).noPanic _ hk
          · intro h; simp at h; subst h; exact (hs h2).noDiverge _ hk
        | ok v =>
          obtain ⟨i3, eoc⟩ := v
          simp only [bind_ok]
          obtain ⟨k', hk4, hi3⟩ := (hs h2).adv _ _ _ hk
          have hlt := skipStep_lt hs hp hk
          have heq : ∀ y, skipLoopL skip (extend i y) =
              (if eoc = true then pure (extend i3 y, false)
                else skipLoopL skip (extend i3 y)) := by
            intro y
            rw [skipLoopL_eq hs, good_parseHeader.ext _ _ _ y hp]
            simp only [bind_ok]
            rw [(hs h2).ext _ _ _ y hk]
            rfl
          have h3 : i3 = after i (k + k') := by rw [hi3, hi2]; simp
          have hle : k + k' ≤ i.data.length := by rw [hi2] at hk4; simp at hk4; omega
          cases eoc
          · simp only [Bool.false_eq_true, if_false] at heq ⊢
            obtain ⟨g1, g2, g3, g4, g5⟩ := ih i3 (by omega)
            refine ⟨?_, ?_, ?_, g4, g5⟩
            · intro r a h
              obtain ⟨k'', hk'', rfl⟩ := g1 r a h
              refine ⟨k + k' + k'', ?_, ?_⟩
              · rw [h3] at hk''; simp at hk''; omega
              · rw [h3]; simp
            · intro r a y h; rw [heq, g2 r a y h]
            · intro m hm
              obtain ⟨a1, a2⟩ := g3 m hm
              exact ⟨a1, fun y hy => by rw [heq, a2 y hy]⟩
          · simp only [if_true, pure_ok] at heq ⊢
            refine ⟨?_, ?_, by simp, by simp, by simp⟩
            · intro r a h; simp at h; obtain ⟨rfl, rfl⟩ := h
              exact ⟨_, hle, h3⟩
            · intro r a y h; simp at h; obtain ⟨rfl, rfl⟩ := h
              exact heq y
  exact {
    adv := fun i => (main _ i (Nat.le_refl _)).1
    ext := fun i => (main _ i (Nat.le_refl _)).2.1
    inc := fun i => (main _ i (Nat.le_refl _)).2.2.1
    noPanic := fun i => (main _ i (Nat.le_refl _)).2.2.2.1
    noDiverge := fun i => (main _ i (Nat.le_refl _)).2.2.2.2 }

theorem skipContent_indef {d : Nat} {i : Input} {hdr : Header} (hl : hdr.length = .indefinite) :
    skipContent (d + 1) i hdr =
      if hdr.constructed then skipLoopL (fun i h => skipContent d i h) i
      else nomErr i .constructExpected := by
  rw [skipContent, hl]
  simp only [Header.assertConstructed]
  cases hdr.constructed <;> rfl

theorem skipContent_def {d n : Nat} {i : Input} {hdr : Header} (hl : hdr.length = .definite n) :
    skipContent (d + 1) i hdr =
      if n = 0 ∧ hdr.tag = tagEndOfContent then .ok (i, true)
      else takeS n i >>= fun x => pure (x.1, false) := by
  rw [skipContent, hl]

theorem good_skipContent (d : Nat) (hdr : Header) : Good (fun i => skipContent d i hdr) := by
  induction d generalizing hdr with
  | zero => exact good_fail id .berMaxDepth
  | succ d ih =>
    cases hl : hdr.length with
    | definite n =>
      simp only [skipContent_def hl]
      by_cases h : n = 0 ∧ hdr.tag = tagEndOfContent
      · simp only [if_pos h]; exact good_pure true
      · simp only [if_neg h]
        exact good_bind (good_takeS n) (fun _ => good_pure false)
    | indefinite =>
      simp only [skipContent_indef hl]
      cases hdr.constructed
      · exact good_fail id .constructExpected
      · exact good_skipLoopL ih

/-- An indefinite content ends with at least the two bytes of a header. -/
theorem skipLoopL_two {skip : Input → Header → PRes Bool} (hs : ∀ h, Good (fun i => skip i h))
    {i r : Input} {a : Bool} (h : skipLoopL skip i = .ok (r, a)) :
    ∃ k, 2 ≤ k ∧ k ≤ i.data.length ∧ r = after i k := by
  rw [skipLoopL_eq hs] at h
  obtain ⟨⟨i2, h2⟩, hp, h⟩ := bind_eq_ok.mp h
  obtain ⟨⟨i3, eoc⟩, hk, h⟩ := bind_eq_ok.mp h
  obtain ⟨k, hk2, hk3, hi2⟩ := parseHeader_consumes hp
  obtain ⟨k', hk4, hi3⟩ := (hs h2).adv _ _ _ hk
  simp only at hk4 hi3
  rw [hi2] at hk4 hi3
  simp at hk4 hi3
  cases eoc
  · simp only [Bool.false_eq_true, if_false] at h
    obtain ⟨k'', hk'', rfl⟩ := (good_skipLoopL hs).adv _ _ _ h
    rw [hi3] at hk''
    simp at hk''
    exact ⟨k + k' + k'', by omega, by omega, by rw [hi3]; simp⟩
  · simp at h
    exact ⟨k + k', by omega, by omega, by rw [← h.1, hi3]⟩

/-- `get_object_content` once the object has been skipped over. -/
theorem berContent_eq (hdr : Header) (i0 : Input) (d : Nat) :
    berContent hdr i0 d = skipContent d i0 hdr >>= fun x =>
      .ok (x.1, first i0 (x.1.start - i0.start - (if hdr.length.isDefinite then 0 else 2))) := by
  unfold berContent
  cases hs : skipContent d i0 hdr with
  | error e => rfl
  | ok v =>
    obtain ⟨i, eoc⟩ := v
    simp only [bind_ok]
    obtain ⟨k, hk, rfl⟩ := (good_skipContent d hdr).adv _ _ _ hs
    rw [if_neg (by simp)]
    cases hl : hdr.length with
    | definite n =>
      simp only [Length.isDefinite, if_true, takeSplit_eq]
      simp [hk]
    | indefinite =>
      have h2 : 2 ≤ k := by
        cases d with
        | zero => simp [skipContent, nomErr] at hs
        | succ d =>
          rw [skipContent_indef hl] at hs
          split at hs
          · obtain ⟨k', hk1, hk2, he⟩ := skipLoopL_two (good_skipContent d) hs
            have : (after i0 k).start = (after i0 k').start := by rw [he]
            simp at this; omega
          · simp [nomErr] at hs
      have hk2 : k - 2 ≤ i0.data.length := by omega
      simp [Length.isDefinite, take_eq, hk2]
      omega

theorem good_berContent (hdr : Header) (d : Nat) : Good (fun i => berContent hdr i d) := by
  simp only [berContent_eq]
  have hg := good_skipContent d hdr
  refine ⟨?_, ?_, ?_, ?_, ?_⟩
  · intro i r a h
    obtain ⟨⟨r1, e⟩, h1, h2⟩ := bind_eq_ok.mp h
    simp at h2
    obtain ⟨rfl, _⟩ := h2
    exact hg.adv _ _ _ h1
  · intro i r a y h
    obtain ⟨⟨r1, e⟩, h1, h2⟩ := bind_eq_ok.mp h
    simp at h2
    obtain ⟨rfl, rfl⟩ := h2
    obtain ⟨k, hk, rfl⟩ := hg.adv _ _ _ h1
    refine bind_eq_ok.mpr ⟨_, hg.ext _ _ _ y h1, ?_⟩
    simp only [extend_start, after_start, Except.ok.injEq, Prod.mk.injEq, true_and]
    exact first_extend (by omega) y
  · intro i n h
    rcases bind_eq_err.mp h with h1 | ⟨_, _, h2⟩
    · obtain ⟨a, b⟩ := hg.inc _ _ h1
      exact ⟨a, fun y hy => by rw [b y hy]; rfl⟩
    · simp at h2
  · intro i h
    rcases bind_eq_err.mp h with h1 | ⟨_, _, h2⟩
    · exact hg.noPanic _ h1
    · simp at h2
  · intro i h
    rcases bind_eq_err.mp h with h1 | ⟨_, _, h2⟩
    · exact hg.noDiverge _ h1
    · simp at h2

theorem good_derContent (hdr : Header) : Good (derContent hdr) := by
  unfold derContent
  cases hdr.length with
  | definite l => exact good_takeS l
  | indefinite => exact good_fail id _

theorem good_parseHeaderDer : Good parseHeaderDer := by
  have h := good_parseHeader
  unfold parseHeaderDer
  refine ⟨?_, ?_, ?_, ?_, ?_⟩
  · intro i r a hp
    obtain ⟨⟨r1, e⟩, h1, h2⟩ := bind_eq_ok.mp hp
    simp only at h2
    split at h2 <;> simp [nomErr] at h2
    obtain ⟨rfl, rfl⟩ := h2
    exact h.adv _ _ _ h1
  · intro i r a y hp
    obtain ⟨⟨r1, e⟩, h1, h2⟩ := bind_eq_ok.mp hp
    simp only at h2
    split at h2 <;> simp [nomErr] at h2
    rename_i hd
    obtain ⟨rfl, rfl⟩ := h2
    exact bind_eq_ok.mpr ⟨_, h.ext _ _ _ y h1, by simp only [hd]; rfl⟩
  · intro i n hp
    rcases bind_eq_err.mp hp with h1 | ⟨⟨r1, e⟩, h1, h2⟩
    · obtain ⟨a, b⟩ := h.inc _ _ h1
      exact ⟨a, fun y hy => by rw [b y hy]; rfl⟩
    · simp only at h2; split at h2 <;> simp [nomErr] at h2
  · intro i hp
    rcases bind_eq_err.mp hp with h1 | ⟨⟨r1, e⟩, h1, h2⟩
    · exact h.noPanic _ h1
    · simp only at h2; split at h2 <;> simp [nomErr] at h2
  · intro i hp
    rcases bind_eq_err.mp hp with h1 | ⟨⟨r1, e⟩, h1, h2⟩
    · exact h.noDiverge _ h1
    · simp only at h2; split at h2 <;> simp [nomErr] at h2

theorem good_parseBerAny : Good parseBerAny := by
  have h := good_bind (p := parseHeader)
    (q := fun hd i => berContent hd i MAX_RECURSION >>= fun y => pure (y.1, (⟨hd, y.2⟩ : Any)))
    good_parseHeader
    (fun hd => good_bind (q := fun (d : Input) i => .ok (i, (⟨hd, d⟩ : Any)))
      (good_berContent hd MAX_RECURSION) (fun d => good_pure _))
  exact h

theorem parseHeaderDer_ok {i r : Input} {h : Header} :
    parseHeaderDer i = .ok (r, h) ↔ parseHeader i = .ok (r, h) ∧ h.length.isDefinite := by
  unfold parseHeaderDer
  constructor
  · intro hp
    obtain ⟨⟨r1, e⟩, h1, h2⟩ := bind_eq_ok.mp hp
    simp only at h2
    split at h2 <;> simp [nomErr] at h2
    rename_i hd
    obtain ⟨rfl, rfl⟩ := h2
    exact ⟨h1, by simpa using hd⟩
  · rintro ⟨h1, h2⟩
    rw [h1]; simp [h2]

theorem parseDerAny_eq (i : Input) : parseDerAny i =
    parseHeaderDer i >>= fun x => derContent x.2 x.1 >>= fun y => .ok (y.1, ⟨x.2, y.2⟩) := by
  unfold parseDerAny
  cases hp : parseHeaderDer i with
  | error e => rfl
  | ok v =>
    obtain ⟨r, h⟩ := v
    obtain ⟨_, h2⟩ := parseHeaderDer_ok.mp hp
    simp only [bind_ok, h2]
    rfl

theorem good_parseDerAny : Good parseDerAny := by
  have h := good_bind (p := parseHeaderDer)
    (q := fun hd i => derContent hd i >>= fun y => .ok (y.1, (⟨hd, y.2⟩ : Any)))
    good_parseHeaderDer
    (fun hd => good_bind (q := fun (d : Input) i => .ok (i, (⟨hd, d⟩ : Any)))
      (good_derContent hd) (fun d => good_pure _))
  have e : parseDerAny = fun i => parseHeaderDer i >>= fun x =>
      derContent x.2 x.1 >>= fun y => .ok (y.1, ⟨x.2, y.2⟩) := by
    funext i; exact parseDerAny_eq i
  rw [e]; exact h

end Asn1

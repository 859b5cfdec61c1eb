import Verif.Proofs.Encoding
/-!
# Fault tolerance of composed writers
-/
namespace Asn1
open Spec Wr

variable {α β : Type}

theorem runFaulty_shift (w : Writer) (x : Wr α) (h0 h1 : List Bytes) :
    runFaulty w x (h1 ++ h0) = runFaulty (fun h => w (h ++ h0)) x h1 := by
  induction x generalizing h1 with
  | done a => rfl
  | fail e => rfl
  | write bs k ih =>
    simp only [runFaulty]
    cases w (h1 ++ h0) bs with
    | none => simp only [← List.cons_append, ih]
    | some n => simp only [← List.cons_append, ih]

theorem tolerant_hist {x : Wr α} (hx : Tolerant x) (w : Writer) (h : List Bytes) :
    runFaulty w x h = exec x ∨
    ((runFaulty w x h).2 = .error .io ∧ (runFaulty w x h).1 <+: (exec x).1) := by
  have := runFaulty_shift w x h []
  rw [List.nil_append] at this
  rw [this]; exact hx _

theorem runFaulty_bind (w : Writer) (x : Wr α) (f : α → Wr β) (h : List Bytes) :
    (∀ a, (runFaulty w x h).2 = .ok a → ∃ h', runFaulty w (x >>= f) h =
      ((runFaulty w x h).1 ++ (runFaulty w (f a) h').1, (runFaulty w (f a) h').2)) ∧
    (∀ e, (runFaulty w x h).2 = .error e → runFaulty w (x >>= f) h =
      ((runFaulty w x h).1, .error e)) := by
  show (∀ a, _ → ∃ h', runFaulty w (Wr.bind x f) h = _) ∧
    (∀ e, _ → runFaulty w (Wr.bind x f) h = _)
  induction x generalizing h with
  | done a =>
    constructor
    · intro b hb; simp [runFaulty] at hb; subst hb; exact ⟨h, by simp [Wr.bind, runFaulty]⟩
    · intro e he; simp [runFaulty] at he
  | fail e =>
    constructor
    · intro b hb; simp [runFaulty] at hb
    · intro e' he; simp [runFaulty] at he; subst he; simp [Wr.bind, runFaulty]
  | write bs k ih =>
    simp only [Wr.bind, runFaulty]
    cases w h bs with
    | none =>
      obtain ⟨i1, i2⟩ := ih (.ok ()) (bs :: h)
      constructor
      · intro a ha
        obtain ⟨h', e⟩ := i1 a ha
        exact ⟨h', by simp only [e, List.append_assoc]⟩
      · intro e he
        simp only [i2 e he]
    | some n =>
      obtain ⟨i1, i2⟩ := ih (.error .io) (bs :: h)
      constructor
      · intro a ha
        obtain ⟨h', e⟩ := i1 a ha
        exact ⟨h', by simp only [e, List.append_assoc]⟩
      · intro e he
        simp only [i2 e he]

theorem exec_bind_eq (x : Wr α) (f : α → Wr β) :
    (∀ a, (exec x).2 = .ok a →
      exec (x >>= f) = ((exec x).1 ++ (exec (f a)).1, (exec (f a)).2)) ∧
    (∀ e, (exec x).2 = .error e → exec (x >>= f) = ((exec x).1, .error e)) := by
  show (∀ a, _ → exec (Wr.bind x f) = _) ∧ (∀ e, _ → exec (Wr.bind x f) = _)
  induction x with
  | done a =>
    constructor
    · intro b hb; simp [exec] at hb; subst hb; simp [Wr.bind, exec]
    · intro e he; simp [exec] at he
  | fail e =>
    constructor
    · intro b hb; simp [exec] at hb
    · intro e' he; simp [exec] at he; subst he; simp [Wr.bind, exec]
  | write bs k ih =>
    simp only [Wr.bind, exec]
    obtain ⟨i1, i2⟩ := ih (.ok ())
    constructor
    · intro a ha; simp only [i1 a ha, List.append_assoc]
    · intro e he; simp only [i2 e he]

theorem tolerant_bind {x : Wr α} {f : α → Wr β} (hx : Tolerant x) (hf : ∀ a, Tolerant (f a)) :
    Tolerant (x >>= f) := by
  intro w
  obtain ⟨r1, r2⟩ := runFaulty_bind w x f []
  obtain ⟨e1, e2⟩ := exec_bind_eq x f
  rcases hx w with h | ⟨h1, h2⟩
  · cases hr : (exec x).2 with
    | ok a =>
      obtain ⟨h', e⟩ := r1 a (by rw [h, hr])
      rw [e, e1 a hr, h]
      rcases tolerant_hist (hf a) w h' with g | ⟨g1, g2⟩
      · left; rw [g]
      · right; exact ⟨g1, (List.prefix_append_right_inj _).mpr g2⟩
    | error e => left; rw [r2 e (by rw [h, hr]), e2 e hr, h]
  · right
    rw [r2 _ h1]
    refine ⟨rfl, ?_⟩
    cases hr : (exec x).2 with
    | ok a => rw [e1 a hr]; exact h2.trans (List.prefix_append _ _)
    | error e => rw [e2 e hr]; exact h2

theorem strict_tolerant {x : Wr α} (h : Strict x) : Tolerant x := fun w => h.runFaulty w []

theorem tolerant_pure (a : α) : Tolerant (pure a : Wr α) := strict_tolerant (strict_pure a)

theorem tolerant_writeAll (bs : Bytes) : Tolerant (writeAll bs) := strict_tolerant (strict_writeAll bs)

theorem tolerant_encode {t : ToBer α} {v : α} (h : Tolerant (t.writeContent v)) :
    FaultTolerant t v :=
  tolerant_bind (strict_tolerant (strict_writeHeader t v)) fun _ => tolerant_bind h fun _ => tolerant_pure _

end Asn1

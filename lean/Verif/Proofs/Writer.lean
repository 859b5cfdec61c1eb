import Verif.Model.Encoder
import Verif.Proofs.Input
/-!
# Writers
-/
namespace Asn1

namespace Wr
variable {α β : Type}

@[simp] theorem exec_done (a : α) : exec (.done a) = ([], .ok a) := rfl
@[simp] theorem exec_fail (e : SerErr) : exec (.fail e : Wr α) = ([], .error e) := rfl
@[simp] theorem exec_pure (a : α) : exec (pure a : Wr α) = ([], .ok a) := rfl
@[simp] theorem exec_writeAll (bs : Bytes) : exec (writeAll bs) = (bs, .ok ()) := by
  simp [writeAll, exec]

theorem exec_bind (x : Wr α) (f : α → Wr β) :
    exec (x >>= f) = match exec x with
      | (bs, .ok a) => (bs ++ (exec (f a)).1, (exec (f a)).2)
      | (bs, .error e) => (bs, .error e) := by
  show exec (Wr.bind x f) = _
  induction x with
  | done a => simp [Wr.bind]
  | fail e => simp [Wr.bind]
  | write bs k ih =>
    simp only [Wr.bind, exec]
    rw [ih]
    cases h : exec (k (.ok ())) with
    | mk cs r => cases r <;> simp

/-- The program writes `bs` and returns `a` (on a writer that never fails). -/
def Writes (x : Wr α) (bs : Bytes) (a : α) : Prop := x.exec = (bs, .ok a)

theorem Writes.bind {x : Wr α} {f : α → Wr β} {bs cs : Bytes} {a : α} {b : β}
    (hx : Writes x bs a) (hf : Writes (f a) cs b) : Writes (x >>= f) (bs ++ cs) b := by
  unfold Writes at *
  rw [exec_bind, hx]; simp [hf]

theorem writes_pure (a : α) : Writes (pure a) [] a := rfl
theorem writes_writeAll (bs : Bytes) : Writes (writeAll bs) bs () := exec_writeAll bs

theorem Writes.congr {x : Wr α} {bs bs' : Bytes} {a a' : α} (h : Writes x bs a) (hb : bs = bs')
    (ha : a = a') : Writes x bs' a' := by subst hb; subst ha; exact h

theorem Writes.unique {x : Wr α} {bs cs : Bytes} {a b : α} (h : Writes x bs a)
    (h' : Writes x cs b) : bs = cs ∧ a = b := by
  unfold Writes at *
  rw [h] at h'; simpa using h'

theorem Writes.bind_inv {x : Wr α} {f : α → Wr β} {bs : Bytes} {b : β}
    (h : Writes (x >>= f) bs b) :
    ∃ cs ds a, Writes x cs a ∧ Writes (f a) ds b ∧ bs = cs ++ ds := by
  unfold Writes at *
  rw [exec_bind] at h
  split at h
  · rename_i cs a hx
    simp at h
    refine ⟨cs, (exec (f a)).1, a, hx, ?_, h.1.symm⟩
    rw [← h.2]
  · simp at h

/-- Every `write_all` error is propagated at once (the `?` operator), nothing is written
after it. -/
inductive Strict : Wr α → Prop where
  | done (a : α) : Strict (.done a)
  | fail (e : SerErr) : Strict (.fail e)
  | write (bs : Bytes) (k : Except SerErr Unit → Wr α) (hok : Strict (k (.ok ())))
      (herr : ∀ e, k (.error e) = .fail e) : Strict (.write bs k)

theorem Strict.bind {x : Wr α} {f : α → Wr β} (hx : Strict x) (hf : ∀ a, Strict (f a)) :
    Strict (x >>= f) := by
  show Strict (Wr.bind x f)
  induction hx with
  | done a => exact hf a
  | fail e => exact .fail e
  | write bs k hok herr ih =>
    exact .write _ _ ih (fun e => by simp [herr, Wr.bind])

theorem strict_pure (a : α) : Strict (pure a : Wr α) := .done a
theorem strict_writeAll (bs : Bytes) : Strict (writeAll bs) :=
  .write _ _ (.done ()) (fun _ => rfl)

/-- Against any writer, a strict program either does exactly what it does on a perfect writer,
or ends with the I/O error after a prefix of these bytes was accepted. -/
theorem Strict.runFaulty {x : Wr α} (hx : Strict x) (w : Writer) (hist : List Bytes) :
    runFaulty w x hist = exec x ∨
    ((runFaulty w x hist).2 = .error .io ∧ (runFaulty w x hist).1 <+: (exec x).1) := by
  induction hx generalizing hist with
  | done a => left; rfl
  | fail e => left; rfl
  | write bs k hok herr ih =>
    simp only [Wr.runFaulty, exec]
    cases hw : w hist bs with
    | none =>
      simp only
      rcases ih (bs :: hist) with h | ⟨h1, h2⟩
      · left; rw [h]
      · right
        exact ⟨h1, (List.prefix_append_right_inj bs).mpr h2⟩
    | some n =>
      right
      simp only [herr, Wr.runFaulty]
      refine ⟨trivial, ?_⟩
      simp only [List.append_nil]
      exact (List.take_prefix n bs).trans (List.prefix_append _ _)

end Wr
end Asn1

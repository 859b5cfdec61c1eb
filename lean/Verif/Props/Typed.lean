import Verif.Model.Integer
import Verif.Proofs.Codec
/-!
# Typed parsing, for every type at once
-/
namespace Asn1
open Spec

variable {α : Type}

/-- **C38** (BER) `from_ber` and `parse_ber` accept the same bytes and return the same value and
remainder, for every type whose `from_ber` is the blanket implementation. -/
theorem C38_ber_apis_agree (p : Parser α) (bytes rem : Bytes) (v : α) :
    fromBer p bytes = .ok (rem, v) ↔
      ∃ r, p.parseBer (Input.fromSlice bytes) = .ok (r, v) ∧ r.data = rem := by
  rw [fromBer_ok]
  constructor
  · rintro ⟨r, a, x, h1, h2, h3, h4⟩
    exact ⟨r, parseBer_ok.mpr ⟨a, x, h1, h3, h4⟩, h2⟩
  · rintro ⟨r, h, h2⟩
    obtain ⟨a, x, h1, h3, h4⟩ := parseBer_ok.mp h
    exact ⟨r, a, x, h1, h2, h3, h4⟩

/-- **C38** (DER) `from_der` accepts at most what `parse_ber` accepts, with the same value.
Missing: for ENUMERATED, BIT STRING and IMPLICIT tags the converse is false (see the deviations below). -/
theorem C38_from_der_subset_partial (p : Parser α) (check : Any → Except SErr Unit) (bytes rem : Bytes)
    (v : α) (h : fromDer p check bytes = .ok (rem, v)) : fromBer p bytes = .ok (rem, v) := by
  obtain ⟨r, a, x, h1, h2, _, h4, h5⟩ := fromDer_ok.mp h
  exact fromBer_ok.mpr ⟨r, a, x, C11_der_subset_ber_any _ _ _ h1, h2, h4, h5⟩

/-- A case. -/
example : fromBer (uintBer 2) [2, 2, 1, 0x2c, 0xff] = .ok ([0xff], 300) :=
  C38_from_der_subset_partial (uintBer 2) checkDerInt _ _ _ (by decide +kernel)

/-- **C05, C07** (typed) What is parsed as a given type does not depend on the bytes that follow,
and no proper prefix of a completely consumed value is accepted, for every type. -/
theorem C05_typed_extension_stable (p : Parser α) (x y : Bytes) (r : Input) (v : α) :
    (p.parseBer (Input.fromSlice x) = .ok (r, v) →
      p.parseBer (Input.fromSlice (x ++ y)) = .ok (⟨r.data ++ y, r.start, r.stop + y.length⟩, v)) ∧
    (p.parseDer (Input.fromSlice x) = .ok (r, v) →
      p.parseDer (Input.fromSlice (x ++ y)) = .ok (⟨r.data ++ y, r.start, r.stop + y.length⟩, v)) := by
  constructor
  · intro h
    obtain ⟨a, w, h1, h2, h3⟩ := parseBer_ok.mp h
    exact parseBer_ok.mpr ⟨a, w, (C05_extension_stable x y r a).1 h1, h2, h3⟩
  · intro h
    obtain ⟨a, w, h1, h2, h3⟩ := parseDer_ok.mp h
    exact parseDer_ok.mpr ⟨a, w, (C05_extension_stable x y r a).2 h1, h2, h3⟩

theorem C07_typed_no_truncation (p : Parser α) (x y : Bytes) (hy : y ≠ []) (r : Input) (v : α) :
    (p.parseBer (Input.fromSlice (x ++ y)) = .ok (r, v) → r.data = [] →
      ∀ w, p.parseBer (Input.fromSlice x) ≠ .ok w) ∧
    (p.parseDer (Input.fromSlice (x ++ y)) = .ok (r, v) → r.data = [] →
      ∀ w, p.parseDer (Input.fromSlice x) ≠ .ok w) := by
  constructor
  · rintro h hr ⟨r', w⟩ h'
    have := (C05_typed_extension_stable p x y r' w).1 h'
    rw [h] at this; simp at this
    rw [this.1] at hr; simp [hy] at hr
  · rintro h hr ⟨r', w⟩ h'
    have := (C05_typed_extension_stable p x y r' w).2 h'
    rw [h] at this; simp at this
    rw [this.1] at hr; simp [hy] at hr

/-- A case: an INTEGER without its last byte. -/
example : ∀ w, (uintBer 2).parseBer (Input.fromSlice [2, 2, 1]) ≠ .ok w :=
  (C07_typed_no_truncation (uintBer 2) [2, 2, 1] [0x2c] (by simp) ⟨[], 4, 4⟩ 300).1 (by decide +kernel) rfl

/-! ### Panics -/

/-- The content parser of a type neither panics nor loops. -/
def Parser.Safe (p : Parser α) : Prop :=
  ∀ h i, p.content h i ≠ .error .panic ∧ p.content h i ≠ .error .diverge

theorem bind_not {β γ : Type} {x : Except PErr β} {f : β → Except PErr γ} {e : PErr}
    (h1 : x ≠ .error e) (h2 : ∀ a, x = .ok a → f a ≠ .error e) : x >>= f ≠ .error e := by
  cases x with
  | error e' => simpa [Bind.bind, Except.bind] using h1
  | ok a => simpa [Bind.bind, Except.bind] using h2 a rfl

theorem bind_notS {β γ : Type} {x : Except SErr β} {f : β → Except SErr γ} {e : SErr}
    (h1 : x ≠ .error e) (h2 : ∀ a, x = .ok a → f a ≠ .error e) : x >>= f ≠ .error e := by
  cases x with
  | error e' => simpa [Bind.bind, Except.bind] using h1
  | ok a => simpa [Bind.bind, Except.bind] using h2 a rfl

theorem takeS_not {n : Nat} {i : Input} {e : PErr} (he : ∀ n, e ≠ .incomplete n) :
    takeS n i ≠ .error e := by
  rw [takeS_eq]
  split
  · simp
  · simpa using (he _).symm

theorem safe_parseBer {p : Parser α} (hp : p.Safe) (i : Input) :
    p.parseBer i ≠ .error .panic ∧ p.parseBer i ≠ .error .diverge := by
  have hc := fun h : Header => good_berContent h MAX_RECURSION
  unfold Parser.parseBer
  constructor
  · refine bind_not (good_parseHeader.noPanic i) fun a ha => ?_
    simp only
    split
    · simp [nomErr]
    · exact bind_not ((hc _).noPanic _) fun b hb => bind_not (hp _ _).1 fun c hc => by simp
  · refine bind_not (good_parseHeader.noDiverge i) fun a ha => ?_
    simp only
    split
    · simp [nomErr]
    · exact bind_not ((hc _).noDiverge _) fun b hb => bind_not (hp _ _).2 fun c hc => by simp

theorem definiteInner_not {l : Length} {i : Input} {e : PErr} (he : ∀ j f, e ≠ .error j f) :
    definiteInner l i ≠ .error e := by
  unfold definiteInner nomErr
  split
  · simp
  · simpa using (he _ _).symm

theorem safe_parseDer {p : Parser α} (hp : p.Safe) (i : Input) :
    p.parseDer i ≠ .error .panic ∧ p.parseDer i ≠ .error .diverge := by
  unfold Parser.parseDer
  constructor
  · refine bind_not (good_parseHeaderDer.noPanic i) fun a ha =>
      bind_not (definiteInner_not (by simp)) fun n hn => ?_
    split
    · simp [nomErr]
    · exact bind_not (takeS_not (by simp)) fun b hb => bind_not (hp _ _).1 fun c hc => by simp
  · refine bind_not (good_parseHeaderDer.noDiverge i) fun a ha =>
      bind_not (definiteInner_not (by simp)) fun n hn => ?_
    split
    · simp [nomErr]
    · exact bind_not (takeS_not (by simp)) fun b hb => bind_not (hp _ _).2 fun c hc => by simp

theorem safe_wrap {f : Input → PRes α} (h : ∀ i, f i ≠ .error .panic ∧ f i ≠ .error .diverge)
    (bytes : Bytes) : wrapBerParser f bytes ≠ .error .panic ∧
      wrapBerParser f bytes ≠ .error .diverge := by
  have := h (Input.fromSlice bytes)
  unfold wrapBerParser
  cases hf : f (Input.fromSlice bytes) with
  | ok x => simp
  | error e =>
    rw [hf] at this
    cases e <;> simp [SErr.convert] at this ⊢

theorem safe_tryFromAny {p : Parser α} (hp : p.Safe) (a : Any) :
    tryFromAny p a ≠ .error .panic ∧ tryFromAny p a ≠ .error .diverge := by
  have := hp a.header a.data
  unfold tryFromAny
  split
  · simp
  · cases hf : p.content a.header a.data with
    | ok x => simp
    | error e =>
      rw [hf] at this
      cases e <;> simp [SErr.fromNomBerr] at this ⊢

theorem safe_fromBer {p : Parser α} (hp : p.Safe) (bytes : Bytes) :
    fromBer p bytes ≠ .error .panic ∧ fromBer p bytes ≠ .error .diverge := by
  have h := safe_wrap (fun i => ⟨good_parseBerAny.noPanic i, good_parseBerAny.noDiverge i⟩) bytes
  unfold fromBer
  constructor
  · exact bind_notS h.1 fun a ha => bind_notS (safe_tryFromAny hp _).1 fun b hb => by
      simp [pure, Except.pure]
  · exact bind_notS h.2 fun a ha => bind_notS (safe_tryFromAny hp _).2 fun b hb => by
      simp [pure, Except.pure]

theorem safe_fromDer {p : Parser α} {check : Any → Except SErr Unit} (hp : p.Safe)
    (hck : ∀ a, check a ≠ .error .panic ∧ check a ≠ .error .diverge) (bytes : Bytes) :
    fromDer p check bytes ≠ .error .panic ∧ fromDer p check bytes ≠ .error .diverge := by
  have h := safe_wrap (fun i => ⟨good_parseDerAny.noPanic i, good_parseDerAny.noDiverge i⟩) bytes
  unfold fromDer
  constructor
  · exact bind_notS h.1 fun a ha => bind_notS (hck _).1 fun _ _ =>
      bind_notS (safe_tryFromAny hp _).1 fun b hb => by simp [pure, Except.pure]
  · exact bind_notS h.2 fun a ha => bind_notS (hck _).2 fun _ _ =>
      bind_notS (safe_tryFromAny hp _).2 fun b hb => by simp [pure, Except.pure]

end Asn1

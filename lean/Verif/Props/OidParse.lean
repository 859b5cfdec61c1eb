import Verif.Props.OidText
import Verif.Spec.Real
/-!
# Reading OIDs from text, in full (C57)
-/
namespace Asn1
open Spec

namespace Spec

/-- Text of a number: decimal digits (leading zeros are allowed) after an optional plus sign. -/
def NumberText (w : Bytes) (n : Nat) : Prop := ∃ d, (w = d ∨ w = 43 :: d) ∧ DigitsOf d n

/-- The parts of a text between its dots (there is at least one). -/
inductive DotParts : Bytes → List Bytes → Prop where
  | last (w : Bytes) : 46 ∉ w → DotParts w [w]
  | more (w rest : Bytes) (ws : List Bytes) : 46 ∉ w → DotParts rest ws →
      DotParts (w ++ 46 :: rest) (w :: ws)

end Spec

theorem dotParts_split (s : Bytes) : DotParts s (splitDots s) := by
  induction s with
  | nil => exact .last [] (by simp)
  | cons b s ih =>
    rw [splitDots]
    split
    · rename_i hb
      subst hb
      exact .more [] s _ (by simp) ih
    · rename_i hb
      split
      · rename_i h
        rw [h] at ih
        cases ih
      · rename_i w ws h
        rw [h] at ih
        generalize hl : w :: ws = l at ih
        cases ih with
        | last w' hw =>
          injection hl with h1 h2
          subst h1 h2
          exact .last _ (by simp; exact ⟨fun h => hb h.symm, hw⟩)
        | more w' rest ws' hw hr =>
          injection hl with h1 h2
          subst h1 h2
          exact .more (b :: w) rest ws (by simp; exact ⟨fun h => hb h.symm, hw⟩) hr

theorem dotParts_unique {s : Bytes} {ws : List Bytes} (h : DotParts s ws) : ws = splitDots s := by
  induction h with
  | last w hw =>
    exact ((splitDots_word w fun b hb h => hw (h ▸ hb)).1).symm
  | more w rest ws hw _ ih =>
    rw [(splitDots_word w fun b hb h => hw (h ▸ hb)).2, ih]

theorem foldDigits_le (d : Bytes) (acc : Nat) :
    acc ≤ d.foldl (fun a b => a * 10 + (b.toNat - 48)) acc := by
  induction d generalizing acc with
  | nil => exact Nat.le_refl _
  | cons b d ih =>
    have := ih (acc * 10 + (b.toNat - 48))
    simp only [List.foldl_cons]
    omega

theorem parseDigits_iff (d : Bytes) (acc n : Nat) : parseDigits d acc = some n ∧ (d = [] → acc < 2 ^ 64) ↔
    (∀ b ∈ d, 48 ≤ b.toNat ∧ b.toNat ≤ 57) ∧ n = d.foldl (fun a b => a * 10 + (b.toNat - 48)) acc ∧
      n < 2 ^ 64 := by
  induction d generalizing acc with
  | nil =>
    simp only [parseDigits, List.foldl_nil, List.not_mem_nil, false_implies, implies_true, true_and,
      true_implies, Option.some.injEq]
    constructor
    · rintro ⟨rfl, h⟩; exact ⟨rfl, h⟩
    · rintro ⟨rfl, h⟩; exact ⟨rfl, h⟩
  | cons b d ih =>
    simp only [parseDigits, List.foldl_cons, List.mem_cons, forall_eq_or_imp]
    have hle := foldDigits_le d (acc * 10 + (b.toNat - 48))
    constructor
    · rintro ⟨h, -⟩
      split at h
      · rename_i hb
        split at h
        · rename_i hlt
          obtain ⟨h1, h2, h3⟩ := (ih _).mp ⟨h, fun _ => hlt⟩
          exact ⟨⟨hb, h1⟩, h2, h3⟩
        · simp at h
      · simp at h
    · rintro ⟨⟨hb, h1⟩, h2, h3⟩
      refine ⟨?_, by simp⟩
      rw [if_pos hb, if_pos (by omega)]
      exact ((ih _).mpr ⟨h1, h2, h3⟩).1

theorem parseU64_iff (w : Bytes) (n : Nat) : parseU64 w = some n ↔ NumberText w n ∧ n < 2 ^ 64 := by
  have hp := parseDigits_iff
  unfold NumberText DigitsOf
  cases w with
  | nil =>
    simp only [parseU64]
    constructor
    · intro h; simp at h
    · rintro ⟨⟨d, h1 | h1, h2, _⟩, _⟩
      · exact absurd h1.symm h2
      · simp at h1
  | cons b w =>
    simp only [parseU64]
    by_cases hb : b = 43
    · subst hb
      simp only [if_true]
      by_cases hw : w = []
      · subst hw
        simp only [if_true]
        constructor
        · intro h; simp at h
        · rintro ⟨⟨d, h1 | h1, h2, h3, _⟩, _⟩
          · subst h1
            have := h3 43 (by simp)
            simp at this
          · injection h1 with _ h1
            exact absurd h1.symm h2
      · rw [if_neg hw]
        have := hp w 0 n
        simp only [hw, false_implies, and_true] at this
        rw [this]
        constructor
        · rintro ⟨h1, h2, h3⟩; exact ⟨⟨w, Or.inr rfl, hw, h1, h2⟩, h3⟩
        · rintro ⟨⟨d, h1 | h1, h2, h3, h4⟩, h5⟩
          · subst h1
            have := h3 43 (by simp)
            simp at this
          · injection h1 with _ h1
            subst h1
            exact ⟨h3, h4, h5⟩
    · rw [if_neg hb]
      have := hp (b :: w) 0 n
      simp only [reduceCtorEq, false_implies, and_true] at this
      rw [this]
      constructor
      · rintro ⟨h1, h2, h3⟩; exact ⟨⟨_, Or.inl rfl, by simp, h1, h2⟩, h3⟩
      · rintro ⟨⟨d, h1 | h1, h2, h3, h4⟩, h5⟩
        · subst h1; exact ⟨h3, h4, h5⟩
        · injection h1 with h1 _
          exact absurd h1 hb

theorem collectOption_iff {α β : Type} (f : α → Option β) (l : List α) (ys : List β) :
    collectOption f l = some ys ↔ Pointwise (fun a b => f a = some b) l ys := by
  induction l generalizing ys with
  | nil =>
    constructor
    · intro h; cases h; exact .nil
    · intro h; cases h; rfl
  | cons a l ih =>
    rw [collectOption]
    constructor
    · intro h
      split at h
      · simp at h
      · rename_i b hb
        cases hc : collectOption f l with
        | none => rw [hc] at h; simp at h
        | some zs =>
          rw [hc] at h
          injection h with h
          subst h
          exact .cons hb ((ih _).mp hc)
    · intro h
      cases h with
      | cons h1 h2 => rw [h1]; simp [(ih _).mpr h2]

/-- **C57** Reading an OID from text. If every part between the dots is the text of a number below `2^64`
(digits after an optional plus sign), the answer is that of `Oid::from` on the numbers; for any other text
the error is `ParseIntError`. -/
theorem C57_from_str (s : Bytes) :
    (∀ ws ns, DotParts s ws → Pointwise (fun w n => NumberText w n ∧ n < 2 ^ 64) ws ns →
      Oid.fromStr s = Oid.from ns) ∧
    ((¬ ∃ ws ns, DotParts s ws ∧ Pointwise (fun w n => NumberText w n ∧ n < 2 ^ 64) ws ns) →
      Oid.fromStr s = .error .parseIntError) := by
  have e : (fun w n => NumberText w n ∧ n < 2 ^ 64) = fun w n => parseU64 w = some n := by
    funext w n; exact propext (parseU64_iff w n).symm
  rw [e]
  refine ⟨fun ws ns h1 h2 => ?_, fun h => ?_⟩
  · rw [dotParts_unique h1] at h2
    rw [Oid.fromStr, (collectOption_iff _ _ _).mpr h2]
  · rw [Oid.fromStr]
    cases hc : collectOption parseU64 (splitDots s) with
    | none => rfl
    | some ns => exact absurd ⟨_, ns, dotParts_split s, (collectOption_iff _ _ _).mp hc⟩ h

/-- Cases: `+1.02` is read; `1..2` and a number of 65 bits are not. -/
example : Oid.fromStr (ascii "+1.02") = .ok ⟨[0x2a], false⟩ ∧
    Oid.fromStr (ascii "1..2") = .error .parseIntError ∧
    Oid.fromStr (ascii "1.2.18446744073709551616") = .error .parseIntError ∧
    Oid.fromStr (ascii "1") = .error .tooShort := by decide +kernel

end Asn1

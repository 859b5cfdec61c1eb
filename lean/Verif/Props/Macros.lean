import Verif.Model.Macros
import Verif.Spec.Macros
/-!
# The macros `oid!` and `int!`, from the text of a call to the code that replaces it (C58, C59)
-/
namespace Asn1
open Asn1.Spec

theorem isWhite_iff (b : UInt8) : isWhite b = true ↔ WhiteSpace b := by
  have : ∀ m < 256, (isWhite (UInt8.ofNat m) = true ↔ UInt8.ofNat m ∈ ([9, 10, 11, 12, 13, 32] : Bytes)) := by
    decide +kernel
  have := this b.toNat b.toNat_lt
  rwa [UInt8.ofNat_toNat] at this

theorem digit_not_white {b : UInt8} (h : 48 ≤ b.toNat ∧ b.toNat ≤ 57) : isWhite b = false := by
  have : ∀ m < 256, 48 ≤ m ∧ m ≤ 57 → isWhite (UInt8.ofNat m) = false := by decide +kernel
  have := this b.toNat b.toNat_lt h
  rwa [UInt8.ofNat_toNat] at this

theorem dropWhile_all {f : UInt8 → Bool} : ∀ {p : Bytes}, (∀ b ∈ p, f b = true) → ∀ c, (p ++ c).dropWhile f = c.dropWhile f
  | [], _, _ => rfl
  | a :: p, h, c => by
    rw [List.cons_append, List.dropWhile_cons, if_pos (h a List.mem_cons_self)]
    exact dropWhile_all (fun b hb => h b (List.mem_cons_of_mem _ hb)) c

theorem dropWhile_none {f : UInt8 → Bool} {c : Bytes} (h : ∀ b ∈ c, f b = false) (q : Bytes) (hc : c ≠ []) :
    (c ++ q).dropWhile f = c ++ q := by
  cases c with
  | nil => exact absurd rfl hc
  | cons a c => rw [List.cons_append, List.dropWhile_cons, if_neg (by simp [h a List.mem_cons_self])]

/-- A word without white space is what is left after trimming. -/
theorem trim_of {p core q : Bytes} (hp : ∀ b ∈ p, WhiteSpace b) (hq : ∀ b ∈ q, WhiteSpace b)
    (hc : ∀ b ∈ core, isWhite b = false) (hne : core ≠ []) : trimText (p ++ core ++ q) = core := by
  unfold trimText
  rw [List.append_assoc, dropWhile_all (fun b hb => (isWhite_iff b).mpr (hp b hb)), dropWhile_none hc q hne,
    List.reverse_append, dropWhile_all fun b hb => (isWhite_iff b).mpr (hq b (List.mem_reverse.mp hb))]
  have := dropWhile_none (c := core.reverse) (fun b hb => hc b (List.mem_reverse.mp hb)) []
    (by simpa using hne)
  rw [List.append_nil] at this
  rw [this, List.reverse_reverse]

/-- Trimming takes white space away on both sides. -/
theorem trim_parts (w : Bytes) : ∃ p q, w = p ++ trimText w ++ q ∧ (∀ b ∈ p, WhiteSpace b) ∧
    ∀ b ∈ q, WhiteSpace b := by
  have key : ∀ l : Bytes, ∀ b ∈ l.takeWhile isWhite, WhiteSpace b := by
    intro l b hb
    induction l with
    | nil => simp at hb
    | cons a l ih =>
      rw [List.takeWhile_cons] at hb
      split at hb
      · rename_i ha
        rcases List.mem_cons.mp hb with rfl | hb
        · exact (isWhite_iff _).mp ha
        · exact ih hb
      · simp at hb
  refine ⟨w.takeWhile isWhite, ((w.dropWhile isWhite).reverse.takeWhile isWhite).reverse, ?_, key w,
    fun b hb => key _ b (List.mem_reverse.mp hb)⟩
  unfold trimText
  rw [List.append_assoc, ← List.reverse_append, List.takeWhile_append_dropWhile, List.reverse_reverse,
    List.takeWhile_append_dropWhile]

theorem parseDigits128_iff (d : Bytes) (acc n : Nat) :
    parseDigits128 d acc = some n ∧ (d = [] → acc < 2 ^ 128) ↔
    (∀ b ∈ d, 48 ≤ b.toNat ∧ b.toNat ≤ 57) ∧ n = d.foldl (fun a b => a * 10 + (b.toNat - 48)) acc ∧
      n < 2 ^ 128 := by
  generalize hL : 2 ^ 128 = L
  induction d generalizing acc with
  | nil =>
    simp only [parseDigits128, List.foldl_nil, List.not_mem_nil, false_implies, implies_true, true_and,
      true_implies, Option.some.injEq]
    constructor
    · rintro ⟨rfl, h⟩; exact ⟨rfl, h⟩
    · rintro ⟨rfl, h⟩; exact ⟨rfl, h⟩
  | cons b d ih =>
    simp only [parseDigits128, List.foldl_cons, List.mem_cons, forall_eq_or_imp]
    rw [hL]
    have hle := foldDigits_le d (acc * 10 + (b.toNat - 48))
    constructor
    · rintro ⟨h, -⟩
      split at h
      · rename_i hb
        split at h
        · rename_i hlt
          obtain ⟨h1, h2, h3⟩ := (ih _).mp ⟨h, fun _ => hlt⟩
          exact ⟨⟨hb, h1⟩, h2, h3⟩
        · simp at h
      · simp at h
    · rintro ⟨⟨hb, h1⟩, h2, h3⟩
      refine ⟨?_, by simp⟩
      rw [if_pos hb, if_pos (by omega)]
      exact ((ih _).mpr ⟨h1, h2, h3⟩).1

theorem parseU128_iff (w : Bytes) (n : Nat) : parseU128 w = some n ↔ NumberText w n ∧ n < 2 ^ 128 := by
  have hp := parseDigits128_iff
  generalize 2 ^ 128 = L at *
  unfold NumberText DigitsOf
  cases w with
  | nil =>
    simp only [parseU128]
    constructor
    · intro h; simp at h
    · rintro ⟨⟨d, h1 | h1, h2, _⟩, _⟩
      · exact absurd h1.symm h2
      · simp at h1
  | cons b w =>
    simp only [parseU128]
    by_cases hb : b = 43
    · subst hb
      simp only [if_true]
      by_cases hw : w = []
      · subst hw
        simp only [if_true]
        constructor
        · intro h; simp at h
        · rintro ⟨⟨d, h1 | h1, h2, h3, _⟩, _⟩
          · subst h1
            have := h3 43 (by simp)
            simp at this
          · injection h1 with _ h1
            exact absurd h1.symm h2
      · rw [if_neg hw]
        have := hp w 0 n
        simp only [hw, false_implies, and_true] at this
        rw [this]
        constructor
        · rintro ⟨h1, h2, h3⟩; exact ⟨⟨w, Or.inr rfl, hw, h1, h2⟩, h3⟩
        · rintro ⟨⟨d, h1 | h1, h2, h3, h4⟩, h5⟩
          · subst h1
            have := h3 43 (by simp)
            simp at this
          · injection h1 with _ h1
            subst h1
            exact ⟨h3, h4, h5⟩
    · rw [if_neg hb]
      have := hp (b :: w) 0 n
      simp only [reduceCtorEq, false_implies, and_true] at this
      rw [this]
      constructor
      · rintro ⟨h1, h2, h3⟩; exact ⟨⟨_, Or.inl rfl, by simp, h1, h2⟩, h3⟩
      · rintro ⟨⟨d, h1 | h1, h2, h3, h4⟩, h5⟩
        · subst h1; exact ⟨h3, h4, h5⟩
        · injection h1 with h1 _
          exact absurd h1 hb

/-- The text of a number is not empty and has no white space. -/
theorem numberText_solid {w : Bytes} {n : Nat} (h : NumberText w n) : w ≠ [] ∧ ∀ b ∈ w, isWhite b = false := by
  obtain ⟨d, h1, hne, hd, _⟩ := h
  rcases h1 with rfl | rfl
  · exact ⟨hne, fun b hb => digit_not_white (hd b hb)⟩
  · refine ⟨by simp, fun b hb => ?_⟩
    rcases List.mem_cons.mp hb with rfl | hb
    · decide
    · exact digit_not_white (hd b hb)

theorem arcText_iff (w : Bytes) (n : Nat) : parseU128 (trimText w) = some n ↔ ArcText w n := by
  rw [parseU128_iff]
  constructor
  · rintro ⟨h1, h2⟩
    obtain ⟨p, q, h3, h4, h5⟩ := trim_parts w
    exact ⟨⟨p, _, q, h3, h4, h5, h1⟩, h2⟩
  · rintro ⟨⟨p, core, q, rfl, h1, h2, h3⟩, h4⟩
    obtain ⟨h5, h6⟩ := numberText_solid h3
    rw [trim_of h1 h2 h6 h5]
    exact ⟨h3, h4⟩

theorem arcsText_iff (s : Bytes) (ns : List Nat) :
    collectOption (fun w => parseU128 (trimText w)) (splitDots s) = some ns ↔ ArcsText s ns := by
  have e : ArcText = fun w n => parseU128 (trimText w) = some n := by
    funext w n; exact propext (arcText_iff w n).symm
  unfold ArcsText
  rw [collectOption_iff, e]
  constructor
  · intro h; exact ⟨_, dotParts_split s, h⟩
  · rintro ⟨ws, h1, h2⟩; rwa [dotParts_unique h1] at h2

theorem arcsText_unique {s : Bytes} {ns ms : List Nat} (h : ArcsText s ns) (h' : ArcsText s ms) : ns = ms := by
  rw [← arcsText_iff] at h h'
  rw [h] at h'
  exact Option.some.inj h'

theorem arcsText_bound {s : Bytes} {ns : List Nat} (h : ArcsText s ns) : ns ≠ [] ∧ ∀ n ∈ ns, n < 2 ^ 128 := by
  obtain ⟨ws, h1, h2⟩ := h
  constructor
  · rintro rfl
    cases h2
    cases h1
  · clear h1
    generalize hL : 2 ^ 128 = L
    induction h2 with
    | nil => simp
    | cons h _ ih =>
      intro n hn
      rcases List.mem_cons.mp hn with rfl | hn
      · exact hL ▸ h.2
      · exact ih n hn

theorem arrayCode_text (v : Bytes) : ArrayText (arrayCode v) v := by
  refine ⟨_, rfl, ?_⟩
  induction v with
  | nil => exact .nil
  | cons b v ih =>
    have hb := b.toNat_lt
    exact .cons (.hex (hexDigit_alphabet _ (by omega)) (hexDigit_alphabet _ (by omega))) ih

/-- The code made from numbers is that of the bytes of `encodeOidMacro`. -/
theorem encodeOidItems_code (rel : Bool) (ns : List Nat) (code : Bytes) (h : encodeOidItems rel ns = .ok code) :
    ∃ bs, ArrayText code bs ∧ encodeOidMacro rel ns = some bs := by
  unfold encodeOidItems encodeOidMacro at *
  cases rel with
  | true =>
    simp only [if_true] at *
    cases h
    exact ⟨_, arrayCode_text _, rfl⟩
  | false =>
    simp only [Bool.false_eq_true, if_false] at *
    match ns with
    | [] => cases h
    | [a] =>
      simp only at *
      split at h
      · rename_i ha
        rw [if_pos ha]
        cases h
        exact ⟨_, ⟨[48], rfl, .last .zero⟩, rfl⟩
      · cases h
    | a :: b :: rest =>
      simp only at *
      split at h
      · cases h
      · rename_i ha
        rw [if_neg ha]
        cases h
        exact ⟨_, arrayCode_text _, rfl⟩

/-- **C58** `oid!` on the text of its call (`rel ` before it for a relative OID). If the text is that of numbers
below `2^128` between dots, with any white space around the numbers, then the macro gives an array expression of
the content that the run-time constructor gives for these numbers; or the error is that there is only one number
(not 0), or that the first number is above 2 or the second above 39. Any other text does not parse. -/
theorem C58_macro_text (rel : Bool) (body : Bytes)
    (hrel : rel = false → ¬ ∃ b, body = [114, 101, 108, 32] ++ b) :
    let s := (if rel then [114, 101, 108, 32] else []) ++ body
    (∀ ns, ArcsText body ns →
      (∀ code, encodeOidText s = .ok code → ∃ bs, ArrayText code bs ∧
        (if rel then Oid.fromRelative ns else Oid.from ns) = .ok (oidMacro rel bs)) ∧
      (encodeOidText s = .error .tooShort ↔ rel = false ∧ ∃ a, ns = [a] ∧ a ≠ 0) ∧
      (encodeOidText s = .error .tooBig ↔ rel = false ∧ ∃ a b l, ns = a :: b :: l ∧ (2 < a ∨ 39 < b)) ∧
      encodeOidText s ≠ .error .couldNotParse) ∧
    ((¬ ∃ ns, ArcsText body ns) → encodeOidText s = .error .couldNotParse) := by
  intro s
  have hs : encodeOidText s = encodeOidBody rel body := by
    cases rel with
    | true => rfl
    | false =>
      show encodeOidText body = _
      unfold encodeOidText
      split
      · exact absurd ⟨_, rfl⟩ (hrel rfl)
      · rfl
  rw [hs]
  clear_value s
  constructor
  · intro ns hn
    obtain ⟨hne, hb⟩ := arcsText_bound hn
    have e : encodeOidBody rel body = encodeOidItems rel ns := by
      rw [encodeOidBody, (arcsText_iff body ns).mpr hn]
    rw [e]
    refine ⟨fun code hc => ?_, ?_, ?_, ?_⟩
    · obtain ⟨bs, h1, h2⟩ := encodeOidItems_code rel ns code hc
      obtain ⟨h3, h4, _⟩ := C58_oid_macro ns hb
      refine ⟨bs, h1, ?_⟩
      cases rel with
      | true =>
        obtain ⟨bs', h5, h6⟩ := h3 hne
        rw [h5] at h2
        cases h2
        exact h6
      | false => exact h4 bs h2
    all_goals
      cases rel with
      | true => simp [encodeOidItems]
      | false =>
        match ns, hne with
        | [a], _ =>
          by_cases ha : a = 0 <;> simp [encodeOidItems, ha]
        | a :: b :: l, _ =>
          by_cases ha : 2 < a ∨ 39 < b
          · rw [show encodeOidItems false (a :: b :: l) = .error .tooBig from if_pos ha]
            simp <;> exact ⟨_, _, ⟨rfl, rfl⟩, ha⟩
          · rw [show encodeOidItems false (a :: b :: l) = .ok _ from if_neg ha]
            simp <;> omega
  · intro hn
    rw [encodeOidBody]
    cases hc : collectOption (fun w => parseU128 (trimText w)) (splitDots body) with
    | none => rfl
    | some ns => exact absurd ⟨ns, (arcsText_iff body ns).mp hc⟩ hn

/-- Cases: white space around a number; a relative OID; one number; a number that is too big; hexadecimal; the
code. -/
example : (encodeOidText (ascii "1.2 . 840.\t113549")).toOption = some (ascii "[0x2a, 0x86, 0x48, 0x86, 0xf7, 0x0d, ]") ∧
    (encodeOidText (ascii "rel 8 . 130")).toOption = some (ascii "[0x08, 0x81, 0x02, ]") ∧
    (encodeOidText (ascii "0")).toOption = some (ascii "[0]") ∧
    encodeOidText (ascii "5") = .error .tooShort ∧
    encodeOidText (ascii "1.40") = .error .tooBig ∧
    encodeOidText (ascii "1.0x10") = .error .couldNotParse ∧
    encodeOidText (ascii "1.2.340282366920938463463374607431768211456") = .error .couldNotParse := by
  decide +kernel

example : ArcsText [49, 46, 32, 50] [1, 2] := (arcsText_iff _ _).mp (by decide +kernel)

/-- **C59** The code of `int!` is an array expression of the octets of C59, for the values of `u64`; there is no code
for any other. -/
theorem C59_code (v : Nat) :
    (v < 2 ^ 64 → ∃ code, encodeIntCode v = some code ∧ ArrayText code (encodeIntMacro v)) ∧
    (2 ^ 64 ≤ v → encodeIntCode v = none) := by
  unfold encodeIntCode
  constructor
  · intro h; rw [if_pos h]; exact ⟨_, rfl, arrayCode_text _⟩
  · intro h; rw [if_neg (by omega)]

/-- A case. -/
example : encodeIntCode 1234 = some (ascii "[0x04, 0xd2, ]") := by decide +kernel

end Asn1

import Verif.Spec.Messages
/-!
# The texts of errors (C126)
-/
namespace Asn1
open Spec

/-! ### Numbers -/

theorem digitChar_toNat {d : Nat} (h : d < 10) : (Char.ofNat (48 + d)).toNat = 48 + d := by
  have : ∀ d : Fin 10, (Char.ofNat (48 + d.val)).toNat = 48 + d.val := by decide
  exact this ⟨d, h⟩

theorem digitChar_range {d : Nat} (h : d < 10) :
    '0' ≤ Char.ofNat (48 + d) ∧ Char.ofNat (48 + d) ≤ '9' := by
  have : ∀ d : Fin 10, '0' ≤ Char.ofNat (48 + d.val) ∧ Char.ofNat (48 + d.val) ≤ '9' := by decide
  exact this ⟨d, h⟩

theorem numText_number (n : Nat) : Number n (numText n) := by
  induction n using Nat.strongRecOn with
  | _ n ih =>
    rw [numText]
    split
    · next h =>
      refine ⟨by simp, fun c hc => ?_, ?_⟩
      · rw [List.mem_singleton] at hc; subst hc; exact digitChar_range h
      · simp only [List.foldl_cons, List.foldl_nil, digitChar_toNat h]
        show 10 * 0 + (48 + n - 48) = n
        omega
    · next h =>
      obtain ⟨h1, h2, h3⟩ := ih (n / 10) (by omega)
      have hd : n % 10 < 10 := Nat.mod_lt _ (by decide)
      refine ⟨by simp, fun c hc => ?_, ?_⟩
      · rw [List.mem_append, List.mem_singleton] at hc
        rcases hc with hc | rfl
        · exact h2 c hc
        · exact digitChar_range hd
      · rw [List.foldl_append, h3]
        simp only [List.foldl_cons, List.foldl_nil, digitChar_toNat hd]
        show 10 * (n / 10) + (48 + n % 10 - 48) = n
        omega

theorem numText_inj {a b : Nat} (h : numText a = numText b) : a = b := by
  rw [← (numText_number a).2.2, ← (numText_number b).2.2, h]

/-- Two runs of digits, each followed by something that does not begin with a digit, are read apart. -/
theorem digits_apart : ∀ {l₁ l₂ r₁ r₂ : Text} (_ : ∀ c ∈ l₁, '0' ≤ c ∧ c ≤ '9')
    (_ : ∀ c ∈ l₂, '0' ≤ c ∧ c ≤ '9') (_ : ∀ c t, r₁ = c :: t → ¬ ('0' ≤ c ∧ c ≤ '9'))
    (_ : ∀ c t, r₂ = c :: t → ¬ ('0' ≤ c ∧ c ≤ '9')) (_ : l₁ ++ r₁ = l₂ ++ r₂), l₁ = l₂ ∧ r₁ = r₂
  | [], [], _, _, _, _, _, _, h => ⟨rfl, h⟩
  | [], c :: l, r₁, r₂, _, h2, h3, _, h => absurd (h2 c (by simp)) (h3 c (l ++ r₂) h)
  | c :: l, [], r₁, r₂, h1, _, _, h4, h => absurd (h1 c (by simp)) (h4 c (l ++ r₁) h.symm)
  | c :: l₁, d :: l₂, r₁, r₂, h1, h2, h3, h4, h => by
    have e := List.cons.inj h
    obtain ⟨e1, e2⟩ := digits_apart (fun c hc => h1 c (List.mem_cons_of_mem _ hc))
      (fun c hc => h2 c (List.mem_cons_of_mem _ hc)) h3 h4 e.2
    exact ⟨by rw [e.1, e1], e2⟩

theorem num_apart {a b : Nat} {c : Char} {r₁ r₂ : Text} (hc : ¬ ('0' ≤ c ∧ c ≤ '9'))
    (h : numText a ++ c :: r₁ = numText b ++ c :: r₂) : a = b ∧ r₁ = r₂ := by
  have stop : ∀ r : Text, ∀ d t, c :: r = d :: t → ¬ ('0' ≤ d ∧ d ≤ '9') := by
    intro r d t e; rw [← (List.cons.inj e).1]; exact hc
  obtain ⟨e1, e2⟩ := digits_apart (numText_number a).2.1 (numText_number b).2.1 (stop r₁) (stop r₂) h
  exact ⟨numText_inj e1, (List.cons.inj e2).2⟩

/-! ### Texts that say where they end -/

/-- The text of a value is never the beginning of the text of another one. -/
def Ends {α : Type} (f : α → Text) : Prop :=
  ∀ a b r₁ r₂, f a ++ r₁ = f b ++ r₂ → a = b ∧ r₁ = r₂

theorem Ends.inj {α : Type} {f : α → Text} (h : Ends f) {a b : α} (e : f a = f b) : a = b :=
  (h a b [] [] (by simpa using e)).1

theorem lit_eq (s : String) : lit s = s.toList := by unfold lit; rfl

theorem closing (r : Text) : lit ")" ++ r = ')' :: r := by rw [lit_eq]; rfl

/-- Texts beginning with different characters. -/
theorem heads_apart {α : Prop} {c d : Char} {s t r₁ r₂ : Text} (hs : s.head? = some c)
    (ht : t.head? = some d) (hcd : c ≠ d) (h : s ++ r₁ = t ++ r₂) : α := by
  cases s <;> cases t <;> simp only [List.head?_cons, List.head?_nil, Option.some.injEq, reduceCtorEq] at hs ht
  subst hs ht
  exact absurd (List.cons.inj h).1 hcd

theorem ends_tag : Ends tagText := fun a b r₁ r₂ h => by
  simp only [tagText, List.append_assoc, closing] at h
  exact num_apart (by decide) (List.append_cancel_left h)

theorem ends_needed : Ends Needed.debugText := fun a b r₁ r₂ h => by
  cases a with
  | unknown =>
    cases b with
    | unknown => exact ⟨rfl, List.append_cancel_left h⟩
    | size n =>
      simp only [Needed.debugText, List.append_assoc] at h
      exact heads_apart (c := 'U') (d := 'S') (by rw [lit_eq]; rfl) (by rw [lit_eq]; rfl) (by decide) h
  | size m =>
    cases b with
    | unknown =>
      simp only [Needed.debugText, List.append_assoc] at h
      exact heads_apart (c := 'S') (d := 'U') (by rw [lit_eq]; rfl) (by rw [lit_eq]; rfl) (by decide) h
    | size n =>
      simp only [Needed.debugText, List.append_assoc, closing] at h
      obtain ⟨e, e'⟩ := num_apart (by decide) (List.append_cancel_left h)
      exact ⟨by rw [e], e'⟩

/-- The first character of the name of a class. -/
def Class.initial : Class → Char
  | .universal => 'U' | .application => 'A' | .contextSpecific => 'C' | .priv => 'P'

theorem class_initial (c : Class) : c.debugText.head? = some c.initial := by
  cases c <;> (simp only [Class.debugText, lit_eq]; rfl)

theorem ends_class : Ends Class.debugText := fun a b r₁ r₂ h => by
  by_cases hab : a.initial = b.initial
  · have : a = b := by revert hab; cases a <;> cases b <;> decide
    subst this
    exact ⟨rfl, List.append_cancel_left h⟩
  · exact heads_apart (class_initial a) (class_initial b) hab h

theorem ends_opt {α : Type} {f : α → Text} (hf : Ends f) : Ends (optText f) := fun a b r₁ r₂ h => by
  cases a with
  | none =>
    cases b with
    | none => exact ⟨rfl, List.append_cancel_left h⟩
    | some y =>
      simp only [optText, List.append_assoc] at h
      exact heads_apart (c := 'N') (d := 'S') (by rw [lit_eq]; rfl) (by rw [lit_eq]; rfl) (by decide) h
  | some x =>
    cases b with
    | none =>
      simp only [optText, List.append_assoc] at h
      exact heads_apart (c := 'S') (d := 'N') (by rw [lit_eq]; rfl) (by rw [lit_eq]; rfl) (by decide) h
    | some y =>
      simp only [optText, List.append_assoc] at h
      obtain ⟨e, e'⟩ := hf _ _ _ _ (List.append_cancel_left h)
      exact ⟨by rw [e], List.append_cancel_left e'⟩

theorem constraint_inj {a b : DerConstraint} (h : a.debugText = b.debugText) : a = b := by
  revert h; cases a <;> cases b <;> decide +kernel

/-! ### Which error a text belongs to -/

/-- The number of the variant. -/
def Error.variant : Error → Nat
  | .berTypeError => 0 | .berValueError => 1 | .invalidLength => 2 | .invalidValue _ _ => 3
  | .invalidTag => 4 | .unknownTag _ => 5 | .unexpectedTag _ _ => 6 | .unexpectedClass _ _ => 7
  | .indefiniteLengthUnexpected => 8 | .constructExpected => 9 | .constructUnexpected => 10
  | .integerTooLarge => 11 | .integerNegative => 12 | .berMaxDepth => 13 | .stringInvalidCharset => 14
  | .invalidDateTime => 15 | .derConstraintFailed _ => 16 | .lifetimeError => 17 | .unsupported => 18
  | .incomplete _ => 19 | .nomError _ => 20

/-- The place of the first beginning that fits. -/
def firstFit (t : Text) : List Text → Nat
  | [] => 0
  | w :: ws => if w.isPrefixOf t then 0 else firstFit t ws + 1

/-- The beginnings of the texts, in the order of the variants. -/
def beginnings : List Text := ["BER object does not have the expected t".toList,
  "BER object does not have the expected v".toList, "Invalid L".toList, "Invalid V".toList,
  "Invalid T".toList, "Unk".toList, "Unexpected T".toList, "Unexpected C".toList, "Ind".toList,
  "DER object was expected to be c".toList, "DER object was expected to be p".toList, "Int".toList,
  "BER i".toList, "BER r".toList, "Invalid e".toList, "Invalid D".toList, "DER F".toList, "R".toList,
  "F".toList, "i".toList, "n".toList]

theorem text_variant (lib : TextLib) (e : Error) : firstFit (e.text lib) beginnings = e.variant := by
  cases e <;> (simp only [Error.text, lit_eq]; rfl)

/-- The beginnings of the texts by `Debug`. -/
def debugBeginnings : List Text := ["BerT".toList, "BerV".toList, "InvalidL".toList, "InvalidV".toList,
  "InvalidT".toList, "Unk".toList, "UnexpectedT".toList, "UnexpectedC".toList, "Ind".toList,
  "ConstructE".toList, "ConstructU".toList, "IntegerT".toList, "IntegerN".toList, "BerM".toList,
  "S".toList, "InvalidD".toList, "D".toList, "L".toList, "Uns".toList, "Inc".toList, "N".toList]

theorem debug_variant (lib : TextLib) (e : Error) :
    firstFit (e.debugText lib) debugBeginnings = e.variant := by
  cases e <;> (simp only [Error.debugText, lit_eq]; rfl)

theorem error_text_inj {lib : TextLib} (hk : TellsApart lib.kind) {a b : Error}
    (h : a.text lib = b.text lib) : a = b := by
  have hv : a.variant = b.variant := by rw [← text_variant lib a, ← text_variant lib b, h]
  cases a <;> cases b <;> simp only [Error.variant, reduceCtorEq, Nat.reduceEqDiff] at hv <;>
    first | rfl | skip
  all_goals simp only [Error.text, List.append_assoc, List.append_cancel_left_eq] at h
  case invalidValue.invalidValue t m t' m' =>
    obtain ⟨e, e'⟩ := ends_tag _ _ _ _ h
    rw [List.append_cancel_left_eq] at e'
    rw [e, String.toList_inj.mp e']
  case unknownTag.unknownTag t t' =>
    rw [numText_inj h]
  case unexpectedTag.unexpectedTag x t x' t' =>
    obtain ⟨e, e'⟩ := ends_opt ends_tag _ _ _ _ h
    rw [List.append_cancel_left_eq] at e'
    rw [e, (ends_tag _ _ _ _ e').1]
  case unexpectedClass.unexpectedClass x t x' t' =>
    obtain ⟨e, e'⟩ := ends_opt ends_class _ _ _ _ h
    rw [List.append_cancel_left_eq] at e'
    rw [e, (ends_class _ _ _ _ e').1]
  case derConstraintFailed.derConstraintFailed c c' =>
    rw [constraint_inj h]
  case incomplete.incomplete n n' =>
    rw [ends_needed.inj h]
  case nomError.nomError k k' =>
    rw [hk _ _ h]

theorem error_debug_inj {lib : TextLib} (hl : Distinct lib) {a b : Error}
    (h : a.debugText lib = b.debugText lib) : a = b := by
  have hv : a.variant = b.variant := by rw [← debug_variant lib a, ← debug_variant lib b, h]
  cases a <;> cases b <;> simp only [Error.variant, reduceCtorEq, Nat.reduceEqDiff] at hv <;>
    first | rfl | skip
  all_goals simp only [Error.debugText, List.append_assoc, List.append_cancel_left_eq] at h
  case invalidValue.invalidValue t m t' m' =>
    obtain ⟨e, e'⟩ := ends_tag _ _ _ _ h
    rw [List.append_cancel_left_eq, List.append_cancel_right_eq] at e'
    rw [e, hl.quote _ _ e']
  case unknownTag.unknownTag t t' =>
    rw [List.append_cancel_right_eq] at h
    rw [numText_inj h]
  case unexpectedTag.unexpectedTag x t x' t' =>
    obtain ⟨e, e'⟩ := ends_opt ends_tag _ _ _ _ h
    rw [List.append_cancel_left_eq] at e'
    rw [e, (ends_tag _ _ _ _ e').1]
  case unexpectedClass.unexpectedClass x t x' t' =>
    obtain ⟨e, e'⟩ := ends_opt ends_class _ _ _ _ h
    rw [List.append_cancel_left_eq] at e'
    rw [e, (ends_class _ _ _ _ e').1]
  case derConstraintFailed.derConstraintFailed c c' =>
    rw [List.append_cancel_right_eq] at h
    rw [constraint_inj h]
  case incomplete.incomplete n n' =>
    rw [(ends_needed _ _ _ _ h).1]
  case nomError.nomError k k' =>
    rw [List.append_cancel_right_eq] at h
    rw [hl.kind _ _ h]

/-! ### The claims -/

/-- Libraries that tell things apart exist: kinds shown by their number, strings as they are. -/
def plainLib : TextLib := ⟨fun k => numText k.code, fun m => m.toList, [], []⟩

theorem plainLib_distinct : Distinct plainLib :=
  ⟨fun a b h => by cases a; cases b; exact congrArg ErrorKind.mk (numText_inj h),
   fun _ _ h => String.toList_inj.mp h⟩

/-- **C126.** No two different errors (`Error`) have the same text: the text tells the variant and every
field of it. -/
theorem C126_error_text {lib : TextLib} (hk : TellsApart lib.kind) : TellsApart (Error.text lib) :=
  fun _ _ h => error_text_inj hk h

example : TellsApart (Error.text plainLib) := C126_error_text plainLib_distinct.kind
example : Error.text plainLib (.unexpectedTag (some 2) 16)
    = "Unexpected Tag (expected: Some(Tag(2)), actual: Tag(16))".toList := by decide +kernel
example : Error.text plainLib (.invalidValue 23 "malformed")
    = "Invalid Value when parsing object with tag Tag(23) malformed".toList := by decide +kernel

/-- **C126.** An error of the parsers (`InnerError`) and the flat error (`Error`) made from it have the
same text, except for nom's own errors. -/
theorem C126_flat_text_partial (lib : TextLib) {e : InnerError} (h : ∀ k, e ≠ .nom k) :
    (Error.ofInner e).text lib = e.text := by
  cases e <;> first | rfl | exact absurd rfl (h _)

example : (Error.ofInner (.incomplete (.size 12))).text plainLib = "incomplete data, missing: Size(12)".toList :=
  (C126_flat_text_partial plainLib (fun _ h => by cases h)).trans (by decide +kernel)

theorem variant_small (e : Error) : e.variant < 21 := by
  cases e <;> simp only [Error.variant] <;> decide

theorem nom_alone (lib : TextLib) (e : Error) : e.text lib ≠ lit "Parse error" := fun h => by
  have h1 := text_variant lib e
  have h2 : firstFit (lit "Parse error") beginnings = 21 := by rw [lit_eq]; rfl
  have := variant_small e
  rw [h, h2] at h1
  omega

/-- **C126.** Two errors of the parsers with the same text are the same, or both come from nom (whose
kind is not in the text). -/
theorem C126_inner_text_partial {a b : InnerError} (h : a.text = b.text) :
    a = b ∨ ∃ k k', a = .nom k ∧ b = .nom k' := by
  by_cases ha : ∀ k, a ≠ .nom k
  · by_cases hb : ∀ k, b ≠ .nom k
    · left
      have := error_text_inj plainLib_distinct.kind (a := Error.ofInner a) (b := Error.ofInner b)
        (by rw [C126_flat_text_partial plainLib ha, C126_flat_text_partial plainLib hb, h])
      revert this
      intro this
      have := congrArg InnerError.ofError this
      rwa [show InnerError.ofError (Error.ofInner a) = a by cases a <;> rfl,
        show InnerError.ofError (Error.ofInner b) = b by cases b <;> rfl] at this
    · obtain ⟨k, rfl⟩ := Classical.not_forall_not.mp hb
      exact absurd ((C126_flat_text_partial plainLib ha).trans h) (nom_alone _ _)
  · obtain ⟨k, rfl⟩ := Classical.not_forall_not.mp ha
    by_cases hb : ∀ k, b ≠ .nom k
    · exact absurd ((C126_flat_text_partial plainLib hb).trans h.symm) (nom_alone _ _)
    · obtain ⟨k', rfl⟩ := Classical.not_forall_not.mp hb
      exact .inr ⟨k, k', rfl, rfl⟩

example : (InnerError.unexpectedClass none .priv).text ≠ (InnerError.unexpectedClass (some .priv) .priv).text :=
  fun h => by rcases C126_inner_text_partial h with h | ⟨k, k', h, _⟩ <;> cases h

theorem input_apart {i j : Input} {r₁ r₂ : Text} (h : i.text ++ r₁ = j.text ++ r₂) :
    i.start = j.start ∧ i.stop = j.stop ∧ r₁ = r₂ := by
  have he : ∀ r : Text, lit " end=" ++ r = ' ' :: ("end=".toList ++ r) := fun r => by rw [lit_eq]; rfl
  simp only [Input.text, List.append_assoc, List.append_cancel_left_eq] at h
  rw [he, he] at h
  obtain ⟨e1, e2⟩ := num_apart (by decide) h
  rw [List.append_cancel_left_eq, closing, closing] at e2
  obtain ⟨e3, e4⟩ := num_apart (by decide) e2
  exact ⟨e1, e3, e4⟩

/-- **C126.** The text of a located error (`BerError`) tells where it happened and what happened: errors
with the same text have the same place, and the same reason or are both nom's. -/
theorem C126_ber_text_partial {a b : BerErr} (h : a.text = b.text) :
    a.input.start = b.input.start ∧ a.input.stop = b.input.stop ∧
      (a.inner = b.inner ∨ ∃ k k', a.inner = .nom k ∧ b.inner = .nom k') := by
  simp only [BerErr.text, List.append_assoc, List.append_cancel_left_eq] at h
  obtain ⟨e1, e2, e3⟩ := input_apart h
  rw [List.append_cancel_left_eq] at e3
  exact ⟨e1, e2, C126_inner_text_partial e3⟩

example : (BerErr.mk ⟨[1, 2], 7, 9⟩ .invalidLength).text
    = "BerError: input=Input(start=7 end=9) error=Invalid Length".toList := by decide +kernel

/-- **C126.** The text of a located error contains the place in decimal and the text of the reason. -/
theorem C126_place (e : BerErr) : ∃ s t, Number e.input.start s ∧ Number e.input.stop t ∧
    Mentions e.text ("start=".toList ++ s ++ " end=".toList ++ t ++ ")".toList) ∧
    Mentions e.text e.inner.text := by
  refine ⟨_, _, numText_number _, numText_number _,
    ⟨"BerError: input=Input(".toList, lit " error=" ++ e.inner.text, ?_⟩,
    ⟨lit "BerError: input=" ++ e.input.text ++ lit " error=", [], ?_⟩⟩
  · have h1 : lit "BerError: input=" ++ lit "Input(start=" = "BerError: input=Input(".toList ++ "start=".toList := by
      rw [lit_eq, lit_eq]; decide +kernel
    simp only [BerErr.text, Input.text, ← List.append_assoc, h1]
    simp only [lit_eq]
  · simp [BerErr.text]

/-- **C126.** The texts of wrong tags and classes contain what was expected and what was found, each
under its name. -/
theorem C126_expected (lib : TextLib) (x : Option Nat) (t : Nat) (y : Option Class) (c : Class) :
    (∃ n, Number t n ∧ Mentions (Error.text lib (.unexpectedTag x t)) ("actual: Tag(".toList ++ n ++ ")".toList)) ∧
    (match x with
      | none => Mentions (Error.text lib (.unexpectedTag x t)) "expected: None,".toList
      | some u => ∃ n, Number u n ∧
        Mentions (Error.text lib (.unexpectedTag x t)) ("expected: Some(Tag(".toList ++ n ++ ")),".toList)) ∧
    Mentions (Error.text lib (.unexpectedClass y c)) ("actual: ".toList ++ c.debugText ++ ")".toList) ∧
    (match y with
      | none => Mentions (Error.text lib (.unexpectedClass y c)) "expected: None,".toList
      | some d => Mentions (Error.text lib (.unexpectedClass y c))
          ("expected: Some(".toList ++ d.debugText ++ "),".toList)) := by
  have cut : ∀ {a b c : Text} (r : Text), a ++ b = c → a ++ (b ++ r) = c ++ r := fun r h => by
    rw [← List.append_assoc, h]
  have hA : lit ", actual: " ++ lit "Tag(" = ", ".toList ++ "actual: Tag(".toList := by
    rw [lit_eq, lit_eq]; decide +kernel
  have hA' : lit ", actual: " = ", ".toList ++ "actual: ".toList := by rw [lit_eq]; decide +kernel
  have hB : lit ", actual: " = ",".toList ++ " actual: ".toList := by rw [lit_eq]; decide +kernel
  have hT : lit "Unexpected Tag (expected: " = "Unexpected Tag (".toList ++ "expected: ".toList := by
    rw [lit_eq]; decide +kernel
  have hC : lit "Unexpected Class (expected: " = "Unexpected Class (".toList ++ "expected: ".toList := by
    rw [lit_eq]; decide +kernel
  have hN : "expected: ".toList ++ lit "None" ++ ",".toList = "expected: None,".toList := by
    rw [lit_eq]; decide +kernel
  have hS : "expected: ".toList ++ lit "Some(" = "expected: Some(".toList := by rw [lit_eq]; decide +kernel
  have hS' : "expected: ".toList ++ lit "Some(" ++ lit "Tag(" = "expected: Some(Tag(".toList := by
    rw [lit_eq, lit_eq]; decide +kernel
  have hP : lit ")" ++ ",".toList = "),".toList := by rw [lit_eq]; decide +kernel
  have hP' : lit ")" ++ lit ")" ++ ",".toList = ")),".toList := by rw [lit_eq]; decide +kernel
  refine ⟨⟨_, numText_number t, lit "Unexpected Tag (expected: " ++ optText tagText x ++ ", ".toList,
    lit ")", ?_⟩, ?_,
    ⟨lit "Unexpected Class (expected: " ++ optText Class.debugText y ++ ", ".toList, [], ?_⟩, ?_⟩
  · simp only [Error.text, tagText, List.append_assoc]
    rw [cut _ hA]
    simp only [lit_eq, List.append_assoc]
  · cases x with
    | none =>
      refine ⟨"Unexpected Tag (".toList, " actual: ".toList ++ tagText t ++ lit ")", ?_⟩
      rw [← hN]
      simp only [Error.text, optText, hT, hB, List.append_assoc]
    | some u =>
      refine ⟨_, numText_number u, "Unexpected Tag (".toList, " actual: ".toList ++ tagText t ++ lit ")", ?_⟩
      rw [← hS', ← hP']
      simp only [Error.text, optText, hT, hB, List.append_assoc]
      rw [tagText]
      simp only [List.append_assoc]
  · simp only [Error.text, hA', List.append_assoc, List.append_nil, lit_eq]
  · cases y with
    | none =>
      refine ⟨"Unexpected Class (".toList, " actual: ".toList ++ c.debugText ++ lit ")", ?_⟩
      rw [← hN]
      simp only [Error.text, optText, hC, hB, List.append_assoc]
    | some d =>
      refine ⟨"Unexpected Class (".toList, " actual: ".toList ++ c.debugText ++ lit ")", ?_⟩
      rw [← hS, ← hP]
      simp only [Error.text, optText, hC, hB, List.append_assoc]

/-- **C126.** The texts of classes and of DER constraints tell them apart. -/
theorem C126_class_text : TellsApart Class.text ∧ TellsApart DerConstraint.text := by
  constructor
  · intro a b; cases a <;> cases b <;> decide +kernel
  · intro a b; cases a <;> cases b <;> decide +kernel

-- src/class.rs:91-97, the test `methods_class`
example : [Class.universal, .application, .contextSpecific, .priv].map Class.text
    = ["UNIVERSAL", "APPLICATION", "CONTEXT-SPECIFIC", "PRIVATE"].map String.toList := by decide +kernel

/-- The number of the variant of `SerializeError`. -/
def SerErr.variant : SerErr → Nat
  | .asn1 _ => 0 | .invalidClass _ => 1 | .invalidLength => 2 | .io => 3 | .tagTooLong => 3 | .panic => 4

theorem ser_variant {lib : TextLib} {e : SerErr} {t : Text} (h : e.text lib = some t) :
    firstFit t ["A".toList, "Invalid C".toList, "Invalid L".toList, "I/".toList] = e.variant := by
  cases e <;> simp only [SerErr.text, Option.some.injEq, reduceCtorEq] at h <;> subst h <;>
    (simp only [lit_eq]; rfl)

/-- **C126.** The text of an error of the encoders tells it apart from every other one, except that the
errors of the writer are known only as far as their own text goes. -/
theorem C126_serialize_text_partial {lib : TextLib} (hl : Distinct lib) {a b : SerErr} {t : Text}
    (ha : a.text lib = some t) (hb : b.text lib = some t) :
    a = b ∨ (a = .io ∨ a = .tagTooLong) ∧ (b = .io ∨ b = .tagTooLong) := by
  have hv : a.variant = b.variant := by rw [← ser_variant ha, ← ser_variant hb]
  have h : a.text lib = b.text lib := ha.trans hb.symm
  cases a <;> cases b <;> simp only [SerErr.variant, reduceCtorEq, Nat.reduceEqDiff] at hv
  case asn1.asn1 e e' =>
    have h := Option.some.inj h
    rw [List.append_cancel_left_eq] at h
    rw [error_debug_inj hl h]; exact .inl rfl
  case invalidClass.invalidClass c c' =>
    have h := Option.some.inj h
    rw [List.append_cancel_left_eq] at h
    rw [numText_inj h]; exact .inl rfl
  case invalidLength.invalidLength => exact .inl rfl
  case panic.panic => exact .inl rfl
  all_goals exact .inr ⟨by simp, by simp⟩

example : SerErr.text plainLib (.asn1 (.unexpectedTag none 5))
    = some "ASN.1 error: UnexpectedTag { expected: None, actual: Tag(5) }".toList := by decide +kernel

/-- **C126.** What the texts do not tell: the kind of an error of nom, which the flat error does tell, and
the bytes at the place of the error. -/
theorem C126_deviations {lib : TextLib} (hk : TellsApart lib.kind) :
    (∀ k₁ k₂, (InnerError.nom k₁).text = (InnerError.nom k₂).text) ∧
    (∀ k k', k ≠ k' → (Error.ofInner (.nom k)).text lib ≠ (Error.ofInner (.nom k')).text lib) ∧
    (∀ bs bs' s t e, (BerErr.mk ⟨bs, s, t⟩ e).text = (BerErr.mk ⟨bs', s, t⟩ e).text) :=
  ⟨fun _ _ => rfl, fun _ _ hne h => hne (Error.nomError.inj (error_text_inj hk h)), fun _ _ _ _ _ => rfl⟩

example : (Error.ofInner (.nom ⟨1⟩)).text plainLib ≠ (Error.ofInner (.nom ⟨2⟩)).text plainLib :=
  (C126_deviations plainLib_distinct.kind).2.1 _ _ (by decide)

end Asn1

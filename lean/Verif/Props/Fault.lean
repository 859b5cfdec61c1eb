import Verif.Spec.Fault
import Verif.Props.Form
import Verif.Props.Time
import Verif.Props.CharStrings
import Verif.Props.Simple
import Verif.Props.BitString
import Verif.Props.DeriveEnum
import Verif.Proofs.TwoWay
import Verif.Proofs.Real
/-!
# The error names what is wrong with the content (C120)
-/
namespace Asn1
open Spec

variable {α : Type}

/-- On every content the parser either reports its fault, or there is none and a value is returned. -/
def Judges (m : Rules) (k : Kind) (p : Parser α) : Prop :=
  ∀ h i, p.acceptTag h.tag = true → h.constructed = false → h.length = .definite i.data.length →
    (∃ loc e, p.content h i = .error (.error loc e) ∧ Fault m k i.data (plainError e)) ∨
    ((∃ x v, p.content h i = .ok (x, v)) ∧ ∀ e, ¬ Fault m k i.data e)

/-- A fault of numbers, of a kind that has none. -/
local macro "other_kind" : tactic =>
  `(tactic| first | (rename Kind.Number _ => hk; cases hk; done) | (rename Kind.Unsigned _ _ => hk; cases hk; done))

theorem judges_map {β : Type} {m : Rules} {k : Kind} {p : Parser α} (f : α → β) (hp : Judges m k p) :
    Judges m k (p.map f) := by
  intro h i ht hc hl
  rcases hp h i ht hc hl with ⟨loc, e, h1, h2⟩ | ⟨⟨x, v, h1⟩, h2⟩
  · exact .inl ⟨loc, e, by simp only [Parser.map, h1], h2⟩
  · exact .inr ⟨⟨x, f v, by simp only [Parser.map, h1]⟩, h2⟩

theorem assertPrimitive_prim {h : Header} (hc : h.constructed = false) (i : Input) :
    h.assertPrimitive i = .ok () := assertPrimitive_ok.mpr hc

theorem beU8_head {i : Input} {b : UInt8} {c : Bytes} (h : i.data = b :: c) : ∃ x, beU8 i = .ok (x, b) := by
  simp [beU8, h]

theorem boolean_octets {h : Header} {i : Input} (hc : h.constructed = false)
    (hl : h.length = .definite i.data.length) :
    (i.data.length ≠ 1 ∧ booleanContent h i = .error (.error i .invalidLength)) ∨
    ∃ b x, i.data = [b] ∧ booleanContent h i = .ok (x, b) := by
  unfold booleanContent
  rw [assertPrimitive_prim hc, bind_ok, hl]
  by_cases h1 : i.data.length = 1
  · obtain ⟨b, hb⟩ := List.length_eq_one_iff.mp h1
    obtain ⟨x, hx⟩ := beU8_head hb
    exact .inr ⟨b, x, hb, by rw [if_neg (by simp [h1]), hx]⟩
  · exact .inl ⟨h1, by rw [if_pos (by simpa using h1)]; rfl⟩

theorem judges_booleanBer : Judges .ber .boolean booleanBer := by
  intro h i _ hc hl
  rcases boolean_octets hc hl with ⟨h1, h2⟩ | ⟨b, x, h1, h2⟩
  · exact .inl ⟨_, _, h2, .booleanLength h1⟩
  · refine .inr ⟨⟨_, _, h2⟩, fun e hf => ?_⟩
    rw [h1] at hf
    cases hf with
    | booleanLength hn => exact hn rfl
    | _ => other_kind

theorem judges_booleanDer : Judges .der .boolean booleanDer := by
  intro h i _ hc hl
  rcases boolean_octets hc hl with ⟨h1, h2⟩ | ⟨b, x, h1, h2⟩
  · exact .inl ⟨_, _, bind_eq_err.mpr (.inl h2), .booleanLength h1⟩
  · by_cases hb : b.toNat = 0 ∨ b.toNat = 255
    · refine .inr ⟨⟨x, b, ?_⟩, fun e hf => ?_⟩
      · refine bind_eq_ok.mpr ⟨_, h2, ?_⟩
        rw [← byte_eq0, ← byte_eqff] at hb
        rcases hb with rfl | rfl <;> rfl
      · rw [h1] at hf
        cases hf with
        | booleanLength hn => exact hn rfl
        | booleanOctet h3 h4 => omega
        | _ => other_kind
    · refine .inl ⟨x, .derConstraintFailed .invalidBoolean, bind_eq_err.mpr (.inr ⟨_, h2, ?_⟩), ?_⟩
      · rw [← byte_eq0, ← byte_eqff] at hb
        simp only [nomErr]
        rw [if_pos (by simpa using hb)]
      · rw [h1]; exact .booleanOctet (by omega) (by omega)

theorem judges_null (m : Rules) : Judges m .null nullP := by
  intro h i _ hc hl
  show (∃ loc e, nullContent h i = _ ∧ _) ∨ ((∃ x v, nullContent h i = _) ∧ _)
  unfold nullContent
  rw [assertPrimitive_prim hc, bind_ok, hl]
  by_cases h1 : i.data = []
  · refine .inr ⟨⟨i, (), by simp [h1, Length.isNull, pure_ok]⟩, fun e hf => ?_⟩
    rw [h1] at hf
    cases hf with
    | null hn => exact hn rfl
    | _ => other_kind
  · exact .inl ⟨i, .invalidLength, by simp [Length.isNull, h1, nomErr], .null h1⟩

/-! ### Numbers -/

/-- The form of a number, and the fault if it is not the shortest one. -/
theorem shortest_or (k : Kind) (hk : k.Number) (c : Bytes) :
    (MinimalInt c ∧ checkDerIntBytes c = .ok ()) ∨
    ∃ d, checkDerIntBytes c = .error d ∧ Fault .der k c (.derConstraintFailed d) := by
  match c with
  | [] => exact .inr ⟨_, rfl, .numberEmpty hk⟩
  | [b] => exact .inl ⟨trivial, by simp [checkDerIntBytes]⟩
  | a :: b :: c =>
    by_cases h1 : a.toNat = 0 ∧ b.toNat < 128
    · exact .inr ⟨_, by rw [checkDerIntBytes, if_pos (by rw [byte_eq0, blt128]; exact h1)],
        .numberZeroes hk h1.1 h1.2⟩
    · by_cases h2 : a.toNat = 255 ∧ 128 ≤ b.toNat
      · exact .inr ⟨_, by rw [checkDerIntBytes, if_neg (by rw [byte_eq0, blt128]; exact h1),
          if_pos (by rw [byte_eqff, ble128]; exact h2)], .numberOnes hk h2.1 h2.2⟩
      · exact .inl ⟨⟨h1, h2⟩, (checkDerIntBytes_ok _).mpr ⟨h1, h2⟩⟩

/-- The faults of form are faults of the form only. -/
theorem fault_shortest {k : Kind} {c : Bytes} {d : DerConstraint} (hm : MinimalInt c) (hk : k.Number) :
    ¬ Fault .der k c (.derConstraintFailed d) := by
  intro hf
  cases hf with
  | numberEmpty => exact hm
  | numberZeroes _ h1 h2 => exact hm.1 ⟨h1, h2⟩
  | numberOnes _ h1 h2 => exact hm.2 ⟨h1, h2⟩
  | _ => cases hk

/-- A DER parser that looks at the form first. -/
theorem judges_checked {k : Kind} (hk : k.Number) {p q : Parser α} (ha : q.acceptTag = p.acceptTag)
    (hq : ∀ h i, h.constructed = false → q.content h i = (checkDerIntInput i >>= fun _ => p.content h i))
    (hp : ∀ h i, p.acceptTag h.tag = true → h.constructed = false → h.length = .definite i.data.length →
      MinimalInt i.data →
      (∃ loc e, p.content h i = .error (.error loc e) ∧ Fault .der k i.data (plainError e)) ∨
      ((∃ x v, p.content h i = .ok (x, v)) ∧ ∀ e, ¬ Fault .der k i.data e)) : Judges .der k q := by
  intro h i ht hc hl
  rw [hq h i hc]
  rcases shortest_or k hk i.data with ⟨h1, h2⟩ | ⟨d, h1, h2⟩
  · have h3 : checkDerIntInput i = .ok () := by simp only [checkDerIntInput, h2]
    rw [h3, bind_ok]
    exact hp h i (ha ▸ ht) hc hl h1
  · exact .inl ⟨i, .derConstraintFailed d, bind_eq_err.mpr (.inl (by simp only [checkDerIntInput, h1, nomErr])), h2⟩

theorem uint_cases {N : Nat} (hN : 1 ≤ N) {h : Header} {i : Input} (hc : h.constructed = false) :
    (twos i.data < 0 ∧ uintContent N h i = .error (.error i .integerNegative)) ∨
    ((256 ^ N : Nat) ≤ twos i.data ∧ uintContent N h i = .error (.error i .integerTooLarge)) ∨
    (InUint N (twos i.data) ∧ ∃ x, ∃ v : Nat, (v : Int) = twos i.data ∧ uintContent N h i = .ok (x, v)) := by
  by_cases hu : InUint N (twos i.data)
  · obtain ⟨v, hv⟩ := Int.eq_ofNat_of_zero_le hu.1
    exact .inr (.inr ⟨hu, _, v, hv.symm, (uintContent_ok hN).mpr ⟨hc, hu, hv.symm, rfl⟩⟩)
  · unfold uintContent
    rw [assertPrimitive_prim hc, bind_ok]
    unfold decodeArrayUint
    by_cases hb : isHighestBitSet i.data = true
    · refine .inl ⟨?_, by rw [if_pos hb]; rfl⟩
      rw [twos_high hb]
      have := beNat_lt i.data
      omega
    · have hb' : isHighestBitSet i.data = false := by simpa using hb
      refine .inr (.inl ?_)
      rw [InUint, twos_low hb'] at hu
      have h1 : 256 ^ N ≤ beNat i.data := by omega
      refine ⟨by rw [twos_low hb']; omega, ?_⟩
      have h2 := mt ((trimSlice_pos hb').2 N hN).mp (by omega)
      rw [if_neg hb]
      simp only
      rw [if_pos (by omega)]
      rfl

theorem no_uint_fault {m : Rules} {N : Nat} {c : Bytes} (hs : Shortest m c) (hu : InUint N (twos c)) (e : InnerError) :
    ¬ Fault m (.uint N) c e := by
  intro hf
  cases hf with
  | numberEmpty => exact hs rfl
  | numberZeroes _ h1 h2 => exact (hs rfl).1 ⟨h1, h2⟩
  | numberOnes _ h1 h2 => exact (hs rfl).2 ⟨h1, h2⟩
  | negative hk _ h1 => exact absurd hu.1 (by omega)
  | tooLarge hk _ h1 => cases hk; exact absurd hu.2 (by omega)

theorem judge_uint {m : Rules} {N : Nat} (hN : 1 ≤ N) {h : Header} {i : Input} (hc : h.constructed = false)
    (hs : Shortest m i.data) :
    (∃ loc e, uintContent N h i = .error (.error loc e) ∧ Fault m (.uint N) i.data (plainError e)) ∨
      ((∃ x v, uintContent N h i = .ok (x, v)) ∧ ∀ e, ¬ Fault m (.uint N) i.data e) := by
  rcases uint_cases hN hc with ⟨h1, h2⟩ | ⟨h1, h2⟩ | ⟨hu, x, v, h1, h2⟩
  · exact .inl ⟨_, _, h2, .negative (.uint N) hs h1⟩
  · exact .inl ⟨_, _, h2, .tooLarge (.uint N) hs h1⟩
  · exact .inr ⟨⟨_, _, h2⟩, no_uint_fault hs hu⟩

theorem no_enum_fault {m : Rules} {c : Bytes} (hs : Shortest m c) (hu : InUint 4 (twos c)) (e : InnerError) :
    ¬ Fault m .enumerated c e := by
  intro hf
  cases hf with
  | numberEmpty => exact hs rfl
  | numberZeroes _ h1 h2 => exact (hs rfl).1 ⟨h1, h2⟩
  | numberOnes _ h1 h2 => exact (hs rfl).2 ⟨h1, h2⟩
  | negative hk _ h1 => exact absurd hu.1 (by omega)
  | tooLarge hk _ h1 => cases hk; exact absurd hu.2 (by omega)

theorem judge_enumerated {m : Rules} {h : Header} {i : Input} (hc : h.constructed = false)
    (hs : Shortest m i.data) :
    (∃ loc e, uintContent 4 h i = .error (.error loc e) ∧ Fault m .enumerated i.data (plainError e)) ∨
      ((∃ x v, uintContent 4 h i = .ok (x, v)) ∧ ∀ e, ¬ Fault m .enumerated i.data e) := by
  rcases uint_cases (N := 4) (by decide) hc with ⟨h1, h2⟩ | ⟨h1, h2⟩ | ⟨hu, x, v, h1, h2⟩
  · exact .inl ⟨_, _, h2, .negative .enumerated hs h1⟩
  · exact .inl ⟨_, _, h2, .tooLarge .enumerated hs h1⟩
  · exact .inr ⟨⟨_, _, h2⟩, no_enum_fault hs hu⟩

theorem judges_uintBer {N : Nat} (hN : 1 ≤ N) : Judges .ber (.uint N) (uintBer N) :=
  fun _ _ _ hc _ => judge_uint hN hc (fun h => nomatch h)

theorem judges_uintDer {N : Nat} (hN : 1 ≤ N) : Judges .der (.uint N) (uintDer N) :=
  judges_checked (.uint N) (p := uintBer N) rfl (fun _ _ _ => rfl) fun _ _ _ hc _ hm => judge_uint hN hc fun _ => hm

theorem judges_enumeratedBer : Judges .ber .enumerated enumeratedBer := by
  intro h i _ hc _
  have := judge_enumerated (m := .ber) (i := i) hc (fun h => nomatch h)
  rw [show enumeratedBer.content h i = (h.assertPrimitive i >>= fun _ => uintContent 4 h i) from rfl,
    assertPrimitive_prim hc, bind_ok]
  exact this

theorem judges_enumeratedDer : Judges .der .enumerated enumeratedDer := by
  refine judges_checked .enumerated (p := enumeratedBer) rfl (fun h i hc => ?_) fun h i _ hc _ hm => ?_
  · rw [show enumeratedBer.content h i = (h.assertPrimitive i >>= fun _ => uintContent 4 h i) from rfl,
      show enumeratedDer.content h i =
        (h.assertPrimitive i >>= fun _ => checkDerIntInput i >>= fun _ => uintContent 4 h i) from rfl,
      assertPrimitive_prim hc, bind_ok]
    rfl
  · rw [show enumeratedBer.content h i = (h.assertPrimitive i >>= fun _ => uintContent 4 h i) from rfl,
      assertPrimitive_prim hc, bind_ok]
    exact judge_enumerated hc fun _ => hm

/-- The value of an enumeration is looked up after the faults of ENUMERATED. -/
theorem enum_of_enumerated {m : Rules} {ds : List Nat} {c : Bytes} {e : InnerError} (hf : Fault m .enumerated c e) :
    Fault m (.enum ds) c e := by
  cases hf with
  | numberEmpty => exact .numberEmpty (.enum ds)
  | numberZeroes _ h1 h2 => exact .numberZeroes (.enum ds) h1 h2
  | numberOnes _ h1 h2 => exact .numberOnes (.enum ds) h1 h2
  | negative _ h1 h2 => exact .negative (.enum ds) h1 h2
  | tooLarge hk h1 h2 => cases hk; exact .tooLarge (.enum ds) h1 h2

theorem enum_fault {m : Rules} {ds : List Nat} {c : Bytes} {e : InnerError} (hf : Fault m (.enum ds) c e) :
    Fault m .enumerated c e ∨ (e = .unexpectedTag none 10 ∧ ∀ d ∈ ds, (d : Int) ≠ twos c) := by
  cases hf with
  | numberEmpty => exact .inl (.numberEmpty .enumerated)
  | numberZeroes _ h1 h2 => exact .inl (.numberZeroes .enumerated h1 h2)
  | numberOnes _ h1 h2 => exact .inl (.numberOnes .enumerated h1 h2)
  | negative _ h1 h2 => exact .inl (.negative .enumerated h1 h2)
  | tooLarge hk h1 h2 => cases hk; exact .inl (.tooLarge .enumerated h1 h2)
  | discriminant _ _ h3 => exact .inr ⟨rfl, h3⟩

theorem judges_enum {m : Rules} {p : Parser Nat} (ds : List Nat) (ha : p.acceptTag = tagIs 10)
    (hp : Judges m .enumerated p)
    (hv : ∀ h i x v, p.content h i = .ok (x, v) → (v : Int) = twos i.data ∧ InUint 4 (twos i.data) ∧ Shortest m i.data) :
    Judges m (.enum ds) (enumP p ds) := by
  intro h i ht hc hl
  have ht' : h.tag = 10 := by simpa [enumP, tagIs] using ht
  show (∃ loc e, (h.assertPrimitive i >>= fun _ => p.content h i >>= _) = _ ∧ _) ∨
    ((∃ x v, (h.assertPrimitive i >>= fun _ => p.content h i >>= _) = _) ∧ _)
  rw [assertPrimitive_prim hc, bind_ok]
  rcases hp h i (by rw [ha, ht']; rfl) hc hl with ⟨loc, e, h1, h2⟩ | ⟨⟨x, v, h1⟩, h2⟩
  · exact .inl ⟨loc, e, bind_eq_err.mpr (.inl h1), enum_of_enumerated h2⟩
  · obtain ⟨h3, h4, h5⟩ := hv h i x v h1
    rw [h1, bind_ok]
    cases hd : ds.finIdxOf? v with
    | some k =>
      refine .inr ⟨⟨x, k, by simp only [hd]⟩, fun e hf => ?_⟩
      rcases enum_fault hf with hf | ⟨_, hf⟩
      · exact h2 e hf
      · have hk : ds[k] = v := (List.finIdxOf?_eq_some_iff.mp hd).1
        exact hf _ (List.getElem_mem k.isLt) (by rw [← h3]; exact congrArg Int.ofNat hk)
    | none =>
      refine .inl ⟨i, .unexpectedTag none h.tag, by simp only [hd, nomErr], ?_⟩
      rw [ht']
      refine .discriminant h5 h4 fun d hd' he => ?_
      have hdv : d = v := by rw [← h3] at he; exact Int.ofNat.inj he
      rw [List.finIdxOf?_eq_none_iff] at hd
      exact hd (hdv ▸ hd')

theorem int_cases {N : Nat} (hN : 1 ≤ N) {h : Header} {i : Input} (hc : h.constructed = false) :
    (((2 ^ (8 * N - 1) : Nat) ≤ twos i.data ∨ twos i.data < 0 ∧ N < i.data.length) ∧
      intContent N h i = .error (.error i .integerTooLarge)) ∨
    (¬ ((2 ^ (8 * N - 1) : Nat) ≤ twos i.data ∨ twos i.data < 0 ∧ N < i.data.length) ∧
      ∃ x v, intContent N h i = .ok (x, v)) := by
  have hp := pow8_half hN
  unfold intContent
  rw [assertPrimitive_prim hc, bind_ok]
  unfold intValue
  by_cases hb : isHighestBitSet i.data = true
  · rw [if_pos hb]
    have h1 := high_ge hb
    have h2 := beNat_lt i.data
    have h3 := twos_high hb
    unfold decodeArrayInt
    by_cases hl : N < i.data.length
    · exact .inl ⟨.inr ⟨by omega, hl⟩, by rw [if_pos hl]; rfl⟩
    · rw [if_neg hl, atEnd_eq]
      exact .inr ⟨by omega, _, _, rfl⟩
  · have hb' : isHighestBitSet i.data = false := by simpa using hb
    rw [if_neg hb]
    have h3 := twos_low hb'
    by_cases hu : beNat i.data < 256 ^ N
    · have hd := (decodeArrayUint_ok hN (bs := i.data)).mpr ⟨by rw [InUint, h3]; omega, rfl⟩
      rw [hd]
      simp only [liftErr, bind_ok]
      rw [beNat_toBE_of_lt hu]
      by_cases hg : beNat i.data > 2 ^ (8 * N - 1) - 1
      · refine .inl ⟨.inl (by rw [h3]; omega), ?_⟩
        rw [if_pos hg]; rfl
      · rw [if_neg hg, atEnd_eq]
        exact .inr ⟨by rw [h3]; omega, _, _, rfl⟩
    · refine .inl ⟨.inl (by rw [h3]; omega), ?_⟩
      have h4 := mt ((trimSlice_pos hb').2 N hN).mp hu
      unfold decodeArrayUint
      rw [if_neg hb]
      simp only
      rw [if_pos (by omega)]
      rfl

theorem judge_int {m : Rules} {N : Nat} (hN : 1 ≤ N) {h : Header} {i : Input} (hc : h.constructed = false)
    (hs : Shortest m i.data) :
    (∃ loc e, intContent N h i = .error (.error loc e) ∧ Fault m (.int N) i.data (plainError e)) ∨
      ((∃ x v, intContent N h i = .ok (x, v)) ∧ ∀ e, ¬ Fault m (.int N) i.data e) := by
  rcases int_cases hN hc with ⟨h1, h2⟩ | ⟨h1, x, v, h2⟩
  · exact .inl ⟨_, _, h2, .intTooLarge hs h1⟩
  · refine .inr ⟨⟨_, _, h2⟩, fun e hf => ?_⟩
    generalize i.data = c at hs h1 hf
    cases hf with
    | numberEmpty => exact hs rfl
    | numberZeroes _ h3 h4 => exact (hs rfl).1 ⟨h3, h4⟩
    | numberOnes _ h3 h4 => exact (hs rfl).2 ⟨h3, h4⟩
    | intTooLarge _ h3 => exact h1 h3
    | _ => other_kind

theorem judges_intBer {N : Nat} (hN : 1 ≤ N) : Judges .ber (.int N) (intBer N) :=
  fun _ _ _ hc _ => judge_int hN hc (fun h => nomatch h)

theorem judges_intDer {N : Nat} (hN : 1 ≤ N) : Judges .der (.int N) (intDer N) :=
  judges_checked (.int N) (p := intBer N) rfl (fun _ _ _ => rfl) fun _ _ _ hc _ hm => judge_int hN hc fun _ => hm

theorem integer_cases {h : Header} {i : Input} (hc : h.constructed = false)
    (hl : h.length = .definite i.data.length) :
    (i.data = [] ∧ ∃ loc, integerContent h i = .error (.error loc .invalidLength)) ∨
    (i.data ≠ [] ∧ ∃ x v, integerContent h i = .ok (x, v)) := by
  unfold integerContent
  rw [assertPrimitive_prim hc, bind_ok]
  unfold derContent
  rw [hl]
  simp only
  rw [takeS_eq, if_pos (Nat.le_refl _), bind_ok]
  by_cases h1 : i.data = []
  · exact .inl ⟨h1, _, by simp [Input.isEmpty, first_data, h1, nomErr]; rfl⟩
  · exact .inr ⟨h1, after i i.data.length, ⟨i.data⟩, by simp [Input.isEmpty, first_data, h1, pure_ok]⟩

theorem judges_integerBer : Judges .ber .integer integerBer := by
  intro h i _ hc hl
  rcases integer_cases hc hl with ⟨h1, loc, h2⟩ | ⟨h1, x, v, h2⟩
  · refine .inl ⟨_, _, h2, ?_⟩
    rw [h1]; exact .integerEmpty
  · refine .inr ⟨⟨_, _, h2⟩, fun e hf => ?_⟩
    generalize i.data = c at h1 hf
    cases hf with
    | integerEmpty => exact h1 rfl
    | _ => other_kind

theorem judges_integerDer : Judges .der .integer integerDer := by
  refine judges_checked .integer (p := integerBer) rfl (fun _ _ _ => rfl) fun h i _ hc hl hm => ?_
  rcases integer_cases hc hl with ⟨h1, _⟩ | ⟨h1, x, v, h2⟩
  · rw [h1] at hm; exact hm.elim
  · refine .inr ⟨⟨_, _, h2⟩, fun e hf => ?_⟩
    generalize i.data = c at hm hf
    cases hf with
    | numberEmpty => exact hm
    | numberZeroes _ h3 h4 => exact hm.1 ⟨h3, h4⟩
    | numberOnes _ h3 h4 => exact hm.2 ⟨h3, h4⟩
    | _ => other_kind

theorem enumeratedBer_value {h : Header} {i x : Input} {v : Nat} (hp : enumeratedBer.content h i = .ok (x, v)) :
    (v : Int) = twos i.data ∧ InUint 4 (twos i.data) ∧ Shortest .ber i.data := by
  obtain ⟨_, _, h1⟩ := bind_eq_ok.mp hp
  obtain ⟨_, h2, h3, _⟩ := (uintContent_ok (by decide)).mp h1
  exact ⟨h3, h2, fun h => nomatch h⟩

theorem enumeratedDer_value {h : Header} {i x : Input} {v : Nat} (hp : enumeratedDer.content h i = .ok (x, v)) :
    (v : Int) = twos i.data ∧ InUint 4 (twos i.data) ∧ Shortest .der i.data := by
  obtain ⟨_, _, h1⟩ := bind_eq_ok.mp hp
  obtain ⟨_, h0, h1⟩ := bind_eq_ok.mp h1
  obtain ⟨_, h2, h3, _⟩ := (uintContent_ok (by decide)).mp h1
  exact ⟨h3, h2, fun _ => checkDerIntInput_ok.mp h0⟩

/-! ### Octets, bits, OBJECT IDENTIFIER -/

theorem whole (i : Input) : i.takeSplit i.len = .ok (after i i.data.length, first i i.data.length) := by
  rw [takeSplit_eq, if_pos (by simp [Input.len])]; rfl

theorem judges_oid (m : Rules) : Judges m .oid oidP := by
  intro h i _ hc _
  show (∃ loc e, oidContent h i = _ ∧ _) ∨ ((∃ x v, oidContent h i = _) ∧ _)
  unfold oidContent
  rw [assertPrimitive_prim hc, bind_ok, whole, bind_ok]
  by_cases h1 : i.data = []
  · refine .inl ⟨i, .invalidLength, by simp [Input.isEmpty, h1, nomErr], ?_⟩
    rw [h1]; exact .oid
  · refine .inr ⟨⟨after i i.data.length, ⟨i.data, false⟩, by simp [Input.isEmpty, h1, pure_ok, first_data]⟩,
      fun e hf => ?_⟩
    generalize i.data = c at h1 hf
    cases hf with
    | oid => exact h1 rfl
    | _ => other_kind

theorem octets_ok {h : Header} (i : Input) (hc : h.constructed = false) :
    octetContent h i = .ok (after i i.data.length, i.data) :=
  (octetContent_prim hc).mpr ⟨rfl, rfl⟩

theorem no_octet_fault {m : Rules} {c : Bytes} (e : InnerError) : ¬ Fault m .octetString c e := by
  intro hf
  cases hf with
  | _ => other_kind

theorem judges_octetBer : Judges .ber .octetString octetBer :=
  fun _ i _ hc _ => .inr ⟨⟨_, _, octets_ok i hc⟩, no_octet_fault⟩

theorem judges_octetDer : Judges .der .octetString octetDer :=
  fun _ i _ hc _ => .inr ⟨⟨_, _, bind_eq_ok.mpr ⟨_, assertPrimitive_prim hc i, octets_ok i hc⟩⟩, no_octet_fault⟩

theorem slice_ok {h : Header} (i : Input) (hc : h.constructed = false) :
    sliceContent h i = .ok (after i i.data.length, i.data) := by
  unfold sliceContent
  rw [if_neg (by simp [hc]), whole, bind_ok]
  simp [first_data, pure_ok]

theorem judges_sliceBer : Judges .ber .octetString sliceBer :=
  fun _ i _ hc _ => .inr ⟨⟨_, _, slice_ok i hc⟩, no_octet_fault⟩

theorem judges_sliceDer : Judges .der .octetString sliceDer :=
  fun _ i _ hc _ => .inr ⟨⟨_, _, bind_eq_ok.mpr ⟨_, assertPrimitive_prim hc i, slice_ok i hc⟩⟩, no_octet_fault⟩

theorem judge_bits {m : Rules} {h : Header} {i : Input} (hc : h.constructed = false)
    (hl : h.length = .definite i.data.length) :
    (∃ loc e, bitContent h i = .error (.error loc e) ∧ Fault m .bitString i.data (plainError e)) ∨
      ((∃ x v, bitContent h i = .ok (x, v)) ∧ ∀ e, ¬ Fault m .bitString i.data e) := by
  unfold bitContent
  rw [if_pos (by simp [hc])]
  unfold bitLeaf
  rw [berGetContent_all hl, bind_ok]
  unfold bitPrimitive
  simp only [first_all]
  generalize i.data = c
  cases c with
  | nil => exact .inl ⟨_, _, rfl, .bitsEmpty⟩
  | cons u c =>
    simp only
    by_cases h1 : u.toNat ≤ 7
    · rw [if_pos h1]
      by_cases h2 : u.toNat ≤ 8 * c.length
      · rw [if_pos h2]
        refine .inr ⟨⟨_, _, rfl⟩, fun e hf => ?_⟩
        cases hf with
        | bitsUnused h3 => omega
        | bitsMissing _ h3 => omega
        | _ => other_kind
      · rw [if_neg h2]
        exact .inl ⟨_, _, rfl, .bitsMissing h1 (by omega)⟩
    · rw [if_neg h1]
      exact .inl ⟨_, _, rfl, .bitsUnused (by omega)⟩

theorem judges_bitBer : Judges .ber .bitString bitBer := fun _ _ _ hc hl => judge_bits hc hl

theorem judges_bitDer : Judges .der .bitString bitDer := by
  intro h i _ hc hl
  rw [show bitDer.content h i = (h.assertPrimitive i >>= fun _ => bitContent h i) from rfl,
    assertPrimitive_prim hc, bind_ok]
  exact judge_bits hc hl

/-! ### Texts -/

theorem no_text_fault {m : Rules} {A : Char → Bool} {c : Bytes} (h : ∃ s, c = Text.utf8 s ∧ ∀ ch ∈ s, A ch = true)
    (e : InnerError) : ¬ Fault m (.text A) c e := by
  intro hf
  cases hf with
  | text h1 => exact h1 h
  | _ => other_kind

theorem charset_error {k : StrKind} {tag : Nat} {A : Char → Bool} (hk : StringType k tag A) {c : Bytes} {e : Error}
    (h : k.testValidCharset c = .error e) : e = .stringInvalidCharset := by
  have ha : ∀ f, allBytes f c = .error e → e = .stringInvalidCharset := by
    intro f h
    unfold allBytes at h
    split at h <;> simp_all
  cases hk with
  | utf8 =>
    simp only [utf8StringK] at h
    split at h <;> simp_all
  | _ => exact ha _ h

theorem judge_text {m : Rules} {k : StrKind} {tag : Nat} {A : Char → Bool} (hk : StringType k tag A) {h : Header}
    {i : Input} (hc : h.constructed = false) :
    (∃ loc e, strBerContent k h i = .error (.error loc e) ∧ Fault m (.text A) i.data (plainError e)) ∨
      ((∃ x v, strBerContent k h i = .ok (x, v)) ∧ ∀ e, ¬ Fault m (.text A) i.data e) := by
  unfold strBerContent
  rw [strBytes_eq, octets_ok i hc, bind_ok]
  by_cases hs : ∃ s, i.data = Text.utf8 s ∧ ∀ ch ∈ s, A ch = true
  · obtain ⟨s, hs⟩ := hs
    exact .inr ⟨⟨_, s, strOfBytes_ok.mpr ⟨rfl, (charset_ok hk _ _).mpr hs⟩⟩, no_text_fault ⟨s, hs⟩⟩
  · refine .inl ⟨after i i.data.length, .stringInvalidCharset, ?_, .text hs⟩
    simp only [strOfBytes]
    cases h1 : k.testValidCharset i.data with
    | error e => rw [charset_error hk h1]; rfl
    | ok u =>
      cases h2 : fromUtf8 i.data with
      | none => rfl
      | some s => exact (hs ⟨s, (charset_ok hk _ _).mp ⟨h1, h2⟩⟩).elim

theorem judges_strBer {k : StrKind} {tag : Nat} {A : Char → Bool} (hk : StringType k tag A) :
    Judges .ber (.text A) (strBer k) := fun _ _ _ hc _ => judge_text hk hc

theorem judges_strDer {k : StrKind} {tag : Nat} {A : Char → Bool} (hk : StringType k tag A) :
    Judges .der (.text A) (strDer k) := by
  intro h i _ hc hl
  rw [show (strDer k).content h i = (h.assertPrimitive i >>= fun _ => strBerContent k h i) from rfl,
    assertPrimitive_prim hc, bind_ok]
  exact judge_text hk hc

theorem judge_utf8 {m : Rules} (i : Input) :
    (∃ loc e, utf8Whole i = .error (.error loc e) ∧ Fault m (.text fun _ => true) i.data (plainError e)) ∨
      ((∃ x v, utf8Whole i = .ok (x, v)) ∧ ∀ e, ¬ Fault m (.text fun _ => true) i.data e) := by
  by_cases hs : ∃ s, i.data = Text.utf8 s
  · obtain ⟨s, hs⟩ := hs
    exact .inr ⟨⟨_, s, utf8Whole_ok.mpr ⟨rfl, hs⟩⟩, no_text_fault ⟨s, hs, fun _ _ => rfl⟩⟩
  · refine .inl ⟨after i i.data.length, .stringInvalidCharset, ?_, .text fun ⟨s, h, _⟩ => hs ⟨s, h⟩⟩
    unfold utf8Whole
    rw [whole, bind_ok]
    simp only [first_data, List.take_length]
    cases h2 : fromUtf8 i.data with
    | none => rfl
    | some s => exact (hs ⟨s, fromUtf8_iff.mp h2⟩).elim

theorem judges_refStrBer : Judges .ber (.text fun _ => true) refStrBer := by
  intro h i _ hc _
  rw [show refStrBer.content h i = if h.constructed then nomErr i .lifetimeError else utf8Whole i from rfl, hc]
  exact judge_utf8 i

theorem judges_refStrDer : Judges .der (.text fun _ => true) refStrDer := by
  intro h i _ hc _
  rw [show refStrDer.content h i = (h.assertPrimitive i >>= fun _ => utf8Whole i) from rfl,
    assertPrimitive_prim hc, bind_ok]
  exact judge_utf8 i

theorem judges_stringBer : Judges .ber (.text fun _ => true) stringBer :=
  fun _ _ _ hc _ => judge_text StringType.utf8 hc

theorem wide_cases {h : Header} {i : Input} (hc : h.constructed = false) (hl : h.length = .definite i.data.length) :
    (i.data = [] ∧ wideBytes h i = .error (.error i .invalidLength)) ∨
    (i.data ≠ [] ∧ ∃ x, wideBytes h i = .ok (x, i.data)) := by
  by_cases h1 : i.data = []
  · refine .inl ⟨h1, ?_⟩
    unfold wideBytes
    rw [if_neg (by simp [hc]), show OCTETSTRING_MAX_RECURSION = 4 + 1 from rfl]
    simp [parseSegmented, Input.isEmpty, h1, nomErr]
  · exact .inr ⟨h1, (wideBytes_ok (consistent_of hl)).mpr ⟨rfl, fun _ => h1⟩⟩

theorem judge_bmp {m : Rules} {h : Header} {i : Input} (hc : h.constructed = false)
    (hl : h.length = .definite i.data.length) :
    (∃ loc e, bmpBerContent h i = .error (.error loc e) ∧ Fault m .bmpString i.data (plainError e)) ∨
      ((∃ x v, bmpBerContent h i = .ok (x, v)) ∧ ∀ e, ¬ Fault m .bmpString i.data e) := by
  unfold bmpBerContent
  rcases wide_cases hc hl with ⟨h1, h2⟩ | ⟨h1, x, h2⟩
  · refine .inl ⟨i, _, bind_eq_err.mpr (.inl h2), ?_⟩
    rw [h1]; exact .bmpEmpty
  · rw [h2, bind_ok]
    by_cases hs : ∃ s, BmpText i.data s
    · obtain ⟨s, hs⟩ := hs
      refine .inr ⟨⟨x, s, bmpOfBytes_ok.mpr ⟨rfl, hs⟩⟩, fun e hf => ?_⟩
      generalize i.data = c at h1 hs hf
      cases hf with
      | bmpEmpty => exact h1 rfl
      | bmpText _ h3 => exact h3 ⟨s, hs⟩
      | _ => other_kind
    · refine .inl ⟨x, .stringInvalidCharset, ?_, .bmpText h1 hs⟩
      show bmpOfBytes x i.data = _
      cases h3 : fromUtf16 (units16 i.data) with
      | none => simp only [bmpOfBytes, h3]; rfl
      | some s =>
        exact (hs ⟨s, ((bmpOfBytes_ok (rem := x) (r := x)).mp (by simp only [bmpOfBytes, h3])).2⟩).elim

theorem judges_bmpBer : Judges .ber .bmpString bmpBer := fun _ _ _ hc hl => judge_bmp hc hl

theorem judges_bmpDer : Judges .der .bmpString bmpDer := by
  intro h i _ hc hl
  rw [show bmpDer.content h i = (h.assertPrimitive i >>= fun _ => bmpBerContent h i) from rfl,
    assertPrimitive_prim hc, bind_ok]
  exact judge_bmp hc hl

theorem judge_univ {m : Rules} {h : Header} {i : Input} (hc : h.constructed = false)
    (hl : h.length = .definite i.data.length) :
    (∃ loc e, univBerContent h i = .error (.error loc e) ∧ Fault m .universalString i.data (plainError e)) ∨
      ((∃ x v, univBerContent h i = .ok (x, v)) ∧ ∀ e, ¬ Fault m .universalString i.data e) := by
  unfold univBerContent
  rcases wide_cases hc hl with ⟨h1, h2⟩ | ⟨h1, x, h2⟩
  · refine .inl ⟨i, _, bind_eq_err.mpr (.inl h2), ?_⟩
    rw [h1]; exact .universalEmpty
  · rw [h2, bind_ok]
    by_cases hs : ∃ s, i.data = ucs4 s
    · obtain ⟨s, hs⟩ := hs
      refine .inr ⟨⟨x, s, univOfBytes_ok.mpr ⟨rfl, hs⟩⟩, fun e hf => ?_⟩
      generalize i.data = c at h1 hs hf
      cases hf with
      | universalEmpty => exact h1 rfl
      | universalText _ h3 => exact h3 ⟨s, hs⟩
      | _ => other_kind
    · refine .inl ⟨x, .stringInvalidCharset, ?_, .universalText h1 hs⟩
      show univOfBytes x i.data = _
      unfold univOfBytes
      by_cases h4 : i.data.length % 4 = 0
      · rw [if_neg (by simp [h4])]
        obtain ⟨o, ho⟩ := chars32_noPanic _ h4
        rw [ho]
        cases o with
        | none => rfl
        | some s => exact (hs ⟨s, (chars32_ok _ _).mp ho⟩).elim
      · rw [if_pos h4]; rfl

theorem judges_univBer : Judges .ber .universalString univBer := fun _ _ _ hc hl => judge_univ hc hl

theorem judges_univDer : Judges .der .universalString univDer := by
  intro h i _ hc hl
  rw [show univDer.content h i = (h.assertPrimitive i >>= fun _ => univBerContent h i) from rfl,
    assertPrimitive_prim hc, bind_ok]
  exact judge_univ hc hl

/-! ### Times -/

/-- The only errors are about an invalid value of the type `tag`. -/
def OnlyValue {β : Type} (tag : Nat) (r : Except Error β) : Prop := ∀ e, r = .error e → ∃ msg, e = .invalidValue tag msg

theorem onlyValue_bind {β γ : Type} {tag : Nat} {r : Except Error β} {f : β → Except Error γ} (hr : OnlyValue tag r)
    (hf : ∀ b, OnlyValue tag (f b)) : OnlyValue tag (r >>= f) := by
  intro e he
  cases r with
  | error e' => exact hr e (by cases he; rfl)
  | ok b => exact hf b e he

theorem onlyValue_ok {β : Type} {tag : Nat} (b : β) : OnlyValue tag (.ok b) := fun _ h => nomatch h

theorem onlyValue_err {β : Type} {tag : Nat} (msg : String) : OnlyValue (β := β) tag (.error (.invalidValue tag msg)) :=
  fun e h => ⟨msg, by cases h; rfl⟩

theorem onlyValue_decimal (tag : Nat) (a b : UInt8) : OnlyValue tag (decodeDecimal tag a b) := by
  unfold decodeDecimal
  split
  · exact onlyValue_ok _
  · exact onlyValue_err _

theorem onlyValue_zone (tag : Nat) (c : Bytes) : OnlyValue tag (decodeZone tag c) := by
  unfold decodeZone
  split
  · split
    · exact onlyValue_ok _
    · exact onlyValue_err _
  · split
    · exact onlyValue_bind (onlyValue_decimal _ _ _) fun _ => onlyValue_bind (onlyValue_decimal _ _ _) fun _ => onlyValue_ok _
    · split
      · exact onlyValue_bind (onlyValue_decimal _ _ _) fun _ =>
          onlyValue_bind (onlyValue_decimal _ _ _) fun _ => onlyValue_ok _
      · exact onlyValue_err _
  · exact onlyValue_err _

theorem onlyValue_seconds (tag : Nat) (c : Bytes) : OnlyValue tag (decodeSeconds tag c) := by
  unfold decodeSeconds
  split
  · exact onlyValue_bind (onlyValue_decimal _ _ _) fun _ => onlyValue_ok _
  · exact onlyValue_ok _

theorem onlyValue_utc (c : Bytes) : OnlyValue 23 (utcFromBytes c) := by
  unfold utcFromBytes
  split
  · refine onlyValue_bind (onlyValue_decimal _ _ _) fun _ => onlyValue_bind (onlyValue_decimal _ _ _) fun _ =>
      onlyValue_bind (onlyValue_decimal _ _ _) fun _ => onlyValue_bind (onlyValue_decimal _ _ _) fun _ =>
      onlyValue_bind (onlyValue_decimal _ _ _) fun _ => ?_
    unfold utcRest
    split
    · exact onlyValue_err _
    · refine onlyValue_bind (onlyValue_seconds _ _) fun x => ?_
      simp only
      split
      · exact onlyValue_err _
      · split
        · exact onlyValue_err _
        · exact onlyValue_bind (onlyValue_zone _ _) fun _ => onlyValue_ok _
  · exact onlyValue_err _

theorem onlyValue_frac : ∀ (n idx : Nat) (c : Bytes) (f : Nat), OnlyValue 24 (fracLoop n idx c f)
  | 0, _, _, _ => onlyValue_ok _
  | n + 1, idx, c, f => by
    unfold fracLoop
    split
    · split
      · exact onlyValue_err _
      · exact onlyValue_ok _
    · split
      · exact onlyValue_err _
      · split
        · exact onlyValue_frac n _ _ _
        · split
          · exact onlyValue_ok _
          · exact onlyValue_err _

theorem onlyValue_fraction (c : Bytes) : OnlyValue 24 (decodeFraction c) := by
  unfold decodeFraction
  split
  · split
    · exact onlyValue_bind (onlyValue_frac _ _ _ _) fun _ => onlyValue_ok _
    · exact onlyValue_ok _
  · exact onlyValue_ok _

theorem onlyValue_gen (c : Bytes) : OnlyValue 24 (genFromBytes c) := by
  unfold genFromBytes
  split
  · refine onlyValue_bind (onlyValue_decimal _ _ _) fun _ => onlyValue_bind (onlyValue_decimal _ _ _) fun _ =>
      onlyValue_bind (onlyValue_decimal _ _ _) fun _ => onlyValue_bind (onlyValue_decimal _ _ _) fun _ =>
      onlyValue_bind (onlyValue_decimal _ _ _) fun _ => onlyValue_bind (onlyValue_decimal _ _ _) fun _ => ?_
    unfold genTime
    split
    · exact onlyValue_err _
    · refine onlyValue_bind (onlyValue_seconds _ _) fun x => ?_
      simp only
      split
      · exact onlyValue_err _
      · unfold genRest
        split
        · exact onlyValue_ok _
        · refine onlyValue_bind (onlyValue_fraction _) fun y => ?_
          simp only
          split
          · exact onlyValue_ok _
          · exact onlyValue_bind (onlyValue_zone _ _) fun _ => onlyValue_ok _
  · exact onlyValue_err _

theorem timeOctets_iff {c : Bytes} : TimeOctets c ↔ c.all isVisible = true := by
  simp [TimeOctets, isVisible]

theorem timeOf_err {tag : Nat} {rem data : Input} {r : Except Error DateTime} (hr : OnlyValue tag r)
    (hn : ∀ t, r ≠ .ok t) : ∃ msg, timeOf rem data r = .error (.error data (.invalidValue tag msg)) := by
  cases r with
  | ok t => exact (hn t rfl).elim
  | error e =>
    obtain ⟨msg, rfl⟩ := hr e rfl
    exact ⟨msg, rfl⟩

theorem judge_utc {m : Rules} (i : Input) :
    let r : PRes DateTime := if !i.data.all isVisible then nomErr i .stringInvalidCharset else
      i.takeSplit i.len >>= fun x => timeOf x.1 x.2 (utcFromBytes x.2.data)
    (∃ loc e, r = .error (.error loc e) ∧ Fault m .utcTime i.data (plainError e)) ∨
      ((∃ x v, r = .ok (x, v)) ∧ ∀ e, ¬ Fault m .utcTime i.data e) := by
  simp only
  rw [whole, bind_ok]
  simp only [first_data, List.take_length]
  by_cases h1 : TimeOctets i.data
  · rw [if_neg (by simp [timeOctets_iff.mp h1])]
    by_cases hs : ∃ t, UtcText i.data t
    · obtain ⟨t, hs⟩ := hs
      refine .inr ⟨⟨_, t, timeOf_ok.mpr ⟨utcFromBytes_ok.mpr hs, rfl⟩⟩, fun e hf => ?_⟩
      generalize i.data = c at h1 hs hf
      cases hf with
      | utcOctets h2 => exact h2 h1
      | utcText _ h2 => exact h2 ⟨t, hs⟩
      | _ => other_kind
    · obtain ⟨msg, h2⟩ := timeOf_err (rem := after i i.data.length) (data := first i i.data.length)
        (onlyValue_utc i.data) fun t ht => hs ⟨t, utcFromBytes_ok.mp ht⟩
      exact .inl ⟨_, _, h2, .utcText h1 hs⟩
  · exact .inl ⟨_, _, by rw [if_pos (by simpa [timeOctets_iff] using h1)]; rfl, .utcOctets h1⟩

theorem judges_utcBer : Judges .ber .utcTime utcBer := by
  intro h i _ hc _
  rw [show utcBer.content h i = utcBerContent h i from rfl, utcBerContent, if_neg (by simp [hc])]
  exact judge_utc i

theorem judges_utcDer : Judges .der .utcTime utcDer := by
  intro h i _ hc _
  rw [show utcDer.content h i = utcDerContent h i from rfl, utcDerContent, assertPrimitive_prim hc, bind_ok]
  exact judge_utc i

theorem judges_genBer : Judges .ber .generalizedTime genBer := by
  intro h i _ hc _
  rw [show genBer.content h i = genBerContent h i from rfl, genBerContent, if_neg (by simp [hc]), whole, bind_ok]
  simp only [first_data, List.take_length]
  by_cases h1 : TimeOctets i.data
  · rw [if_neg (by simp [timeOctets_iff.mp h1])]
    by_cases hs : ∃ t, GenText i.data t
    · obtain ⟨t, hs⟩ := hs
      refine .inr ⟨⟨_, t, timeOf_ok.mpr ⟨genFromBytes_ok.mpr hs, rfl⟩⟩, fun e hf => ?_⟩
      generalize i.data = c at h1 hs hf
      cases hf with
      | genOctets h2 => exact h2 h1
      | genText _ _ h2 => exact h2 ⟨t, hs⟩
      | _ => other_kind
    · obtain ⟨msg, h2⟩ := timeOf_err (rem := after i i.data.length) (data := first i i.data.length)
        (onlyValue_gen i.data) fun t ht => hs ⟨t, genFromBytes_ok.mp ht⟩
      exact .inl ⟨_, _, h2, .genText h1 (fun h => nomatch h) hs⟩
  · exact .inl ⟨_, _, by rw [if_pos (by simpa [timeOctets_iff] using h1)]; rfl, .genOctets h1⟩

theorem zulu_iff (c : Bytes) : ascii "Z" <:+ c ↔ c.getLast? = some 0x5a := by
  rw [show ascii "Z" = [0x5a] from by decide +kernel, List.getLast?_eq_some_iff]
  constructor
  · rintro ⟨t, rfl⟩; exact ⟨t, rfl⟩
  · rintro ⟨t, rfl⟩; exact ⟨t, rfl⟩

theorem comma_iff (c : Bytes) : ascii "," <:+: c ↔ 0x2c ∈ c := by
  rw [show ascii "," = [0x2c] from by decide +kernel, List.mem_iff_append]
  constructor
  · rintro ⟨s, t, rfl⟩; exact ⟨s, t, by simp⟩
  · rintro ⟨s, t, rfl⟩; exact ⟨s, t, by simp⟩

theorem judges_genDer : Judges .der .generalizedTime genDer := by
  intro h i _ hc _
  rw [show genDer.content h i = genDerContent h i from rfl, genDerContent, assertPrimitive_prim hc, bind_ok, whole,
    bind_ok]
  simp only [first_data, List.take_length]
  by_cases h1 : TimeOctets i.data
  · rw [if_neg (by simp [timeOctets_iff.mp h1])]
    by_cases hz : ascii "Z" <:+ i.data
    · rw [if_neg (by simpa using (zulu_iff _).mp hz)]
      by_cases hk : ascii "," <:+: i.data
      · exact .inl ⟨first i i.data.length, .derConstraintFailed .missingSeconds, by
          rw [if_pos (by simpa using (comma_iff _).mp hk)]; rfl, .genComma h1 hz hk⟩
      · rw [if_neg (by simpa using mt (comma_iff _).mpr hk)]
        by_cases hs : ∃ t, GenText i.data t
        · obtain ⟨t, hs⟩ := hs
          refine .inr ⟨⟨_, t, timeOf_ok.mpr ⟨genFromBytes_ok.mpr hs, rfl⟩⟩, fun e hf => ?_⟩
          generalize i.data = c at h1 hs hf hz hk
          cases hf with
          | genOctets h2 => exact h2 h1
          | genZone _ h2 => exact h2 hz
          | genComma _ _ h2 => exact hk h2
          | genText _ _ h2 => exact h2 ⟨t, hs⟩
          | _ => other_kind
        · obtain ⟨msg, h2⟩ := timeOf_err (rem := after i i.data.length) (data := first i i.data.length)
            (onlyValue_gen i.data) fun t ht => hs ⟨t, genFromBytes_ok.mp ht⟩
          exact .inl ⟨_, _, h2, .genText h1 (fun _ => ⟨hz, hk⟩) hs⟩
    · exact .inl ⟨first i i.data.length, .derConstraintFailed .missingTimeZone, by
        rw [if_pos (mt (zulu_iff _).mpr hz)]; rfl, .genZone h1 hz⟩
  · exact .inl ⟨_, _, by rw [if_pos (by simpa [timeOctets_iff] using h1)]; rfl, .genOctets h1⟩

theorem judges {m : Rules} {k : Kind} {p : Parser α} (hd : DecoderOf m k p) : Judges m k p := by
  cases hd with
  | bool => exact judges_map _ judges_booleanBer
  | boolDer => exact judges_map _ judges_booleanDer
  | boolean => exact judges_booleanBer
  | booleanDer => exact judges_booleanDer
  | null => exact judges_null m
  | uint h => exact judges_uintBer h
  | uintDer h => exact judges_uintDer h
  | int h => exact judges_intBer h
  | intDer h => exact judges_intDer h
  | integer => exact judges_integerBer
  | integerDer => exact judges_integerDer
  | enumerated => exact judges_enumeratedBer
  | enumeratedDer => exact judges_enumeratedDer
  | enum ds => exact judges_enum ds rfl judges_enumeratedBer fun _ _ _ _ => enumeratedBer_value
  | enumDer ds => exact judges_enum ds rfl judges_enumeratedDer fun _ _ _ _ => enumeratedDer_value
  | oid => exact judges_oid m
  | octetString => exact judges_octetBer
  | octetStringDer => exact judges_octetDer
  | slice => exact judges_sliceBer
  | sliceDer => exact judges_sliceDer
  | bitString => exact judges_bitBer
  | bitStringDer => exact judges_bitDer
  | text h => exact judges_strBer h
  | textDer h => exact judges_strDer h
  | str => exact judges_refStrBer
  | strDer => exact judges_refStrDer
  | string => exact judges_stringBer
  | bmpString => exact judges_bmpBer
  | bmpStringDer => exact judges_bmpDer
  | universalString => exact judges_univBer
  | universalStringDer => exact judges_univDer
  | utcTime => exact judges_utcBer
  | utcTimeDer => exact judges_utcDer
  | generalizedTime => exact judges_genBer
  | generalizedTimeDer => exact judges_genDer

/-- **C120** A content has at most one fault. -/
theorem C120_one_fault {m : Rules} {k : Kind} {c : Bytes} {e e' : InnerError} (h : Fault m k c e)
    (h' : Fault m k c e') : e = e' := by
  cases h <;> cases h' <;> first
    | rfl
    | contradiction
    | other_kind
    | (exfalso; simp_all [Shortest, MinimalInt]; done)
    | (exfalso; omega)
    | (exfalso; rename Kind.Unsigned _ _ => hk; cases hk; simp_all [Shortest, MinimalInt, InUint]; omega)
    | exact absurd (Int.le_trans (Int.natCast_nonneg _) ‹_ ≤ twos c›) (Int.not_le.mpr ‹twos c < 0›)

theorem judged {m : Rules} {k : Kind} {p : Parser α} (hd : DecoderOf m k p) {i r : Input} {a : Any}
    (h : m.any i = .ok (r, a)) (ht : p.acceptTag a.header.tag = true) (hc : a.header.constructed = false) :
    (∃ loc e, p.content a.header a.data = .error (.error loc e) ∧ Fault m k a.data.data (plainError e)) ∨
    ((∃ x v, p.content a.header a.data = .ok (x, v)) ∧ ∀ e, ¬ Fault m k a.data.data e) := by
  exact judges hd a.header a.data ht hc ((consistent_any h).2 hc)

theorem parse_of_content {m : Rules} {p : Parser α} {i r x : Input} {a : Any} {v : α} (h : m.any i = .ok (r, a))
    (ht : p.acceptTag a.header.tag = true) (hv : p.content a.header a.data = .ok (x, v)) :
    m.parse p i = .ok (r, v) := by
  cases m with
  | ber => exact parseBer_ok.mpr ⟨a, x, h, ht, hv⟩
  | der => exact parseDer_ok.mpr ⟨a, x, h, ht, hv⟩

/-- **C120** An object with the right tag, in primitive form: the decoder refuses it exactly if its content has a
fault, and the error is the one for that fault (up to the text of `InvalidValue`). If there is none it returns a
value. Missing: in BER a negative number with more octets than the type is a fault here although its value may fit
(`C120_padded`), and some DER faults have names of others (Spec/Fault), because the code does so. -/
theorem C120_error_names_fault_partial {m : Rules} {k : Kind} {p : Parser α} (hd : DecoderOf m k p) {i r : Input} {a : Any}
    (h : m.any i = .ok (r, a)) (ht : p.acceptTag a.header.tag = true) (hc : a.header.constructed = false) :
    (∀ e, (∃ loc e', m.parse p i = .error (.error loc e') ∧ plainError e' = e) ↔ Fault m k a.data.data e) ∧
    ((∃ v, m.parse p i = .ok (r, v)) ↔ ¬ ∃ e, Fault m k a.data.data e) := by
  rcases judged hd h ht hc with ⟨loc, e, h1, h2⟩ | ⟨⟨x, v, h1⟩, h2⟩
  · have h3 := parse_any_err h ht h1
    constructor
    · intro e0
      rw [h3]
      constructor
      · rintro ⟨_, _, h4, rfl⟩
        cases h4
        exact h2
      · intro h4
        exact ⟨_, _, rfl, C120_one_fault h2 h4⟩
    · rw [h3]
      exact ⟨fun ⟨_, h4⟩ => (nomatch h4), fun h4 => (h4 ⟨_, h2⟩).elim⟩
  · have h3 := parse_of_content h ht h1
    rw [h3]
    exact ⟨fun e => ⟨fun ⟨_, _, h4, _⟩ => (nomatch h4), fun h4 => (h2 e h4).elim⟩,
      ⟨fun _ ⟨e, h4⟩ => h2 e h4, fun _ => ⟨v, rfl⟩⟩⟩

/-- **C120** The same with `try_from` of an object that was read before: the error of the conversion is that of the
fault. -/
theorem C120_conversion {m : Rules} {k : Kind} {p : Parser α} (hd : DecoderOf m k p) {i r : Input} {a : Any}
    (h : m.any i = .ok (r, a)) (ht : p.acceptTag a.header.tag = true) (hc : a.header.constructed = false) :
    (∀ e, Fault m k a.data.data e → ∃ e', tryFromAny p a = .error (.error (Error.ofInner e')) ∧ plainError e' = e) ∧
    ((∃ v, tryFromAny p a = .ok v) ↔ ¬ ∃ e, Fault m k a.data.data e) := by
  rcases judged hd h ht hc with ⟨loc, e, h1, h2⟩ | ⟨⟨x, v, h1⟩, h2⟩
  · have h3 := tryFromAny_err ht h1
    rw [h3]
    exact ⟨fun e0 h4 => ⟨e, rfl, C120_one_fault h2 h4⟩, ⟨fun ⟨_, h4⟩ => (nomatch h4), fun h4 => (h4 ⟨_, h2⟩).elim⟩⟩
  · have h3 : tryFromAny p a = .ok v := by simp [tryFromAny, ht, h1]
    rw [h3]
    exact ⟨fun e h4 => (h2 e h4).elim, ⟨fun _ ⟨e, h4⟩ => h2 e h4, fun _ => ⟨v, rfl⟩⟩⟩

/-- **C120** In DER a signed integer is too large exactly if it is out of the range of the type. -/
theorem C120_signed {N : Nat} (hN : 1 ≤ N) (c : Bytes) :
    Fault .der (.int N) c .integerTooLarge ↔ MinimalInt c ∧ ¬ InInt N (twos c) := by
  constructor
  · intro hf
    cases hf with
    | intTooLarge hs h1 =>
      refine ⟨hs rfl, fun hr => ?_⟩
      rcases h1 with h1 | ⟨h1, h2⟩
      · exact absurd hr.2 (by omega)
      · cases hb : isHighestBitSet c with
        | true => exact absurd (minimal_len hN (hs rfl) hb hr) (by omega)
        | false => rw [twos_low hb] at h1; omega
    | _ => other_kind
  · rintro ⟨hm, hr⟩
    refine .intTooLarge (fun _ => hm) ?_
    by_cases h1 : (2 ^ (8 * N - 1) : Nat) ≤ twos c
    · exact .inl h1
    · have h2 : twos c < -(2 ^ (8 * N - 1) : Nat) := by
        by_cases h3 : -(2 ^ (8 * N - 1) : Nat) ≤ twos c
        · exact (hr ⟨h3, by omega⟩).elim
        · omega
      refine .inr ⟨by omega, ?_⟩
      cases hb : isHighestBitSet c with
      | false => rw [twos_low hb] at h2; generalize 2 ^ (8 * N - 1) = q at h2; omega
      | true =>
        have h3 := high_ge hb
        rw [twos_high hb] at h2
        have h4 := pow8_half hN
        by_cases hl : c.length ≤ N
        · have h5 := Nat.pow_le_pow_right (n := 256) (by omega) hl
          omega
        · omega

/-- **C120** Deviation: in BER the number -1 is too large for a signed type if it has more octets than the type.
Zeroes in front of a positive number do no harm. -/
theorem C120_padded {N k : Nat} (hk : N < k) :
    Fault .ber (.int N) (List.replicate k 0xff) .integerTooLarge ∧ twos (List.replicate k 0xff) = -1 ∧
    ∀ e, ¬ Fault .ber (.int N) (List.replicate k 0) e := by
  obtain ⟨j, rfl⟩ : ∃ j, k = j + 1 := ⟨k - 1, by omega⟩
  have h1 : twos (List.replicate (j + 1) 0xff) = -1 := by
    rw [twos_high (bs := List.replicate (j + 1) 0xff)
      ((highest_eq _).mpr ⟨0xff, List.replicate j 0xff, rfl, by decide⟩)]
    have h2 := beNat_replicate_ff (j + 1) []
    rw [List.append_nil] at h2
    have h3 : 0 < 256 ^ (j + 1) := Nat.pow_pos (by decide)
    simp only [List.length_replicate, List.length_nil, beNat_nil, Nat.add_zero] at h2 ⊢
    omega
  refine ⟨.intTooLarge (fun h => nomatch h) (.inr ⟨by omega, by simpa using hk⟩), h1, fun e hf => ?_⟩
  have h2 : twos (List.replicate (j + 1) 0) = 0 := by
    rw [twos_low (by simp [isHighestBitSet, List.replicate_succ])]
    have h2 := beNat_replicate_zero (j + 1) []
    rw [List.append_nil] at h2
    rw [h2]
    rfl
  generalize List.replicate (j + 1) 0 = c at hf h2
  cases hf with
  | intTooLarge _ h3 =>
    rw [h2] at h3
    have h4 : 0 < 2 ^ (8 * N - 1) := Nat.pow_pos (by decide)
    omega
  | _ => other_kind

theorem realBinary_error {tag : Nat} {b : UInt8} {rem : Bytes} {i : Input} {e : InnerError} {loc : Input}
    (h : decodeRealBinary tag b rem i = .error (.error loc e)) : plainError e = .invalidValue tag "" := by
  unfold decodeRealBinary at h
  simp only [realExpLen, if_neg (and3_ne4 b), bind_ok] at h
  split at h
  · cases h; rfl
  · rcases bind_eq_err.mp h with h | ⟨e0, _, h⟩
    · unfold realExponent at h
      split at h
      · cases h
      · split at h
        · cases h; rfl
        · cases h
    · rcases bind_eq_err.mp h with h | ⟨⟨base, e1⟩, _, h⟩
      · unfold realBase mulI32 at h
        repeat' split at h
        all_goals first | (cases h; done) | (cases h; rfl) | (simp [Except.map] at h; done) | skip
      · rcases bind_eq_err.mp h with h | ⟨p, _, h⟩
        · unfold realMantissa at h
          simp only at h
          repeat' split at h
          all_goals first | (cases h; done) | (cases h; rfl)
        · cases h

/-- **C120** The errors of REAL. A special value that is not alone is `InvalidLength`, a decimal number that is not
UTF-8 is `StringInvalidCharset`, and every other refusal is `InvalidValue`. -/
theorem C120_real (lib : FloatLib) {m : Rules} {i r loc : Input} {a : Any} {e : InnerError}
    (h : m.any i = .ok (r, a)) (ht : a.header.tag = 9) (hc : a.header.constructed = false)
    (hp : m.parse (realP lib) i = .error (.error loc e)) :
    ∃ b c, a.data.data = b :: c ∧ (e = .invalidLength ↔ 0x40 ≤ b.toNat ∧ b.toNat < 0x80 ∧ c ≠ []) ∧
      (e = .stringInvalidCharset ↔ b.toNat < 0x40 ∧ ¬ ∃ s, c = Text.utf8 s) ∧
      (plainError e = .invalidValue 9 "" ∨ e = .invalidLength ∨ e = .stringInvalidCharset) := by
  have hl := (consistent_any h).2 hc
  have hk : (realP lib).content a.header a.data = .error (.error loc e) := by
    cases hx : (realP lib).content a.header a.data with
    | error e1 => rw [parse_any_err h (by simp [realP, tagIs, ht, tagReal]) hx] at hp; cases hp; rfl
    | ok x => rw [parse_of_content h (by simp [realP, tagIs, ht, tagReal]) hx] at hp; cases hp
  have hk : decodeReal lib a.header a.data = .error (.error loc e) := by
    have hk : (a.header.assertPrimitive a.data >>= fun _ => decodeReal lib a.header a.data >>= fun r =>
      a.data.atEnd >>= fun x => pure (x, r)) = (.error (.error loc e) : PRes Real) := hk
    rw [assertPrimitive_prim hc, bind_ok] at hk
    rcases bind_eq_err.mp hk with h1 | ⟨v, _, h1⟩
    · exact h1
    · rw [atEnd_eq, bind_ok] at h1; cases h1
  unfold decodeReal at hk
  split at hk
  · cases hk
  · rename_i b c hbc
    refine ⟨b, c, hbc, ?_⟩
    have hb : b &&& 0x80 ≠ 0 ↔ 0x80 ≤ b.toNat := by
      rw [← bne_iff_ne, and80_ne b, decide_eq_true_eq]
    by_cases h1 : 0x80 ≤ b.toNat
    · rw [if_pos (hb.mpr h1)] at hk
      have h2 := realBinary_error hk
      rw [ht] at h2
      refine ⟨⟨fun h3 => ?_, fun h3 => absurd h3 (by omega)⟩, ⟨fun h3 => ?_, fun h3 => absurd h3.1 (by omega)⟩, .inl h2⟩
      · rw [h3] at h2; cases h2
      · rw [h3] at h2; cases h2
    · rw [if_neg (mt hb.mp h1)] at hk
      have hb' := (first_low b (by omega)).1
      by_cases h2 : 0x40 ≤ b.toNat
      · rw [if_pos (hb'.mpr h2)] at hk
        unfold decodeRealSpecial at hk
        rw [hl, hbc, ht] at hk
        cases c with
        | cons d c =>
          rw [if_pos (by simp)] at hk
          cases hk
          exact ⟨by simp; omega, ⟨fun h3 => (nomatch h3), fun h3 => absurd h3.1 (by omega)⟩, .inr (.inl rfl)⟩
        | nil =>
          rw [if_neg (by simp)] at hk
          have h3 : plainError e = .invalidValue 9 "" := by
            repeat' split at hk
            all_goals first | (cases hk; done) | (cases hk; rfl)
          refine ⟨⟨fun h4 => ?_, fun h4 => (h4.2.2 rfl).elim⟩, ⟨fun h4 => ?_, fun h4 => absurd h4.1 (by omega)⟩, .inl h3⟩
          · rw [h4] at h3; cases h3
          · rw [h4] at h3; cases h3
      · rw [if_neg (mt hb'.mp h2)] at hk
        unfold decodeRealDecimal realOfF64 at hk
        cases hu : fromUtf8 c with
        | none =>
          rw [hu] at hk
          cases hk
          refine ⟨⟨fun h4 => (nomatch h4), fun h4 => absurd h4.1 h2⟩, ⟨fun _ => ⟨by omega, fun ⟨s, hs⟩ => ?_⟩, fun _ => rfl⟩,
            .inr (.inr rfl)⟩
          rw [fromUtf8_iff.mpr hs] at hu
          cases hu
        | some s =>
          rw [hu, ht] at hk
          simp only at hk
          have h3 : plainError e = .invalidValue 9 "" := by
            repeat' split at hk
            all_goals first | (cases hk; done) | (cases hk; rfl)
          refine ⟨⟨fun h4 => ?_, fun h4 => absurd h4.1 h2⟩, ⟨fun h4 => ?_, fun h4 => (h4.2 ⟨s, fromUtf8_iff.mp hu⟩).elim⟩, .inl h3⟩
          · rw [h4] at h3; cases h3
          · rw [h4] at h3; cases h3

/-! ### Witnesses -/

/-- A number with a needless zero: the fault, and the error of `u8`. -/
example : Fault .der (.uint 1) [0, 5] (.derConstraintFailed .integerLeadingZeroes) ∧
    (uintDer 1).parseDer (Input.fromSlice [2, 2, 0, 5]) =
      .error (.error ⟨[0, 5], 2, 4⟩ (.derConstraintFailed .integerLeadingZeroes)) :=
  ⟨.numberZeroes (.uint 1) rfl (by decide), by decide +kernel⟩

/-- The hypotheses of `C120_error_names_fault_partial` hold for it. -/
example : ∃ r a, Rules.der.any (Input.fromSlice [2, 2, 0, 5]) = .ok (r, a) ∧
    (uintDer 1).acceptTag a.header.tag = true ∧ a.header.constructed = false ∧ a.data.data = [0, 5] := by
  exact ⟨_, _, rfl, by decide, by decide, by decide⟩

/-- -129 does not fit `i8`, 300 does not fit `u8`, and -1 is no `u8`. -/
example : Fault .der (.int 1) [0xff, 0x7f] .integerTooLarge ∧ Fault .ber (.uint 1) [1, 0x2c] .integerTooLarge ∧
    Fault .ber (.uint 1) [0xff] .integerNegative :=
  ⟨(C120_signed (by decide) _).mpr ⟨⟨by decide, by decide⟩, fun h => absurd h.1 (by decide)⟩,
    .tooLarge (.uint 1) (fun h => nomatch h) (by decide), .negative (.uint 1) (fun h => nomatch h) (by decide)⟩

/-- A time without `Z`, in DER. -/
example : Fault .der .generalizedTime (ascii "20240102030405") (.derConstraintFailed .missingTimeZone) :=
  .genZone (by unfold TimeOctets; decide +kernel) (by decide +kernel)

/-- REAL: a special value with a second octet, and an unknown one. -/
example (lib : FloatLib) :
    (realP lib).parseDer (Input.fromSlice [9, 2, 0x40, 0]) = .error (.error ⟨[0x40, 0], 2, 4⟩ .invalidLength) := by
  rfl

end Asn1

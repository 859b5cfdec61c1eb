import Verif.Props.Typed
import Verif.Props.OctetString
/-!
# C93: parsing the header and returning the content
-/
namespace Asn1
open Spec
variable {α : Type}

/-- The parser that returns the header and the content. -/
def inputP (p : Parser α) : Parser (Header × Input) := ⟨p.acceptTag, fun h d => .ok (d, (h, d))⟩

theorem asInput_ber (p : Parser α) (i : Input) : p.parseBerAsInput i = (inputP p).parseBer i := rfl

theorem safe_input (p : Parser α) : (inputP p).Safe := fun _ _ => ⟨by simp [inputP], by simp [inputP]⟩

/-- **C93** `parse_ber_as_input` returns the header and the content of the object, as `Any::parse_ber`
finds them, exactly if the type accepts the tag number. -/
theorem C93_ber_as_input (p : Parser α) (i r : Input) (h : Header) (d : Input) :
    p.parseBerAsInput i = .ok (r, (h, d)) ↔
      parseBerAny i = .ok (r, ⟨h, d⟩) ∧ p.acceptTag h.tag = true := by
  rw [asInput_ber, parseBer_ok]
  constructor
  · rintro ⟨a, x, h1, h2, h3⟩
    injection h3 with h3; injection h3 with _ h3; injection h3 with h4 h5
    subst h4; subst h5
    exact ⟨h1, h2⟩
  · rintro ⟨h1, h2⟩
    exact ⟨_, d, h1, h2, rfl⟩

/-- A case. -/
example : ((uintBer 2).parseBerAsInput (Input.fromSlice [2, 1, 5, 9])).map (fun x => (x.1.data, x.2.1.tag, x.2.2.data)) =
    .ok ([9], 2, [5]) := by decide +kernel

/-- **C93** `parse_der_as_input` likewise, as `Any::parse_der` finds them. -/
theorem C93_der_as_input (p : Parser α) (i r : Input) (h : Header) (d : Input) :
    p.parseDerAsInput i = .ok (r, (h, d)) ↔
      parseDerAny i = .ok (r, ⟨h, d⟩) ∧ p.acceptTag h.tag = true := by
  rw [parseDerAny_eq]
  unfold Parser.parseDerAsInput
  rw [bind_eq_ok, bind_eq_ok]
  constructor
  · rintro ⟨⟨r1, hd⟩, h1, h2⟩
    simp only at h2
    by_cases ha : p.acceptTag hd.tag = true
    · simp only [ha, Bool.not_true, Bool.false_eq_true, if_false] at h2
      obtain ⟨⟨r2, c⟩, h3, h4⟩ := bind_eq_ok.mp h2
      injection h4 with h4; injection h4 with h5 h4; injection h4 with h6 h7
      subst h5; subst h6; subst h7
      exact ⟨⟨_, h1, bind_eq_ok.mpr ⟨_, h3, rfl⟩⟩, ha⟩
    · simp [ha, nomErr] at h2
  · rintro ⟨⟨⟨r1, hd⟩, h1, h2⟩, ha⟩
    obtain ⟨⟨r2, c⟩, h3, h4⟩ := bind_eq_ok.mp h2
    injection h4 with h4; injection h4 with h5 h4; injection h4 with h6 h7
    subst h5; subst h6; subst h7
    refine ⟨_, h1, ?_⟩
    simp only [ha, Bool.not_true, Bool.false_eq_true, if_false]
    exact bind_eq_ok.mpr ⟨_, h3, rfl⟩

/-- A case: DER constraints of the type are not tested. -/
example : ((uintDer 2).parseDerAsInput (Input.fromSlice [2, 2, 0, 5, 9])).map (fun x => (x.1.data, x.2.2.data)) =
    .ok ([9], [0, 5]) := by decide +kernel

/-- **C93** `parse_ber` is `parse_ber_as_input` followed by `from_ber_content`, also when it fails;
`parse_der` succeeds exactly if `parse_der_as_input` and then `from_der_content` do, with the same
result. -/
theorem C93_then_content (p : Parser α) (i : Input) :
    (p.parseBer i = p.parseBerAsInput i >>= fun x => p.content x.2.1 x.2.2 >>= fun y =>
      .ok (x.1, y.2)) ∧
    ∀ r v, p.parseDer i = .ok (r, v) ↔ ∃ h d x, p.parseDerAsInput i = .ok (r, (h, d)) ∧
      p.content h d = .ok (x, v) := by
  constructor
  · unfold Parser.parseBer Parser.parseBerAsInput
    cases parseHeader i with
    | error e => rfl
    | ok x =>
      simp only [bind_ok]
      split
      · rfl
      · cases berContent x.2 x.1 MAX_RECURSION <;> rfl
  · intro r v
    rw [parseDer_ok]
    constructor
    · rintro ⟨a, x, h1, h2, h3⟩
      exact ⟨a.header, a.data, x, (C93_der_as_input p i r _ _).mpr ⟨h1, h2⟩, h3⟩
    · rintro ⟨h, d, x, h1, h3⟩
      obtain ⟨h1, h2⟩ := (C93_der_as_input p i r _ _).mp h1
      exact ⟨_, x, h1, h2, h3⟩

/-- A case. -/
example : (uintDer 2).parseDer (Input.fromSlice [2, 1, 5, 9]) = .ok (⟨[9], 3, 4⟩, 5) := by decide +kernel

/-- **C93** Neither panics, for any type. -/
theorem C93_no_panic (p : Parser α) (i : Input) :
    NoPanic (p.parseBerAsInput i) ∧ NoPanic (p.parseDerAsInput i) := by
  refine ⟨safe_parseBer (safe_input p) i, ?_⟩
  unfold Parser.parseDerAsInput
  refine NoPanic.bind ⟨good_parseHeaderDer.noPanic i, good_parseHeaderDer.noDiverge i⟩ fun x _ => ?_
  simp only
  split
  · exact ⟨by simp [nomErr], by simp [nomErr]⟩
  · exact NoPanic.bind (noPanic_derContent _ _) fun _ _ => noPanic_ok _

/-- A case: an OCTET STRING and what follows it. -/
example : octetDer.parseDerAsInput (Input.fromSlice [4, 2, 7, 8, 9]) =
    .ok (⟨[9], 4, 5⟩, (⟨.universal, false, 4, .definite 2, some [4], some ⟨[4, 2], 0, 2⟩⟩,
      ⟨[7, 8], 2, 4⟩)) := by decide +kernel

end Asn1

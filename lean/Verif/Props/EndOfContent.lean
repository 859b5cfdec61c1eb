import Verif.Props.Simple
import Verif.Props.Generic
/-!
# C92: end-of-contents octets
-/
namespace Asn1
open Spec

theorem eoc_content {h : Header} {d x : Input} :
    endOfContentBer.content h d = .ok (x, ()) ↔ h.length = .definite 0 ∧ x = d := by
  show (if !h.length.isNull then nomErr d .invalidLength else .ok (d, ())) = _ ↔ _
  by_cases hl : h.length = .definite 0
  · simp [Length.isNull, hl, eq_comm]
  · simp [Length.isNull, hl, nomErr]

/-- **C92** `EndOfContent::parse_ber` accepts exactly the headers with tag number 0 and length 0, and
consumes just the header. -/
theorem C92_end_of_content (i r : Input) :
    endOfContentBer.parseBer i = .ok (r, ()) ↔
      ∃ h, parseHeader i = .ok (r, h) ∧ h.tag = 0 ∧ h.length = .definite 0 := by
  rw [parseBer_ok]
  constructor
  · rintro ⟨a, x, h1, h2, h3⟩
    obtain ⟨r1, hp, hc⟩ := parseBerAny_ok.mp h1
    have hl := (eoc_content.mp h3).1
    have hc' := berContent_ok (d := 49).mp hc
    rw [hl] at hc'
    obtain ⟨-, rfl, -⟩ := hc'
    rw [after_zero]
    exact ⟨_, hp, by simpa [endOfContentBer, tagIs, tagEndOfContent] using h2, hl⟩
  · rintro ⟨h, hp, ht, hl⟩
    refine ⟨⟨h, first r 0⟩, first r 0, parseBerAny_ok.mpr ⟨r, hp, ?_⟩, ?_,
      eoc_content.mpr ⟨hl, rfl⟩⟩
    · refine berContent_ok (d := 49).mpr ?_
      rw [hl]
      exact ⟨Nat.zero_le _, (after_zero r).symm, rfl⟩
    · simpa [endOfContentBer, tagIs, tagEndOfContent] using ht

/-- **C92** The end-of-contents octets are accepted, whatever follows. -/
theorem C92_end_of_content_bytes (rest : Bytes) : fromBer endOfContentBer (0 :: 0 :: rest) =
    .ok (rest, ()) := by
  have h := parseHeader_0000 (Input.fromSlice (0 :: 0 :: rest)) rest rfl
  obtain ⟨a, x, h1, h2, h3⟩ := parseBer_ok.mp ((C92_end_of_content _ _).mpr ⟨_, h, rfl, rfl⟩)
  exact fromBer_ok.mpr ⟨_, a, x, h1, rfl, h2, h3⟩

/-- **C92** Deviation: X.690 8.1.5 knows one form only, but the class, the constructed bit and the
form of the length are not looked at. -/
theorem C92_deviations :
    fromBer endOfContentBer [0x80, 0x00] = .ok ([], ()) ∧
    fromBer endOfContentBer [0x20, 0x00] = .ok ([], ()) ∧
    fromBer endOfContentBer [0x00, 0x81, 0x00] = .ok ([], ()) ∧
    fromBer endOfContentBer [0x1f, 0x00, 0x00] = .ok ([], ()) := by
  refine ⟨by decide +kernel, by decide +kernel, by decide +kernel, by decide +kernel⟩

/-- A content is refused. -/
example : fromBer endOfContentBer [0x00, 0x01, 0x00] = .error (.error .invalidLength) := by
  decide +kernel

end Asn1

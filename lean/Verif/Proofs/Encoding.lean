import Verif.Spec.Codec
import Verif.Proofs.Codec
/-!
# Lengths, failing writers and injectivity, for every type at once
-/
namespace Asn1
open Spec Wr
variable {α : Type}

theorem Encodes.lengths {t : ToBer α} {v : α} {cs : Bytes} (h : Encodes t v cs)
    (hs : cs.length < 2 ^ 64) : LengthsRight t v := by
  refine ⟨_, cs, h.content, h.len, h.header hs, h.encode hs, fun h24 => ?_⟩
  exact h.totalLen h24

theorem strict_writeTag (c : Class) (p : Bool) (t : Nat) : Strict (writeTagGeneric c p t) := by
  unfold writeTagGeneric
  simp only
  split
  · exact (strict_writeAll _).bind fun _ => strict_pure _
  · refine (strict_writeAll _).bind fun _ => ?_
    split
    · exact .fail _
    · exact (strict_writeAll _).bind fun _ => strict_pure _

theorem strict_writeLength (l : Length) : Strict (writeLength l) := by
  unfold writeLength
  split
  · exact (strict_writeAll _).bind fun _ => strict_pure _
  · split
    · exact (strict_writeAll _).bind fun _ => strict_pure _
    · simp only
      split
      · exact .fail _
      · exact (strict_writeAll _).bind fun _ => (strict_writeAll _).bind fun _ => strict_pure _

theorem strict_writeHeader (t : ToBer α) (v : α) : Strict (t.writeHeader v) := by
  unfold ToBer.writeHeader
  simp only [writeTagInfo_eq]
  exact (strict_writeTag _ _ _).bind fun _ => (strict_writeLength _).bind fun _ => strict_pure _

theorem strict_encode {t : ToBer α} {v : α} (h : Strict (t.writeContent v)) :
    Strict (t.encode v) :=
  (strict_writeHeader t v).bind fun _ => h.bind fun _ => strict_pure _

theorem faultTolerant {t : ToBer α} {v : α} (h : Strict (t.writeContent v)) :
    FaultTolerant t v := fun w => (strict_encode h).runFaulty w []

theorem prefixFree_ber {t : ToBer α} {p : Parser α} {P : α → Prop}
    (h : ∀ v, P v → ParseBerBack t p v v) : PrefixFree t P := by
  intro v w bv bw hv hw h1 h2 ⟨s, hs⟩
  obtain ⟨b1, g1, k1⟩ := h v hv
  obtain ⟨b2, g2, k2⟩ := h w hw
  rw [h1] at g1; rw [h2] at g2
  simp at g1 g2
  subst g1; subst g2
  have e1 := k1 s (Input.fromSlice (bv ++ s)) rfl
  have e2 := k2 [] (Input.fromSlice (bv ++ s)) (by simp [Input.fromSlice, hs])
  rw [e1] at e2
  simp at e2
  exact e2.2

theorem prefixFree_der {t : ToBer α} {p : Parser α} {P : α → Prop}
    (h : ∀ v, P v → ParseDerBack t p v v) : PrefixFree t P := by
  intro v w bv bw hv hw h1 h2 ⟨s, hs⟩
  obtain ⟨b1, g1, k1⟩ := h v hv
  obtain ⟨b2, g2, k2⟩ := h w hw
  rw [h1] at g1; rw [h2] at g2
  simp at g1 g2
  subst g1; subst g2
  have e1 := k1 s (Input.fromSlice (bv ++ s)) rfl
  have e2 := k2 [] (Input.fromSlice (bv ++ s)) (by simp [Input.fromSlice, hs])
  rw [e1] at e2
  simp at e2
  exact e2.2

end Asn1

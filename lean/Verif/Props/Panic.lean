import Verif.Props.Oid
/-!
# Typed decoders never panic (C61)
-/
namespace Asn1
open Spec

theorem total_of {α : Type} {pb pd : Parser α} {check : Any → Except SErr Unit} (hb : pb.Safe)
    (hd : pd.Safe) (hc : ∀ a, NoPanicS (check a)) : Total pb pd check :=
  ⟨safe_parseBer hb, safe_parseDer hd, safe_fromBer hb, safe_fromDer hb hc⟩

/-- **C61** (partial) The four decoders of the modelled universal types neither panic nor loop, on
any input. Missing: `from_der` of BOOLEAN, which panics on an empty content
(`C19_from_der_panics`). -/
theorem C61_typed_no_panic_partial :
    (∀ N, Total (uintBer N) (uintDer N) checkDerInt) ∧
    (∀ N, Total (intBer N) (intDer N) checkDerInt) ∧
    Total integerBer integerDer checkDerInt ∧
    ((∀ i, NoPanic (boolBer.parseBer i)) ∧ (∀ i, NoPanic (boolDer.parseDer i)) ∧
      ∀ bytes, NoPanicS (fromBer boolBer bytes)) ∧
    Total nullP nullP nullCheck ∧
    Total enumeratedBer enumeratedDer enumeratedCheck ∧
    Total octetBer octetDer octetCheck ∧
    Total bitBer bitDer bitCheck ∧
    Total oidP oidP oidCheck := by
  have hdef : ∀ l, NoPanicS (assertDefiniteS l) := by
    intro l; unfold assertDefiniteS NoPanicS; split <;> simp
  have hprim : ∀ h, NoPanicS (assertPrimitiveS h) := by
    intro l; unfold assertPrimitiveS NoPanicS; split <;> simp
  refine ⟨fun N => total_of (safe_uint N).1 (safe_uint N).2 safe_checkDerInt,
    fun N => total_of (safe_int N).1 (safe_int N).2 safe_checkDerInt,
    total_of safe_integer.1 safe_integer.2 safe_checkDerInt,
    ⟨safe_parseBer (safe_map safe_boolean.1), safe_parseDer (safe_map safe_boolean.2),
      safe_fromBer (safe_map safe_boolean.1)⟩,
    total_of safe_null safe_null (fun a => by simp [nullCheck, NoPanicS]),
    total_of safe_enum.1 safe_enum.2 (fun a => hdef _),
    total_of safe_octet.1 safe_octet.2 (fun a => hprim _),
    total_of safe_bit.1 safe_bit.2 (fun a => ?_),
    total_of safe_oid safe_oid (fun a => ⟨bind_notS (hprim _).1 fun _ _ => (hdef _).1,
      bind_notS (hprim _).2 fun _ _ => (hdef _).2⟩)⟩
  have : ∀ l : Bytes, NoPanicS (match l with
      | [] => .error (.error .invalidLength)
      | [s0] => if s0 = 0 then .ok () else .error (.error .invalidLength)
      | s0 :: s1 :: rest =>
        if trailingZeros ((s1 :: rest).getLastD 0) < s0.toNat then
          .error (.error (.derConstraintFailed .unusedBitsNotZero))
        else .ok () : Except SErr Unit) := by
    intro l
    unfold NoPanicS
    split
    · simp
    · split <;> simp
    · split <;> simp
  exact ⟨bind_notS (hprim _).1 fun _ _ => (this _).1, bind_notS (hprim _).2 fun _ _ => (this _).2⟩

/-- A case: a truncated INTEGER is reported, not a panic. -/
example : (uintBer 4).parseBer (Input.fromSlice [0x02, 0x02, 0x01]) = .error (.incomplete 1) ∧
    (bitBer.parseBer (Input.fromSlice [0x03, 0x00])).isOk = false := by decide +kernel

end Asn1

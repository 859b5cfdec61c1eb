import Verif.Base.Bytes
/-!
# Bit operations on bytes, as arithmetic

Each lemma is about every byte: it is checked by the kernel on the whole table of 256 bytes.
-/
namespace Asn1

theorem forall_byte {P : UInt8 → Prop} (h : ∀ n : Fin 256, P (UInt8.ofNat n.val)) (b : UInt8) :
    P b := by
  have := h ⟨b.toNat, b.toNat_lt⟩
  simpa using this

theorem shr6_toNat (b : UInt8) : (b >>> 6).toNat = b.toNat / 64 := by
  revert b; refine forall_byte ?_; decide +kernel

theorem and20_ne (b : UInt8) : ((b &&& 0x20) != 0) = decide (b.toNat / 32 % 2 = 1) := by
  revert b; refine forall_byte ?_; decide +kernel

theorem and1f_toNat (b : UInt8) : (b &&& 0x1f).toNat = b.toNat % 32 := by
  revert b; refine forall_byte ?_; decide +kernel

theorem and7f_toNat (b : UInt8) : (b &&& 0x7f).toNat = b.toNat % 128 := by
  revert b; refine forall_byte ?_; decide +kernel

theorem and80_eq (b : UInt8) : (b &&& 0x80 = 0) ↔ b.toNat < 128 := by
  revert b; refine forall_byte ?_; decide +kernel

theorem and80_ne (b : UInt8) : ((b &&& 0x80) != 0) = decide (128 ≤ b.toNat) := by
  revert b; refine forall_byte ?_; decide +kernel

theorem or80_toNat (b : UInt8) (h : b.toNat < 128) : (b ||| 0x80).toNat = b.toNat + 128 := by
  revert h; revert b; refine forall_byte ?_; decide +kernel

theorem byte_eq_iff (a b : UInt8) : a = b ↔ a.toNat = b.toNat := by
  constructor
  · rintro rfl; rfl
  · exact fun h => UInt8.toNat_inj.mp h

theorem byte_lt (b : UInt8) : b.toNat < 256 := b.toNat_lt

end Asn1

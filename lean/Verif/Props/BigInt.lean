import Verif.Model.BigInt
import Verif.Props.Integer
/-!
# C95: integers of any size
-/
namespace Asn1
open Spec

theorem twosComplement_eq (bs : Bytes) : (twosComplement bs).1.length = bs.length ∧
    (if (twosComplement bs).2 = true then beNat (twosComplement bs).1 = 0 ∧ beNat bs = 0
      else beNat (twosComplement bs).1 + beNat bs = 256 ^ bs.length) := by
  induction bs with
  | nil => simp [twosComplement]
  | cons b rest ih =>
    obtain ⟨hl, ih⟩ := ih
    have hb := b.toNat_lt
    have hn : (~~~b).toNat = 255 - b.toNat := by simp
    unfold twosComplement
    generalize twosComplement rest = p at *
    obtain ⟨digits, carry⟩ := p
    simp only at hl ih
    cases carry with
    | false =>
      simp only [Bool.false_eq_true, if_false] at ih ⊢
      refine ⟨by simp [hl], ?_⟩
      rw [beNat_cons, beNat_cons, hn, hl, List.length_cons, Nat.pow_succ]
      have : (255 - b.toNat) * 256 ^ rest.length + b.toNat * 256 ^ rest.length
          = 255 * 256 ^ rest.length := by rw [← Nat.add_mul]; congr 1; omega
      omega
    | true =>
      simp only [if_true] at ih ⊢
      obtain ⟨h1, h2⟩ := ih
      refine ⟨by simp [hl], ?_⟩
      have ha : (~~~b + 1).toNat = (256 - b.toNat) % 256 := by
        rw [UInt8.toNat_add, hn]
        have : (1 : UInt8).toNat = 1 := rfl
        rw [this]; congr 1; omega
      by_cases hz : b.toNat = 0
      · have e : ~~~b + 1 = 0 := by
          apply UInt8.toNat_inj.mp; rw [ha, hz]; rfl
        rw [e]
        simp only [beq_self_eq_true, if_true]
        rw [beNat_cons, beNat_cons, h1, h2, hz]; simp
      · have e : (~~~b + 1 == 0) = false := by
          rw [beq_eq_false_iff_ne]; intro h
          have := congrArg UInt8.toNat h
          rw [ha] at this
          have h0 : (0 : UInt8).toNat = 0 := rfl
          omega
        rw [e]
        simp only [Bool.false_eq_true, if_false]
        rw [beNat_cons, beNat_cons, h1, h2, ha, hl, List.length_cons, Nat.pow_succ]
        have : (256 - b.toNat) % 256 * 256 ^ rest.length + b.toNat * 256 ^ rest.length
            = 256 * 256 ^ rest.length := by rw [← Nat.add_mul]; congr 1; omega
        omega

/-- **C95** For every byte string, `as_bigint` is its two's-complement value; and `as_biguint` is
that value if it is not negative, and the error `IntegerNegative` if it is. -/
theorem C95_bigint (d : Bytes) :
    (Integer.mk d).asBigint = twos d ∧
    (∀ n : Nat, (Integer.mk d).asBiguint = .ok n ↔ twos d = n) ∧
    (∀ e, (Integer.mk d).asBiguint = .error e ↔ twos d < 0 ∧ e = .integerNegative) := by
  refine ⟨?_, ?_⟩
  · cases d with
    | nil => rfl
    | cons b rest =>
      unfold Integer.asBigint fromSignedBytesBe twos
      simp only
      have e : b > 0x7f ↔ 128 ≤ b.toNat := by
        rw [gt_iff_lt, UInt8.lt_iff_toNat_lt]
        exact Nat.lt_iff_add_one_le
      by_cases hb : 128 ≤ b.toNat
      · rw [if_pos (e.mpr hb), if_pos hb]
        obtain ⟨_, h⟩ := twosComplement_eq (b :: rest)
        have hp : 0 < beNat (b :: rest) :=
          Nat.lt_of_lt_of_le (Nat.pow_pos (by decide)) (beNat_head_le b rest (by omega))
        split at h
        · omega
        · omega
      · rw [if_neg (mt e.mp hb), if_neg hb]
  · unfold Integer.asBiguint
    simp only
    cases hb : isHighestBitSet d with
    | true =>
      have h1 := twos_high hb
      have h2 := beNat_lt d
      refine ⟨fun n => ⟨fun h => by simp at h, fun h => by omega⟩, fun e => ?_⟩
      simp only [if_true, Except.error.injEq]
      exact ⟨fun h => ⟨by omega, h.symm⟩, fun h => h.2.symm⟩
    | false =>
      have h1 := twos_low hb
      simp only [Bool.false_eq_true, if_false]
      refine ⟨fun n => ?_, fun e => ⟨fun h => (by cases h), fun h => by omega⟩⟩
      rw [h1, Except.ok.injEq]
      exact ⟨fun h => by rw [h], fun h => Int.ofNat.inj h⟩

example : (Integer.mk [0xfe, 0x00]).asBigint = -512 ∧
    (Integer.mk [0xfe, 0x00]).asBiguint = .error .integerNegative ∧
    (Integer.mk [0x00, 0xfe]).asBiguint = .ok 254 ∧ (Integer.mk []).asBigint = 0 := by
  decide +kernel

theorem exists_width (v : Int) : ∃ N, 1 ≤ N ∧ InInt N v := by
  refine ⟨v.natAbs + 1, by omega, ?_⟩
  have h1 : v.natAbs < 2 ^ v.natAbs := Nat.lt_two_pow_self
  have h2 : 2 ^ v.natAbs ≤ 2 ^ (8 * (v.natAbs + 1) - 1) :=
    Nat.pow_le_pow_right (by decide) (by omega)
  unfold InInt
  omega

/-- **C95** Every whole number, however large, is the `as_bigint` of exactly one content that DER
accepts; so two `Integer`s read by the DER parser are equal exactly when the numbers they denote
are. -/
theorem C95_der_bijection (v : Int) :
    (∃ d, MinimalInt d ∧ (Integer.mk d).asBigint = v ∧
      ∀ d', MinimalInt d' → (Integer.mk d').asBigint = v → d' = d) ∧
    (∀ i r n j s m, integerDer.parseDer i = .ok (r, n) → integerDer.parseDer j = .ok (s, m) →
      (n = m ↔ n.asBigint = m.asBigint)) := by
  constructor
  · obtain ⟨N, hN, hv⟩ := exists_width v
    obtain ⟨d, _, h2, h3, _⟩ := fromInt_spec hN hv
    refine ⟨d, h2, by rw [(C95_bigint d).1, h3], fun d' hm h => minimal_unique hm h2 ?_⟩
    rw [← (C95_bigint d').1, h, h3]
  · intro i r ⟨n⟩ j s ⟨m⟩ h1 h2
    obtain ⟨_, _, _, _, _, hn⟩ := (C17_integer_bytes i r n).2.1.mp h1
    obtain ⟨_, _, _, _, _, hm⟩ := (C17_integer_bytes j s m).2.1.mp h2
    refine ⟨fun h => by rw [h], fun h => ?_⟩
    rw [(C95_bigint n).1, (C95_bigint m).1] at h
    rw [minimal_unique hn hm h]

/-- **C95** `as_bigint` and `as_biguint` agree with the conversions from and to the machine
integers of every width `N`: what is put in comes out; whatever `as_uN` or `as_iN` gives is the
same number; `as_uN` succeeds exactly when `as_biguint` is a number below `256^N`; and so does
`as_iN` with the range of the type, for contents that DER accepts. -/
theorem C95_machine (N : Nat) (hN : 1 ≤ N) :
    (∀ v : Nat, v < 256 ^ N → ∃ n, Integer.fromUint N v = some n ∧ n.asBigint = v ∧
      n.asBiguint = .ok v) ∧
    (∀ v : Int, InInt N v → ∃ n, Integer.fromInt N v = some n ∧ n.asBigint = v) ∧
    (∀ n : Integer, ∀ v : Nat, n.asMachine (uintBer N) = .ok v ↔
      n.asBiguint = .ok v ∧ v < 256 ^ N) ∧
    (∀ n : Integer, ∀ v : Int, n.asMachine (intBer N) = .ok v → n.asBigint = v ∧ InInt N v) ∧
    (∀ n : Integer, MinimalInt n.data → ∀ v : Int, n.asMachine (intBer N) = .ok v ↔
      n.asBigint = v ∧ InInt N v) := by
  refine ⟨fun v hv => ?_, fun v hv => ?_, fun ⟨d⟩ v => ?_, fun ⟨d⟩ v h => ?_, fun ⟨d⟩ hm v => ?_⟩
  · obtain ⟨d, h1, h2, h3, _⟩ := fromUint_spec hN hv
    exact ⟨_, h1, by rw [(C95_bigint d).1, h3], ((C95_bigint d).2.1 v).mpr h3⟩
  · obtain ⟨d, h1, h2, h3, _⟩ := fromInt_spec hN hv
    exact ⟨_, h1, by rw [(C95_bigint d).1, h3]⟩
  · rw [(integer_as hN d).1 v, (C95_bigint d).2.1 v]
    unfold InUint
    constructor
    · rintro ⟨⟨_, h2⟩, h3⟩
      exact ⟨h3.symm, Int.ofNat_lt.mp (h3 ▸ h2)⟩
    · rintro ⟨h1, h2⟩
      exact ⟨⟨by omega, by rw [h1]; exact Int.ofNat_lt.mpr h2⟩, h1.symm⟩
  · obtain ⟨h1, h2, _⟩ := ((integer_as hN d).2 v).mp h
    exact ⟨by rw [(C95_bigint d).1, h2], h1⟩
  · rw [(integer_as hN d).2 v, (C95_bigint d).1]
    exact ⟨fun h => ⟨h.2.1.symm, h.1⟩, fun ⟨h1, h2⟩ => ⟨h2, h1.symm, fun hb =>
      minimal_len hN hm hb (by rw [h1]; exact h2)⟩⟩

example : (Integer.mk [0x80]).asMachine (intBer 1) = .ok (-128) ∧ MinimalInt [0x80] ∧
    (Integer.mk [0x80]).asBigint = -128 := by
  refine ⟨by decide +kernel, trivial, by decide +kernel⟩

/-- **C95** Where the conversions part: an `Integer` read from BER need not equal the `Integer`
built from the same number, since equality compares the bytes; and `as_iN` refuses a negative
number that is written longer than it need be, although it is in the range of the type and
`as_bigint` gives it. -/
theorem C95_padded :
    (∃ i r n m, integerBer.parseBer i = .ok (r, n) ∧ Integer.fromUint 1 1 = some m ∧
      n.asBigint = m.asBigint ∧ n ≠ m) ∧
    (∃ i r n, integerBer.parseBer i = .ok (r, n) ∧ InInt 1 n.asBigint ∧
      ∀ v, n.asMachine (intBer 1) ≠ .ok v) := by
  refine ⟨⟨Input.fromSlice [2, 2, 0, 1], ⟨[], 4, 4⟩, ⟨[0, 1]⟩, ⟨[1]⟩, by decide +kernel,
    by decide +kernel, by decide +kernel, by decide +kernel⟩,
    Input.fromSlice [2, 2, 0xff, 0x80], ⟨[], 4, 4⟩, ⟨[0xff, 0x80]⟩, by decide +kernel, ?_, ?_⟩
  · unfold InInt; decide +kernel
  · intro v h
    have := (((integer_as (N := 1) (by decide) [0xff, 0x80]).2 v).mp h).2.2 (by decide)
    simp at this

/-- **C95** `from_const_array` reads its bytes as an unsigned number and gives the shortest
content of it, for every array but the empty one, for which it panics. -/
theorem C95_from_const_array (b : Bytes) :
    (Integer.fromConstArray b = none ↔ b = []) ∧
    (∀ n, Integer.fromConstArray b = some n → n.asBigint = beNat b ∧ MinimalInt n.data) := by
  cases hb : isHighestBitSet b with
  | true =>
    obtain ⟨c, rest, e, hc⟩ := (highest_eq _).mp hb
    have hf : Integer.fromConstArray b = some ⟨0 :: b⟩ := by
      unfold Integer.fromConstArray; rw [if_pos hb]
    rw [hf]
    refine ⟨by simp [e], fun n h => ?_⟩
    rw [← Option.some.inj h, (C95_bigint _).1]
    refine ⟨by simp [twos, beNat_cons], ?_⟩
    subst e
    refine ⟨by omega, ?_⟩
    rintro ⟨h, _⟩; simp at h
  | false =>
    by_cases hne : b = []
    · subst hne
      exact ⟨by decide, fun n h => by cases h⟩
    have hf : Integer.fromConstArray b = some ⟨dropZeros b⟩ := by
      unfold Integer.fromConstArray; rw [if_neg (by simp [hb]), if_neg hne]
    obtain ⟨h1, h2, h3, _⟩ := dropZeros_spec _ hne hb
    rw [hf]
    refine ⟨by simp [hne], fun n h => ?_⟩
    rw [← Option.some.inj h, (C95_bigint _).1]
    exact ⟨by rw [twos_low h3, h2], h1⟩

example : Integer.fromConstArray [0, 0, 0x80, 1] = some ⟨[0, 0x80, 1]⟩ ∧
    (Integer.mk [0, 0x80, 1]).asBigint = 32769 ∧ Integer.fromConstArray [] = none := by
  decide +kernel

end Asn1

import Verif.Props.BitString
/-!
# C91: the bits of a BIT STRING
-/
namespace Asn1
open Spec

/-- **C91** `BitString::new(unused, bytes)` panics exactly if `unused` is more than 7 or not less than
the number of bits; otherwise the bits are those of the bytes, the most significant bit of each byte
first, without the last `unused` ones. -/
theorem C91_new (unused : UInt8) (s : Bytes) :
    (BitString.new unused s = .error .panic ↔ 7 < unused.toNat ∨ 8 * s.length ≤ unused.toNat) ∧
    ∀ v, BitString.new unused s = .ok v → v.bits = (bitsOf s).take (8 * s.length - unused.toNat) ∧
      v.bits.length = 8 * s.length - unused.toNat ∧ v.nbits = v.bits.length ∧ v.raw = s ∧ v.WF := by
  unfold BitString.new
  by_cases h : unused.toNat < 8 ∧ unused.toNat < 8 * s.length
  · rw [if_pos h]
    refine ⟨⟨(fun h => by cases h), (fun h => by omega)⟩, fun v hv => ?_⟩
    injection hv with hv
    subst hv
    have hb := bits_eq ⟨s, 8 * s.length - unused.toNat⟩
    have hl : (BitString.bits ⟨s, 8 * s.length - unused.toNat⟩).length =
        8 * s.length - unused.toNat := by
      rw [hb, List.length_take, bitsOf_length]
      simp only; omega
    exact ⟨hb, hl, hl.symm, rfl, by show s.length = _; simp only; omega⟩
  · rw [if_neg h]
    exact ⟨⟨fun _ => by omega, fun _ => rfl⟩, fun v hv => by cases hv⟩

theorem bitsOf_get (s : Bytes) (k : Nat) :
    (bitsOf s)[k]? = s[k / 8]?.map fun b => b.toNat.testBit (7 - k % 8) := by
  induction s generalizing k with
  | nil => simp [bitsOf]
  | cons b s ih =>
    rw [bitsOf_cons]
    by_cases h : k < 8
    · have hl : (byteBits b).length = 8 := rfl
      rw [List.getElem?_append_left (by omega), byteBits_eq]
      have e1 : k / 8 = 0 := by omega
      have e2 : k % 8 = k := by omega
      rw [e1, e2]
      simp [h]
    · have hl : (byteBits b).length = 8 := rfl
      rw [List.getElem?_append_right (by omega), hl, ih]
      have e1 : k / 8 = (k - 8) / 8 + 1 := by omega
      have e2 : (k - 8) % 8 = k % 8 := by omega
      rw [e1, e2]
      rfl

/-- **C91** `is_set(k)` of a bit string made of bytes is the bit of weight `2^(7 - k mod 8)` of byte
`k / 8`, and false for the unused bits and beyond. -/
theorem C91_is_set_bytes (unused : UInt8) (s : Bytes) (v : BitString) (k : Nat)
    (h : BitString.new unused s = .ok v) :
    v.isSet k = true ↔ k < 8 * s.length - unused.toNat ∧
      ∃ b, s[k / 8]? = some b ∧ b.toNat.testBit (7 - k % 8) = true := by
  obtain ⟨hb, -⟩ := (C91_new unused s).2 v h
  unfold BitString.isSet
  rw [hb, List.getElem?_take]
  by_cases hk : k < 8 * s.length - unused.toNat
  · rw [if_pos hk, bitsOf_get]
    cases s[k / 8]? with
    | none => simp
    | some b => simp [hk]
  · rw [if_neg hk]; simp [hk]

/-- A case. -/
example : ∃ v, BitString.new 4 [0x0a, 0x50] = .ok v ∧ v.isSet 4 = true ∧ v.isSet 13 = false := by
  refine ⟨_, rfl, ?_⟩; decide

/-- **C91** `is_set(k)` of a bit string made of bits is bit `k`, and false beyond. -/
theorem C91_is_set_bits (l : List Bool) (k : Nat) :
    (BitString.ofBits l).isSet k = true ↔ l[k]? = some true := by
  unfold BitString.isSet
  rw [bits_ofBits]
  cases l[k]? with
  | none => simp
  | some b => simp

/-- **C91** Two bit strings are equal exactly if `is_set` is the same everywhere and they have the same
length. -/
theorem C91_equal (a b : BitString) :
    a.eqv b = true ↔ a.bits.length = b.bits.length ∧ ∀ k, a.isSet k = b.isSet k := by
  unfold BitString.eqv BitString.isSet
  rw [beq_iff_eq]
  constructor
  · intro h; rw [h]; exact ⟨rfl, fun _ => rfl⟩
  · rintro ⟨hl, h⟩
    apply List.ext_getElem hl
    intro k h1 h2
    have := h k
    rw [List.getElem?_eq_getElem h1, List.getElem?_eq_getElem h2] at this
    exact this

theorem byteBits_inj {a b : UInt8} (h : byteBits a = byteBits b) : a = b := by
  have key : ∀ n, n < 256 → packByte (byteBits (UInt8.ofNat n)) = UInt8.ofNat n := by decide +kernel
  have k : ∀ c : UInt8, packByte (byteBits c) = c := fun c => by
    have := key c.toNat c.toNat_lt
    rwa [UInt8.ofNat_toNat] at this
  rw [← k a, ← k b, h]

theorem bitsOf_inj : ∀ (s t : Bytes), bitsOf s = bitsOf t → s = t
  | [], [], _ => rfl
  | [], b :: t, h => by
    have := congrArg List.length h
    rw [bitsOf_length, bitsOf_length] at this
    simp at this
  | a :: s, [], h => by
    have := congrArg List.length h
    rw [bitsOf_length, bitsOf_length] at this
    simp at this
  | a :: s, b :: t, h => by
    rw [bitsOf_cons, bitsOf_cons] at h
    obtain ⟨h1, h2⟩ := List.append_inj h rfl
    rw [byteBits_inj h1, bitsOf_inj s t h2]

/-- **C91** Equal bit strings, each made of bits or read by `from_der`, have the same encoding. -/
theorem C91_equal_encodings (a b : BitString)
    (ha : (∃ l, a = .ofBits l) ∨ ∃ bs rem, fromDer bitBer bitCheck bs = .ok (rem, a))
    (hb : (∃ l, b = .ofBits l) ∨ ∃ bs rem, fromDer bitBer bitCheck bs = .ok (rem, b))
    (h : a.eqv b = true) : a = b ∧ bitToBer.toVec a = bitToBer.toVec b := by
  have key : ∀ v : BitString, ((∃ l, v = .ofBits l) ∨
      ∃ bs rem, fromDer bitBer bitCheck bs = .ok (rem, v)) → v = .ofBits v.bits := by
    rintro v (⟨l, rfl⟩ | ⟨bs, rem, hv⟩)
    · rw [bits_ofBits]
    · obtain ⟨r, a, hp, -, hany, u', bytes, e1, e2⟩ := ((C24_bitstring_decoding (Input.fromSlice bs) (Input.fromSlice bs) v).2.1 bs rem).mp hv
      obtain ⟨a', ha', -, -, -, ⟨u, e3⟩, hwf⟩ := (C24_bitstring_decoding _ _ _).1.mp hp
      rw [hany] at ha'
      injection ha' with ha'; injection ha' with _ ha'
      subst ha'
      rw [e1] at e3
      injection e3 with _ e3
      subst e3
      have hlen : v.bits.length = v.nbits := by
        rw [bits_eq, List.length_take, bitsOf_length]
        have := (unused_toNat v hwf).2.2
        omega
      have hraw : v.raw = packN ((v.bits.length + 7) / 8) v.bits := by
        apply bitsOf_inj
        rw [bitsOf_packN _ _ (by omega), e2]
        congr 2
        have := congrArg List.length e2
        rw [bitsOf_length, List.length_append, List.length_replicate] at this
        rw [hlen] at this ⊢
        unfold BitString.WF at hwf
        omega
      show v = ⟨_, v.bits.length⟩
      rw [← hraw, hlen]
  have e : a = b := by
    rw [key a ha, key b hb, beq_iff_eq.mp h]
  exact ⟨e, e ▸ rfl⟩

/-- A case. -/
example : fromDer bitBer bitCheck [0x03, 0x02, 0x04, 0x50] = .ok ([], .ofBits [false, true, false, true]) ∧
    BitString.eqv (.ofBits [false, true, false, true]) (.ofBits [false, true, false, true]) = true := by
  decide +kernel

/-- **C91** Deviation: bit strings made of bytes whose unused bits differ are equal, but their
encodings differ. -/
theorem C91_equal_deviation :
    ∃ a b, BitString.new 4 [0xff] = .ok a ∧ BitString.new 4 [0xf0] = .ok b ∧ a.eqv b = true ∧
      bitToBer.toVec a = .ok [0x03, 0x02, 0x04, 0xff] ∧
      bitToBer.toVec b = .ok [0x03, 0x02, 0x04, 0xf0] :=
  ⟨⟨[0xff], 4⟩, ⟨[0xf0], 4⟩, by decide +kernel, by decide +kernel, by decide +kernel,
    by decide +kernel, by decide +kernel⟩

end Asn1

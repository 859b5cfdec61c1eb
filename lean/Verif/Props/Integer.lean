import Verif.Proofs.Integer
import Verif.Proofs.Codec
/-!
# INTEGER (C12 to C17)

`N` is the number of bytes of the machine type: 1, 2, 4, 8 or 16 in the code; the theorems hold
for every `N` from 1 to 16.
-/
namespace Asn1
open Spec Wr

/-! ### Encoders -/

theorem writeBytes_some (bs : Bytes) : Writes (writeBytes (some bs)) bs bs.length := by
  have := (writes_writeAll bs).bind (f := fun _ => (pure bs.length : Wr Nat)) (writes_pure _)
  simpa [writeBytes] using this

theorem uint_encodes {N : Nat} (hN : 1 ≤ N) {v : Nat} (hv : v < 256 ^ N) :
    ∃ cs, Encodes (uintToBer N) v cs ∧ MinimalInt cs ∧ twos cs = v ∧ cs.length ≤ N + 1 := by
  obtain ⟨d, h1, h2, h3, h4⟩ := fromUint_spec hN hv
  refine ⟨d, ⟨?_, ?_, (by decide : (2 : Nat) < 2 ^ 32), rfl⟩, h2, h3, h4⟩
  · show Writes (writeBytes ((Integer.fromUint N v).map (·.data))) _ _
    rw [h1]; exact writeBytes_some d
  · show lenBytes ((Integer.fromUint N v).map (·.data)) = _
    rw [h1]; rfl

theorem int_encodes {N : Nat} (hN : 1 ≤ N) {v : Int} (hv : InInt N v) :
    ∃ cs, Encodes (intToBer N) v cs ∧ MinimalInt cs ∧ twos cs = v ∧ cs.length ≤ N := by
  obtain ⟨d, h1, h2, h3, h4⟩ := fromInt_spec hN hv
  refine ⟨d, ⟨?_, ?_, (by decide : (2 : Nat) < 2 ^ 32), rfl⟩, h2, h3, h4⟩
  · show Writes (writeBytes ((Integer.fromInt N v).map (·.data))) _ _
    rw [h1]; exact writeBytes_some d
  · show lenBytes ((Integer.fromInt N v).map (·.data)) = _
    rw [h1]; rfl

theorem integer_encodes (d : Bytes) : Encodes integerToBer ⟨d⟩ d :=
  ⟨writeBytes_some d, rfl, (by decide : (2 : Nat) < 2 ^ 32), rfl⟩

/-- Encoding of a short universal object. -/
theorem full_short (p : Bool) {tag : Nat} {cs : Bytes} (ht : tag < 31) (hs : cs.length < 128) :
    full .universal p tag cs
      = UInt8.ofNat (tag + if p then 32 else 0) :: UInt8.ofNat cs.length :: cs := by
  have h1 : identOctets .universal p tag = [UInt8.ofNat (tag + if p then 32 else 0)] := by
    have : ∀ t : Fin 31, ∀ p : Bool, identOctets .universal p t.val
        = [UInt8.ofNat (t.val + if p then 32 else 0)] := by decide +kernel
    exact this ⟨tag, ht⟩ p
  have h2 : lenOctets (.definite cs.length) = [UInt8.ofNat cs.length] := by
    have : ∀ t : Fin 128, lenOctets (.definite t.val) = [UInt8.ofNat t.val] := by decide +kernel
    exact this ⟨cs.length, hs⟩
  rw [full, h1, h2]; rfl

/-! ### Decoders -/

theorem uintDer_content {N : Nat} (hN : 1 ≤ N) {h : Header} {i r : Input} {v : Nat} :
    (uintDer N).content h i = .ok (r, v) ↔ MinimalInt i.data ∧ h.constructed = false ∧
      InUint N (twos i.data) ∧ (v : Int) = twos i.data ∧ r = after i i.data.length := by
  show (checkDerIntInput i >>= fun _ => uintContent N h i) = _ ↔ _
  rw [bind_eq_ok]
  constructor
  · rintro ⟨u, h1, h2⟩
    exact ⟨checkDerIntInput_ok.mp h1, (uintContent_ok hN).mp h2⟩
  · rintro ⟨h1, h2⟩
    exact ⟨(), checkDerIntInput_ok.mpr h1, (uintContent_ok hN).mpr h2⟩

theorem intDer_content {N : Nat} (hN : 1 ≤ N) {h : Header} {i r : Input} {v : Int} :
    (intDer N).content h i = .ok (r, v) ↔ MinimalInt i.data ∧ h.constructed = false ∧
      InInt N v ∧ v = twos i.data ∧ r = after i i.data.length := by
  show (checkDerIntInput i >>= fun _ => intContent N h i) = _ ↔ _
  rw [bind_eq_ok]
  constructor
  · rintro ⟨u, h1, h2⟩
    have := (intContent_ok hN).mp h2
    exact ⟨checkDerIntInput_ok.mp h1, this.1, this.2.1, this.2.2.1, this.2.2.2.1⟩
  · rintro ⟨h1, h2, h3, h4, h5⟩
    exact ⟨(), checkDerIntInput_ok.mpr h1, (intContent_ok hN).mpr
      ⟨h2, h3, h4, h5, fun hb => minimal_len hN h1 hb (h4 ▸ h3)⟩⟩

theorem uint_decodes {N : Nat} (hN : 1 ≤ N) {cs : Bytes} {v : Nat} (hv : v < 256 ^ N)
    (hc : twos cs = v) : Decodes (uintBer N) false cs v := by
  intro h d h1 _ h3
  exact ⟨_, (uintContent_ok hN).mpr ⟨h1, by rw [h3, hc]; exact ⟨by omega, by exact_mod_cast hv⟩,
    by rw [h3, hc], rfl⟩⟩

theorem uint_decodesDer {N : Nat} (hN : 1 ≤ N) {cs : Bytes} {v : Nat} (hv : v < 256 ^ N)
    (hm : MinimalInt cs) (hc : twos cs = v) : Decodes (uintDer N) false cs v := by
  intro h d h1 _ h3
  exact ⟨_, (uintDer_content hN).mpr ⟨h3 ▸ hm, h1,
    by rw [h3, hc]; exact ⟨by omega, by exact_mod_cast hv⟩, by rw [h3, hc], rfl⟩⟩

theorem int_decodes {N : Nat} (hN : 1 ≤ N) {cs : Bytes} {v : Int} (hv : InInt N v)
    (hm : MinimalInt cs) (hc : twos cs = v) : Decodes (intBer N) false cs v := by
  intro h d h1 _ h3
  exact ⟨_, (intContent_ok hN).mpr ⟨h1, hv, by rw [h3, hc], rfl,
    fun hb => minimal_len hN (h3 ▸ hm) hb (by rw [h3, hc]; exact hv)⟩⟩

theorem int_decodesDer {N : Nat} (hN : 1 ≤ N) {cs : Bytes} {v : Int} (hv : InInt N v)
    (hm : MinimalInt cs) (hc : twos cs = v) : Decodes (intDer N) false cs v := by
  intro h d h1 _ h3
  exact ⟨_, (intDer_content hN).mpr ⟨h3 ▸ hm, h1, hv, by rw [h3, hc], rfl⟩⟩

theorem checkDerInt_ok {a : Any} : checkDerInt a = .ok () ↔
    a.header.constructed = false ∧ a.header.length.isDefinite = true ∧ MinimalInt a.data.data := by
  rw [← checkDerIntBytes_ok]
  unfold checkDerInt assertPrimitiveS assertDefiniteS
  cases a.header.constructed <;> cases a.header.length.isDefinite <;>
    cases checkDerIntBytes a.data.data <;> simp [Bind.bind, Except.bind]

theorem checkDerInt_of {a : Any} {cs : Bytes} (hm : MinimalInt cs)
    (h1 : a.header.constructed = false) (h2 : a.header.length = .definite cs.length)
    (h3 : a.data.data = cs) : checkDerInt a = .ok () :=
  checkDerInt_ok.mpr ⟨h1, by rw [h2]; rfl, h3 ▸ hm⟩

/-! ### Properties -/

/-- **C12** Unsigned integers: the DER (= BER) encoding followed by anything decodes to the same
number and leaves what follows, through `from_der`, `from_ber`, `parse_der` and `parse_ber`. -/
theorem C12_uint_roundtrip (N : Nat) (hN : 1 ≤ N ∧ N ≤ 16) (v : Nat) (hv : v < 256 ^ N) :
    ∃ bs, (uintToBer N).toVec v = .ok bs ∧ ∀ rest : Bytes,
      fromDer (uintBer N) checkDerInt (bs ++ rest) = .ok (rest, v) ∧
      fromBer (uintBer N) (bs ++ rest) = .ok (rest, v) ∧
      ∀ i : Input, i.data = bs ++ rest →
        (uintDer N).parseDer i = .ok (after i bs.length, v) ∧
        (uintBer N).parseBer i = .ok (after i bs.length, v) := by
  obtain ⟨cs, he, hm, hc, hl⟩ := uint_encodes hN.1 hv
  have hs : cs.length < 2 ^ 64 := by omega
  refine ⟨_, he.toVec hs, fun rest => ⟨?_, ?_, fun i hi => ⟨?_, ?_⟩⟩⟩
  · exact fromDer_roundtrip he hs rfl (uint_decodes hN.1 hv hc)
      (fun a h1 h2 h3 => checkDerInt_of hm h1 h2 h3) rest
  · exact fromBer_roundtrip he hs rfl (uint_decodes hN.1 hv hc) rest
  · exact parseDer_roundtrip he hs rfl (uint_decodesDer hN.1 hv hm hc) i rest hi
  · exact parseBer_roundtrip he hs rfl (uint_decodes hN.1 hv hc) i rest hi

example : (uintToBer 4).toVec 0xfffffffe = .ok [2, 5, 0, 0xff, 0xff, 0xff, 0xfe] := by
  decide +kernel

/-- **C13** Signed integers: same as C12. -/
theorem C13_int_roundtrip (N : Nat) (hN : 1 ≤ N ∧ N ≤ 16) (v : Int) (hv : InInt N v) :
    ∃ bs, (intToBer N).toVec v = .ok bs ∧ ∀ rest : Bytes,
      fromDer (intBer N) checkDerInt (bs ++ rest) = .ok (rest, v) ∧
      fromBer (intBer N) (bs ++ rest) = .ok (rest, v) ∧
      ∀ i : Input, i.data = bs ++ rest →
        (intDer N).parseDer i = .ok (after i bs.length, v) ∧
        (intBer N).parseBer i = .ok (after i bs.length, v) := by
  obtain ⟨cs, he, hm, hc, hl⟩ := int_encodes hN.1 hv
  have hs : cs.length < 2 ^ 64 := by omega
  refine ⟨_, he.toVec hs, fun rest => ⟨?_, ?_, fun i hi => ⟨?_, ?_⟩⟩⟩
  · exact fromDer_roundtrip he hs rfl (int_decodes hN.1 hv hm hc)
      (fun a h1 h2 h3 => checkDerInt_of hm h1 h2 h3) rest
  · exact fromBer_roundtrip he hs rfl (int_decodes hN.1 hv hm hc) rest
  · exact parseDer_roundtrip he hs rfl (int_decodesDer hN.1 hv hm hc) i rest hi
  · exact parseBer_roundtrip he hs rfl (int_decodes hN.1 hv hm hc) i rest hi

example : InInt 2 (-129) ∧ (intToBer 2).toVec (-129) = .ok [2, 2, 0xff, 0x7f] := by
  unfold InInt; decide +kernel

/-- **C14** The bytes written for an integer are `02`, the length, and a minimal
two's-complement big-endian content denoting it. -/
theorem C14_int_encoding_minimal (N : Nat) (hN : 1 ≤ N ∧ N ≤ 16) :
    (∀ v : Nat, v < 256 ^ N → ∃ cs, MinimalInt cs ∧ twos cs = v ∧
      (uintToBer N).toVec v = .ok (0x02 :: UInt8.ofNat cs.length :: cs)) ∧
    (∀ v : Int, InInt N v → ∃ cs, MinimalInt cs ∧ twos cs = v ∧
      (intToBer N).toVec v = .ok (0x02 :: UInt8.ofNat cs.length :: cs)) := by
  constructor
  · intro v hv
    obtain ⟨cs, he, hm, hc, hl⟩ := uint_encodes hN.1 hv
    refine ⟨cs, hm, hc, ?_⟩
    rw [he.toVec (by omega)]
    exact congrArg _ (full_short false (by decide : (2 : Nat) < 31) (by omega))
  · intro v hv
    obtain ⟨cs, he, hm, hc, hl⟩ := int_encodes hN.1 hv
    refine ⟨cs, hm, hc, ?_⟩
    rw [he.toVec (by omega)]
    exact congrArg _ (full_short false (by decide : (2 : Nat) < 31) (by omega))

/-- A case: 128 needs a leading zero, -128 does not. -/
example : (uintToBer 1).toVec 128 = .ok [2, 2, 0, 128] ∧ (intToBer 1).toVec (-128) = .ok [2, 1, 128] := by
  decide +kernel

/-- **C15** Decoding to a machine type returns exactly the two's-complement value of the content,
and fails if (and for unsigned types, and DER contents, only if) it does not fit.
`parseBerAny`/`parseDerAny` are the generic object parsers. -/
theorem C15_int_decoding (N : Nat) (hN : 1 ≤ N) (i r : Input) :
    (∀ v : Nat, (uintBer N).parseBer i = .ok (r, v) ↔ ∃ a, parseBerAny i = .ok (r, a) ∧
      a.header.tag = 2 ∧ a.header.constructed = false ∧ InUint N (twos a.data.data) ∧
      (v : Int) = twos a.data.data) ∧
    (∀ v : Nat, (uintDer N).parseDer i = .ok (r, v) ↔ ∃ a, parseDerAny i = .ok (r, a) ∧
      a.header.tag = 2 ∧ a.header.constructed = false ∧ MinimalInt a.data.data ∧
      InUint N (twos a.data.data) ∧ (v : Int) = twos a.data.data) ∧
    (∀ v : Int, (intBer N).parseBer i = .ok (r, v) ↔ ∃ a, parseBerAny i = .ok (r, a) ∧
      a.header.tag = 2 ∧ a.header.constructed = false ∧ InInt N v ∧ v = twos a.data.data ∧
      (v < 0 → a.data.data.length ≤ N)) ∧
    (∀ v : Int, (intDer N).parseDer i = .ok (r, v) ↔ ∃ a, parseDerAny i = .ok (r, a) ∧
      a.header.tag = 2 ∧ a.header.constructed = false ∧ MinimalInt a.data.data ∧ InInt N v ∧
      v = twos a.data.data) := by
  refine ⟨fun v => ?_, fun v => ?_, fun v => ?_, fun v => ?_⟩
  · rw [parseBer_ok]
    constructor
    · rintro ⟨a, x, h1, h2, h3⟩
      obtain ⟨h4, h5, h6, _⟩ := (uintContent_ok hN).mp h3
      exact ⟨a, h1, by simpa [uintBer, tagIs, tagInteger] using h2, h4, h5, h6⟩
    · rintro ⟨a, h1, h2, h3, h4, h5⟩
      exact ⟨a, _, h1, by simpa [uintBer, tagIs, tagInteger] using h2,
        (uintContent_ok hN).mpr ⟨h3, h4, h5, rfl⟩⟩
  · rw [parseDer_ok]
    constructor
    · rintro ⟨a, x, h1, h2, h3⟩
      obtain ⟨hm, h4, h5, h6, _⟩ := (uintDer_content hN).mp h3
      exact ⟨a, h1, by simpa [uintDer, tagIs, tagInteger] using h2, h4, hm, h5, h6⟩
    · rintro ⟨a, h1, h2, h3, hm, h4, h5⟩
      exact ⟨a, _, h1, by simpa [uintDer, tagIs, tagInteger] using h2,
        (uintDer_content hN).mpr ⟨hm, h3, h4, h5, rfl⟩⟩
  · have hneg : ∀ bs : Bytes, twos bs < 0 ↔ isHighestBitSet bs = true := by
      intro bs
      cases h : isHighestBitSet bs with
      | true => have := beNat_lt bs; rw [twos_high h]; simp only [iff_true]; omega
      | false => rw [twos_low h]; simp
    rw [parseBer_ok]
    constructor
    · rintro ⟨a, x, h1, h2, h3⟩
      obtain ⟨h4, h5, h6, _, h7⟩ := (intContent_ok hN).mp h3
      exact ⟨a, h1, by simpa [intBer, tagIs, tagInteger] using h2, h4, h5, h6,
        fun h => h7 ((hneg _).mp (h6 ▸ h))⟩
    · rintro ⟨a, h1, h2, h3, h4, h5, h6⟩
      exact ⟨a, _, h1, by simpa [intBer, tagIs, tagInteger] using h2,
        (intContent_ok hN).mpr ⟨h3, h4, h5, rfl, fun h => h6 (h5 ▸ (hneg _).mpr h)⟩⟩
  · rw [parseDer_ok]
    constructor
    · rintro ⟨a, x, h1, h2, h3⟩
      obtain ⟨hm, h4, h5, h6, _⟩ := (intDer_content hN).mp h3
      exact ⟨a, h1, by simpa [intDer, tagIs, tagInteger] using h2, h4, hm, h5, h6⟩
    · rintro ⟨a, h1, h2, h3, hm, h4, h5⟩
      exact ⟨a, _, h1, by simpa [intDer, tagIs, tagInteger] using h2,
        (intDer_content hN).mpr ⟨hm, h3, h4, h5, rfl⟩⟩

/-- A case: a padded INTEGER is read by BER and refused by DER. -/
example : (uintBer 1).parseBer (Input.fromSlice [2, 3, 0, 0, 200]) = .ok (⟨[], 5, 5⟩, 200) ∧
    ((uintDer 1).parseDer (Input.fromSlice [2, 3, 0, 0, 200])).isOk = false ∧
    (intDer 1).parseDer (Input.fromSlice [2, 1, 200]) = .ok (⟨[], 3, 3⟩, -56) := by
  decide +kernel

/-- Values, range errors, and the corner of BER that the code refuses or accepts against X.690:
sign-extended negatives and the empty content. -/
theorem C15_int_decoding_examples :
    (intBer 1).parseBer (Input.fromSlice [2, 2, 0x00, 0x7f]) =
      .ok (⟨[], 4, 4⟩, 127) ∧
    (intBer 1).parseBer (Input.fromSlice [2, 2, 0x00, 0x80]) =
      .error (.error ⟨[0x00, 0x80], 2, 4⟩ .integerTooLarge) ∧
    (intBer 1).parseBer (Input.fromSlice [2, 2, 0xff, 0x80]) =
      .error (.error ⟨[0xff, 0x80], 2, 4⟩ .integerTooLarge) ∧ twos [0xff, 0x80] = -128 ∧
    (uintBer 1).parseBer (Input.fromSlice [2, 0]) = .ok (⟨[], 2, 2⟩, 0) ∧
    (uintBer 1).parseBer (Input.fromSlice [2, 1, 0xff]) =
      .error (.error ⟨[0xff], 2, 3⟩ .integerNegative) := by decide +kernel

/-- **C16** DER integers are canonical: accepted contents denoting the same number are the same
bytes, and encoding the decoded number writes that content again. -/
theorem C16_der_canonical (N : Nat) (hN : 1 ≤ N ∧ N ≤ 16) (i i' r r' : Input) (a a' : Any)
    (ha : parseDerAny i = .ok (r, a)) (ha' : parseDerAny i' = .ok (r', a')) :
    (∀ v : Nat, (uintDer N).parseDer i = .ok (r, v) →
      ((uintDer N).parseDer i' = .ok (r', v) → a.data.data = a'.data.data) ∧
      (uintToBer N).toVec v = .ok (0x02 :: UInt8.ofNat a.data.data.length :: a.data.data)) ∧
    (∀ v : Int, (intDer N).parseDer i = .ok (r, v) →
      ((intDer N).parseDer i' = .ok (r', v) → a.data.data = a'.data.data) ∧
      (intToBer N).toVec v = .ok (0x02 :: UInt8.ofNat a.data.data.length :: a.data.data)) := by
  constructor
  · intro v h
    obtain ⟨b, hb, _, _, hm, hr, hv⟩ := ((C15_int_decoding N hN.1 i r).2.1 v).mp h
    rw [ha] at hb; simp at hb; subst hb
    refine ⟨fun h' => ?_, ?_⟩
    · obtain ⟨b', hb', _, _, hm', hr', hv'⟩ := ((C15_int_decoding N hN.1 i' r').2.1 v).mp h'
      rw [ha'] at hb'; simp at hb'; subst hb'
      exact minimal_unique hm hm' (by rw [← hv, ← hv'])
    · have hvlt : v < 256 ^ N := by
        have := hr.2; rw [← hv] at this; omega
      obtain ⟨cs, hcm, hc, he⟩ := (C14_int_encoding_minimal N hN).1 v hvlt
      have := minimal_unique hcm hm (by rw [hc, hv])
      rw [he, this]
  · intro v h
    obtain ⟨b, hb, _, _, hm, hr, hv⟩ := ((C15_int_decoding N hN.1 i r).2.2.2 v).mp h
    rw [ha] at hb; simp at hb; subst hb
    refine ⟨fun h' => ?_, ?_⟩
    · obtain ⟨b', hb', _, _, hm', hr', hv'⟩ := ((C15_int_decoding N hN.1 i' r').2.2.2 v).mp h'
      rw [ha'] at hb'; simp at hb'; subst hb'
      exact minimal_unique hm hm' (by rw [← hv, ← hv'])
    · obtain ⟨cs, hcm, hc, he⟩ := (C14_int_encoding_minimal N hN).2 v hr
      have := minimal_unique hcm hm (by rw [hc, hv])
      rw [he, this]

example : ∃ r a, parseDerAny (Input.fromSlice [2, 2, 0x00, 0xff, 9]) = .ok (r, a) ∧
    (uintDer 1).parseDer (Input.fromSlice [2, 2, 0x00, 0xff, 9]) = .ok (r, 255) :=
  ⟨⟨[9], 4, 5⟩, _, rfl, by decide +kernel⟩

theorem integerContent_ok {h : Header} {i r : Input} {d : Bytes}
    (hl : h.length = .definite i.data.length) :
    integerContent h i = .ok (r, ⟨d⟩) ↔
      h.constructed = false ∧ d = i.data ∧ d ≠ [] ∧ r = after i i.data.length := by
  unfold integerContent
  rw [derContent_all hl]
  constructor
  · intro hh
    obtain ⟨_, h1, hh⟩ := bind_eq_ok.mp hh
    simp only [bind_ok] at hh
    split at hh
    · simp [nomErr] at hh
    · rename_i hne
      simp at hh
      obtain ⟨e1, e2⟩ := hh
      refine ⟨assertPrimitive_ok.mp h1, e2.symm, ?_, e1.symm⟩
      rw [← e2]; simpa [Input.isEmpty, first] using hne
  · rintro ⟨h1, rfl, h3, h4⟩
    rw [assertPrimitive_ok (u := ()) |>.mpr h1]
    simp only [bind_ok]
    rw [if_neg (by simpa [Input.isEmpty, first] using h3), first_all, h4]; rfl

/-- Conversions of `Integer` (`as_u8` ... `as_i128`): the two's-complement value, or an error if
it does not fit. For negative values the content may not be longer than the type. -/
theorem integer_as {N : Nat} (hN : 1 ≤ N) (d : Bytes) :
    (∀ v : Nat, Integer.asMachine (uintBer N) ⟨d⟩ = .ok v ↔ InUint N (twos d) ∧ (v : Int) = twos d) ∧
    (∀ v : Int, Integer.asMachine (intBer N) ⟨d⟩ = .ok v ↔ InInt N v ∧ v = twos d ∧
      (isHighestBitSet d = true → d.length ≤ N)) := by
  constructor
  · intro v
    unfold Integer.asMachine
    rw [tryFromAny_ok]
    constructor
    · rintro ⟨_, x, h⟩
      obtain ⟨_, h2, h3, _⟩ := (uintContent_ok hN).mp h
      exact ⟨h2, h3⟩
    · rintro ⟨h1, h2⟩
      exact ⟨rfl, _, (uintContent_ok hN).mpr ⟨rfl, h1, h2, rfl⟩⟩
  · intro v
    unfold Integer.asMachine
    rw [tryFromAny_ok]
    constructor
    · rintro ⟨_, x, h⟩
      obtain ⟨_, h2, h3, _, h4⟩ := (intContent_ok hN).mp h
      exact ⟨h2, h3, h4⟩
    · rintro ⟨h1, h2, h3⟩
      exact ⟨rfl, _, (intContent_ok hN).mpr ⟨rfl, h1, h2, rfl, h3⟩⟩

/-- **C17** `Integer`: parsing returns exactly the content bytes (BER: any non-empty content, DER:
minimal contents), encoding writes them back, conversions to machine integers return the value of
the bytes or fail, and converting a machine integer to `Integer` and back is the identity. -/
theorem C17_integer_bytes (i r : Input) (d : Bytes) :
    (integerBer.parseBer i = .ok (r, ⟨d⟩) ↔ ∃ a, parseBerAny i = .ok (r, a) ∧ a.header.tag = 2 ∧
      a.header.constructed = false ∧ d = a.data.data ∧ d ≠ []) ∧
    (integerDer.parseDer i = .ok (r, ⟨d⟩) ↔ ∃ a, parseDerAny i = .ok (r, a) ∧ a.header.tag = 2 ∧
      a.header.constructed = false ∧ d = a.data.data ∧ MinimalInt d) ∧
    (Wr.Writes (integerToBer.writeContent ⟨d⟩) d d.length) ∧
    (d.length < 128 → integerToBer.toVec ⟨d⟩ = .ok (0x02 :: UInt8.ofNat d.length :: d)) ∧
    (∀ N v, 1 ≤ N → Integer.asMachine (uintBer N) ⟨d⟩ = .ok v → (v : Int) = twos d) ∧
    (∀ N v, 1 ≤ N → Integer.asMachine (intBer N) ⟨d⟩ = .ok v → v = twos d) ∧
    (∀ N (v : Nat), 1 ≤ N → MinimalInt d → twos d = v → v < 256 ^ N →
      Integer.asMachine (uintBer N) ⟨d⟩ = .ok v) ∧
    (∀ N v, 1 ≤ N → MinimalInt d → twos d = v → InInt N v →
      Integer.asMachine (intBer N) ⟨d⟩ = .ok v) ∧
    (∀ N v, 1 ≤ N → v < 256 ^ N → ∃ n, Integer.fromUint N v = some n ∧
      Integer.asMachine (uintBer N) n = .ok v) ∧
    (∀ N v, 1 ≤ N → InInt N v → ∃ n, Integer.fromInt N v = some n ∧
      Integer.asMachine (intBer N) n = .ok v) := by
  refine ⟨?_, ?_, (integer_encodes d).content, ?_, ?_, ?_, ?_, ?_, ?_, ?_⟩
  · rw [parseBer_ok]
    constructor
    · rintro ⟨a, x, h1, h2, h3⟩
      have hprim : a.header.constructed = false := by
        obtain ⟨_, h4, _⟩ := bind_eq_ok.mp h3
        exact assertPrimitive_ok.mp h4
      obtain ⟨h4, h5, h6, _⟩ := (integerContent_ok (berAny_primitive h1 hprim)).mp h3
      exact ⟨a, h1, by simpa [integerBer, tagIs, tagInteger] using h2, h4, h5, h6⟩
    · rintro ⟨a, h1, h2, h3, h4, h5⟩
      exact ⟨a, _, h1, by simpa [integerBer, tagIs, tagInteger] using h2,
        (integerContent_ok (berAny_primitive h1 h3)).mpr ⟨h3, h4, h5, rfl⟩⟩
  · rw [parseDer_ok]
    constructor
    · rintro ⟨a, x, h1, h2, h3⟩
      obtain ⟨_, h7, h3⟩ := bind_eq_ok.mp h3
      obtain ⟨h4, h5, h6, _⟩ := (integerContent_ok (derAny_definite h1)).mp h3
      exact ⟨a, h1, by simpa [integerDer, tagIs, tagInteger] using h2, h4, h5,
        h5 ▸ checkDerIntInput_ok.mp h7⟩
    · rintro ⟨a, h1, h2, h3, h4, h5⟩
      exact ⟨a, _, h1, by simpa [integerDer, tagIs, tagInteger] using h2,
        bind_eq_ok.mpr ⟨(), checkDerIntInput_ok.mpr (h4 ▸ h5),
          (integerContent_ok (derAny_definite h1)).mpr
            ⟨h3, h4, by rintro rfl; exact h5, rfl⟩⟩⟩
  · intro hs
    rw [(integer_encodes d).toVec (by omega)]
    exact congrArg _ (full_short false (by decide : (2 : Nat) < 31) hs)
  · intro N v hN h
    exact (((integer_as hN d).1 v).mp h).2
  · intro N v hN h
    exact (((integer_as hN d).2 v).mp h).2.1
  · intro N v hN _ h hv
    exact ((integer_as hN d).1 v).mpr ⟨by rw [h]; exact ⟨by omega, by exact_mod_cast hv⟩, h.symm⟩
  · intro N v hN hm h hv
    exact ((integer_as hN d).2 v).mpr
      ⟨hv, h.symm, fun hb => minimal_len hN hm hb (by rw [h]; exact hv)⟩
  · intro N v hN hv
    obtain ⟨cs, h1, h2, h3, h4⟩ := fromUint_spec hN hv
    exact ⟨_, h1, ((integer_as hN cs).1 v).mpr
      ⟨by rw [h3]; exact ⟨by omega, by exact_mod_cast hv⟩, h3.symm⟩⟩
  · intro N v hN hv
    obtain ⟨cs, h1, h2, h3, h4⟩ := fromInt_spec hN hv
    exact ⟨_, h1, ((integer_as hN cs).2 v).mpr
      ⟨hv, h3.symm, fun hb => minimal_len hN h2 hb (by rw [h3]; exact hv)⟩⟩

example : integerDer.parseDer (Input.fromSlice [2, 3, 0x01, 0x02, 0x03]) =
    .ok (⟨[], 5, 5⟩, ⟨[1, 2, 3]⟩) ∧ MinimalInt [1, 2, 3] ∧ twos [1, 2, 3] = 66051 := by
  refine ⟨by decide +kernel, by simp [MinimalInt], by decide +kernel⟩

/-- **C11** (INTEGER) What the DER parsers of integers return, the BER parsers return too. -/
theorem C11_der_subset_ber_integer (N : Nat) (i r : Input) :
    (∀ v, (uintDer N).parseDer i = .ok (r, v) → (uintBer N).parseBer i = .ok (r, v)) ∧
    (∀ v, (intDer N).parseDer i = .ok (r, v) → (intBer N).parseBer i = .ok (r, v)) ∧
    (∀ v, integerDer.parseDer i = .ok (r, v) → integerBer.parseBer i = .ok (r, v)) := by
  refine ⟨fun v h => ?_, fun v h => ?_, fun v h => ?_⟩
  · obtain ⟨a, x, h1, h2, h3⟩ := parseDer_ok.mp h
    obtain ⟨_, _, h4⟩ := bind_eq_ok.mp h3
    exact parseBer_ok.mpr ⟨a, x, C11_der_subset_ber_any _ _ _ h1, h2, h4⟩
  · obtain ⟨a, x, h1, h2, h3⟩ := parseDer_ok.mp h
    obtain ⟨_, _, h4⟩ := bind_eq_ok.mp h3
    exact parseBer_ok.mpr ⟨a, x, C11_der_subset_ber_any _ _ _ h1, h2, h4⟩
  · obtain ⟨a, x, h1, h2, h3⟩ := parseDer_ok.mp h
    obtain ⟨_, _, h4⟩ := bind_eq_ok.mp h3
    exact parseBer_ok.mpr ⟨a, x, C11_der_subset_ber_any _ _ _ h1, h2, h4⟩

/-- **C38** (INTEGER) `from_der` and `parse_der` accept the same bytes and return the same value
(with the constraints checked by `from_der` and by `from_der_content`); likewise for BER. -/
theorem C38_integer_apis_agree (N : Nat) (hN : 1 ≤ N) (bytes rem : Bytes) :
    (∀ v, fromDer (uintBer N) checkDerInt bytes = .ok (rem, v) ↔
      ∃ r, (uintDer N).parseDer (Input.fromSlice bytes) = .ok (r, v) ∧ r.data = rem) ∧
    (∀ v, fromDer (intBer N) checkDerInt bytes = .ok (rem, v) ↔
      ∃ r, (intDer N).parseDer (Input.fromSlice bytes) = .ok (r, v) ∧ r.data = rem) ∧
    (∀ v, fromDer integerBer checkDerInt bytes = .ok (rem, v) ↔
      ∃ r, integerDer.parseDer (Input.fromSlice bytes) = .ok (r, v) ∧ r.data = rem) := by
  have key : ∀ {α : Type} (pb pd : Parser α) (hacc : pd.acceptTag = pb.acceptTag)
      (hprim : ∀ h i x v, pb.content h i = .ok (x, v) → h.constructed = false)
      (hc : ∀ h i, pd.content h i = (checkDerIntInput i >>= fun _ => pb.content h i)) (v : α),
      fromDer pb checkDerInt bytes = .ok (rem, v) ↔
      ∃ r, pd.parseDer (Input.fromSlice bytes) = .ok (r, v) ∧ r.data = rem := by
    intro α pb pd hacc hprim hc v
    rw [fromDer_ok]
    constructor
    · rintro ⟨r, a, x, h1, h2, h3, h4, h5⟩
      refine ⟨r, parseDer_ok.mpr ⟨a, x, h1, by rw [hacc]; exact h4, ?_⟩, h2⟩
      rw [hc]
      exact bind_eq_ok.mpr ⟨(), checkDerIntInput_ok.mpr (checkDerInt_ok.mp h3).2.2, h5⟩
    · rintro ⟨r, h, h2⟩
      obtain ⟨a, x, h1, h3, h4⟩ := parseDer_ok.mp h
      rw [hc] at h4
      obtain ⟨_, h5, h6⟩ := bind_eq_ok.mp h4
      refine ⟨r, a, x, h1, h2, checkDerInt_ok.mpr ⟨hprim _ _ _ _ h6, ?_,
        checkDerIntInput_ok.mp h5⟩, by rw [← hacc]; exact h3, h6⟩
      rw [derAny_definite h1]; rfl
  refine ⟨fun v => key (uintBer N) (uintDer N) rfl ?_ (fun _ _ => rfl) v,
    fun v => key (intBer N) (intDer N) rfl ?_ (fun _ _ => rfl) v,
    fun v => key integerBer integerDer rfl ?_ (fun _ _ => rfl) v⟩
  · intro h i x v hh; exact ((uintContent_ok hN).mp hh).1
  · intro h i x v hh; exact ((intContent_ok hN).mp hh).1
  · intro h i x v hh
    obtain ⟨_, h4, _⟩ := bind_eq_ok.mp hh
    exact assertPrimitive_ok.mp h4

/-- A case, also of `C38_from_der_subset_partial`. -/
example : fromDer (uintBer 2) checkDerInt [0x02, 0x02, 0x01, 0x2c, 0xff] = .ok ([0xff], 300) := by
  decide +kernel

end Asn1

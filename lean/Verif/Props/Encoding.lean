import Verif.Proofs.Encoding
import Verif.Props.Simple
import Verif.Props.BitString
import Verif.Props.Errors
/-!
# Announced lengths, failing writers, injectivity (C18, C50, C52), class checks (C51)
-/
namespace Asn1
open Spec Wr

/-- **C18** (partial) Announced and returned lengths, for generic objects, integers, BOOLEAN,
NULL, ENUMERATED, OCTET STRING and BIT STRING. Missing: the total length for contents of `2^24`
bytes and more, where the announced value is wrong (`C18_total_length_deviation`). -/
theorem C18_lengths_partial :
    (∀ a : Any, a.header.tag < 2 ^ 32 → a.data.data.length < 2 ^ 64 → LengthsRight anyToBer a) ∧
    (∀ N v, 1 ≤ N ∧ N ≤ 16 → v < 256 ^ N → LengthsRight (uintToBer N) v) ∧
    (∀ N v, 1 ≤ N ∧ N ≤ 16 → InInt N v → LengthsRight (intToBer N) v) ∧
    (∀ d : Bytes, d.length < 2 ^ 64 → LengthsRight integerToBer ⟨d⟩) ∧
    (∀ v, LengthsRight boolToBer v) ∧
    (∀ v, LengthsRight booleanToBer v ∧ LengthsRight booleanToDer v) ∧
    LengthsRight nullToBer () ∧
    (∀ v, v < 2 ^ 32 → LengthsRight enumeratedToBer v) ∧
    (∀ v, v.length < 2 ^ 64 → LengthsRight octetToBer v) ∧
    (∀ v : BitString, v.WF → v.raw.length + 1 < 2 ^ 64 → LengthsRight bitToBer v) := by
  refine ⟨fun a h1 h2 => (any_encodes a h1).lengths h2, ?_, ?_,
    fun d hd => (integer_encodes d).lengths hd, fun v => (bool_encodes v).lengths (by simp),
    fun v => ⟨(boolean_encodes v).lengths (by simp), (boolean_encodesDer v).lengths (by simp)⟩,
    null_encodes.lengths (by simp), ?_, fun v hv => (octet_encodes v).lengths hv,
    fun v hv hs => (bit_encodes v hv).lengths (by simp [bitContentOf]; omega)⟩
  · intro N v hN hv
    obtain ⟨cs, h, _, _, hl⟩ := uint_encodes hN.1 hv
    exact h.lengths (by omega)
  · intro N v hN hv
    obtain ⟨cs, h, _, _, hl⟩ := int_encodes hN.1 hv
    exact h.lengths (by omega)
  · intro v hv
    obtain ⟨cs, h, _, _, hl⟩ := enum_encodes hv
    exact h.lengths (by omega)

/-- Non-trivial cases: a three-byte INTEGER, a BIT STRING with four unused bits. -/
example : LengthsRight (uintToBer 4) 70000 ∧ LengthsRight bitToBer ⟨[0xab, 0xc0], 12⟩ :=
  ⟨C18_lengths_partial.2.1 4 70000 (by decide) (by decide),
   C18_lengths_partial.2.2.2.2.2.2.2.2.2 _ rfl (by decide)⟩

/-- **C18** Deviation: for every OCTET STRING of `2^24` to `2^32 - 1` bytes the announced total
length is one less than the size of the encoding. -/
theorem C18_total_length_deviation (v : Bytes) (h1 : 2 ^ 24 ≤ v.length) (h2 : v.length < 2 ^ 32) :
    ∃ bs, octetToBer.toVec v = .ok bs ∧ octetToBer.totalLen v = .definite (bs.length - 1) ∧
      octetToBer.totalLen v ≠ .definite bs.length := by
  have he := octet_encodes v
  refine ⟨_, he.toVec (by omega), ?_⟩
  have hl : (octetToBer.fullOf v v).length = 6 + v.length := by
    have hL : (lenOctets (.definite v.length)).length = 5 := by
      have hd := lenOctets_der (n := v.length) (by omega)
      generalize lenOctets (.definite v.length) = l at hd
      cases hd with
      | short b h _ => omega
      | long b x xs h hb hx hn =>
        have g1 := beNat_lead (xs := xs) hx
        have g2 := beNat_lt (x :: xs)
        rw [hn] at g1 g2
        simp only [List.length_cons] at g2 ⊢
        have a1 := (Nat.pow_lt_pow_iff_right (by omega : 1 < 256)).mp
          (by omega : 256 ^ xs.length < 256 ^ 4)
        have a2 := (Nat.pow_lt_pow_iff_right (by omega : 1 < 256)).mp
          (by omega : 256 ^ 3 < 256 ^ (xs.length + 1))
        omega
    have hI : (identOctets .universal false 4).length = 1 := by decide +kernel
    show (full .universal false 4 v).length = _
    simp only [full, List.length_append, hL, hI]
  have ht : octetToBer.totalLen v = .definite (v.length + 5) := by
    show berTotalLength 4 (.definite v.length) = _
    have hb : berLengthLength (.definite v.length) = .ok 4 := by
      simp only [berLengthLength]
      rw [if_neg (by omega), if_neg (by omega), if_neg (by omega), if_pos (by omega)]
    unfold berTotalLength berHeaderLength
    rw [hb]
    rfl
  rw [hl, ht]
  constructor
  · congr 1; omega
  · intro h; injection h; omega

/-- A case: an OCTET STRING of `2^24` bytes. -/
example : ∃ bs, octetToBer.toVec (List.replicate (2 ^ 24) 0) = .ok bs ∧
    octetToBer.totalLen (List.replicate (2 ^ 24) 0) ≠ .definite bs.length := by
  obtain ⟨bs, h1, _, h3⟩ := C18_total_length_deviation (List.replicate (2 ^ 24) 0)
    (by rw [List.length_replicate]; exact Nat.le_refl _) (by rw [List.length_replicate]; exact by decide)
  exact ⟨bs, h1, h3⟩

/-- **C18** Deviation: for every OCTET STRING of `2^32` bytes or more the announced total length does not count
the header at all, which takes at least seven bytes. -/
theorem C18_total_length_huge (v : Bytes) (h1 : 2 ^ 32 ≤ v.length) (h2 : v.length < 2 ^ 64) :
    octetToBer.totalLen v = .definite v.length ∧
      ∃ bs, octetToBer.toVec v = .ok bs ∧ v.length + 7 ≤ bs.length := by
  have he := octet_encodes v
  have ht : octetToBer.totalLen v = .definite v.length := by
    show berTotalLength 4 (.definite v.length) = _
    have hb : berLengthLength (.definite v.length) = .error .invalidLength := by
      simp only [berLengthLength]
      rw [if_neg (by omega), if_neg (by omega), if_neg (by omega), if_neg (by omega)]
    unfold berTotalLength berHeaderLength
    rw [hb]
    rfl
  refine ⟨ht, _, he.toVec (by omega), ?_⟩
  have hL : 6 ≤ (lenOctets (.definite v.length)).length := by
    have hd := lenOctets_der (n := v.length) (by omega)
    generalize lenOctets (.definite v.length) = l at hd
    cases hd with
    | short b h _ => omega
    | long b x xs h hb hx hn =>
      have g2 := beNat_lt (x :: xs)
      rw [hn] at g2
      simp only [List.length_cons] at g2 ⊢
      have a2 := (Nat.pow_lt_pow_iff_right (by omega : 1 < 256)).mp
        (by omega : 256 ^ 4 < 256 ^ (xs.length + 1))
      omega
  have hI : (identOctets .universal false 4).length = 1 := by decide +kernel
  show _ ≤ (full .universal false 4 v).length
  simp only [full, List.length_append, hI]
  omega

/-- Such byte strings exist. -/
example : ∃ v : Bytes, 2 ^ 32 ≤ v.length ∧ v.length < 2 ^ 64 :=
  ⟨List.replicate (2 ^ 32) 0, by rw [List.length_replicate]; decide⟩

/-- **C50** A failing writer never goes unnoticed and leaves a prefix of the encoding, for every
value (encodable or not) of the types modelled. -/
theorem C50_failing_writer :
    (∀ h : Header, FaultTolerant headerToBer h) ∧
    (∀ a : Any, FaultTolerant anyToBer a) ∧
    (∀ N v, FaultTolerant (uintToBer N) v) ∧
    (∀ N v, FaultTolerant (intToBer N) v) ∧
    (∀ v, FaultTolerant integerToBer v) ∧
    (∀ v, FaultTolerant boolToBer v) ∧
    (∀ v, FaultTolerant booleanToBer v ∧ FaultTolerant booleanToDer v) ∧
    FaultTolerant nullToBer () ∧
    (∀ v, FaultTolerant enumeratedToBer v) ∧
    (∀ v, FaultTolerant octetToBer v) ∧
    (∀ v, FaultTolerant bitToBer v) := by
  have hw : ∀ o, Strict (writeBytes o) := by
    intro o
    unfold writeBytes
    cases o with
    | none => exact .fail _
    | some d => exact (strict_writeAll _).bind fun _ => strict_pure _
  refine ⟨fun h => faultTolerant (strict_pure _),
    fun a => faultTolerant ((strict_writeAll _).bind fun _ => strict_pure _),
    fun N v => faultTolerant (hw _), fun N v => faultTolerant (hw _),
    fun v => faultTolerant (hw (some v.data)),
    fun v => faultTolerant ((strict_writeAll _).bind fun _ => strict_pure _),
    fun v => ⟨faultTolerant ((strict_writeAll _).bind fun _ => strict_pure _),
      faultTolerant ((strict_writeAll _).bind fun _ => strict_pure _)⟩,
    faultTolerant (strict_pure _), fun v => faultTolerant (hw _),
    fun v => faultTolerant ((strict_writeAll _).bind fun _ => strict_pure _),
    fun v => faultTolerant ((strict_writeAll _).bind fun _ =>
      (strict_writeAll _).bind fun _ => strict_pure _)⟩

/-- A case: the writer takes the header (two bytes in two calls), then one byte of the content. -/
example : Wr.runFaulty (fun hist _ => if hist.length = 2 then some 1 else none)
    (octetToBer.encode [1, 2, 3]) [] = ([0x04, 0x03, 0x01], .error .io) := by decide +kernel

/-- **C52** (partial) No encoding is a prefix of the encoding of another value; in particular different
values have different encodings. Missing: the DER encoding of `Boolean`, for which this is false
(`C52_boolean_deviation`). -/
theorem C52_prefix_free_partial :
    (∀ N, 1 ≤ N ∧ N ≤ 16 → PrefixFree (uintToBer N) (fun v => v < 256 ^ N)) ∧
    (∀ N, 1 ≤ N ∧ N ≤ 16 → PrefixFree (intToBer N) (InInt N)) ∧
    PrefixFree boolToBer (fun _ => True) ∧
    PrefixFree booleanToBer (fun _ => True) ∧
    PrefixFree enumeratedToBer (fun v => v < 2 ^ 32) ∧
    PrefixFree octetToBer (fun v => v.length < 2 ^ 64) ∧
    PrefixFree bitToBer (fun v => v.WF ∧ v.raw.length + 1 < 2 ^ 64) := by
  refine ⟨fun N hN => prefixFree_der (p := uintDer N) fun v hv => ?_,
    fun N hN => prefixFree_der (p := intDer N) fun v hv => ?_,
    prefixFree_der (p := boolDer) fun v _ => (C19_boolean_roundtrip.1 v).2.2.1,
    prefixFree_ber (p := booleanBer) fun v _ => (C19_boolean_roundtrip.2 v).1,
    prefixFree_der (p := enumeratedDer) fun v hv => (C21_enumerated.1 v hv).2.2.1,
    prefixFree_der (p := octetDer) fun v hv => (C22_octetstring_roundtrip v hv).2.2.1,
    prefixFree_der (p := bitDer) fun v hv => (C24_bitstring_roundtrip v hv.1 hv.2).2.2.2.2⟩
  · obtain ⟨bs, h1, h2⟩ := C12_uint_roundtrip N hN v hv
    exact ⟨bs, h1, fun rest i hi => ((h2 rest).2.2 i hi).1⟩
  · obtain ⟨bs, h1, h2⟩ := C13_int_roundtrip N hN v hv
    exact ⟨bs, h1, fun rest i hi => ((h2 rest).2.2 i hi).1⟩

example : (uintToBer 4).toVec 5 = .ok [0x02, 0x01, 0x05] ∧
    (uintToBer 4).toVec 70000 = .ok [0x02, 0x03, 0x01, 0x11, 0x70] := by decide +kernel

/-- Values whose contents are different have encodings of which none is a prefix of the other. -/
theorem prefixFree_encodes {α : Type} {t : ToBer α} {cs : α → Bytes} {P : α → Prop}
    (he : ∀ v, P v → Encodes t v (cs v) ∧ (cs v).length < 2 ^ 64) (hi : ∀ v w, P v → P w → cs v = cs w → v = w) :
    PrefixFree t P := by
  intro v w bv bw hv hw h1 h2 ⟨s, hs⟩
  obtain ⟨ev, lv⟩ := he v hv
  obtain ⟨ew, lw⟩ := he w hw
  rw [ev.toVec lv] at h1
  rw [ew.toVec lw] at h2
  cases h1; cases h2
  have p1 := parseDerAny_full (Input.fromSlice (t.fullOf v (cs v) ++ s)) _ _ _ (cs v) s ev.tag lv rfl
  have p2 := parseDerAny_full (Input.fromSlice (t.fullOf v (cs v) ++ s)) _ _ _ (cs w) [] ew.tag lw
    (by rw [List.append_nil]; exact hs)
  have c1 := full_content (Input.fromSlice (t.fullOf v (cs v) ++ s)) _ _ _ (cs v) s rfl
  have c2 := full_content (Input.fromSlice (t.fullOf v (cs v) ++ s)) (t.tagInfo w).1 (t.tagInfo w).2.1 (t.tagInfo w).2.2 (cs w) []
    (by rw [List.append_nil]; exact hs)
  rw [p1] at p2
  have h3 := congrArg (fun x => x.2.data.data) (Except.ok.inj p2)
  simp only [first_data, c1, c2, List.take_left' rfl] at h3
  exact hi v w hv hw h3

/-- **C52** The same for `Integer`, with any octets, minimal or not. -/
theorem C52_integer_prefix_free : PrefixFree integerToBer (fun v => v.data.length < 2 ^ 64) :=
  prefixFree_encodes (cs := Integer.data) (fun v hv => ⟨integer_encodes v.data, hv⟩)
    (fun v w _ _ h => by cases v; cases w; cases h; rfl)

/-- A case: one value in two lengths. -/
example : integerToBer.toVec ⟨[5]⟩ = .ok [2, 1, 5] ∧ integerToBer.toVec ⟨[0, 5]⟩ = .ok [2, 2, 0, 5] := by
  decide +kernel

/-- **C52** Deviation: the values of `Boolean` other than 0 have the same DER encoding, although they
are not equal. -/
theorem C52_boolean_deviation (v w : UInt8) (hv : v ≠ 0) (hw : w ≠ 0) :
    booleanToDer.toVec v = .ok [1, 1, 0xff] ∧ booleanToDer.toVec w = booleanToDer.toVec v := by
  have h : ∀ v : UInt8, v ≠ 0 → booleanToDer.toVec v = .ok [1, 1, 0xff] := by
    intro v hv
    have e : booleanToDer.toVec v = booleanToDer.toVec 0xff := by
      unfold ToBer.toVec ToBer.encode
      simp only [booleanToDer, if_pos hv]
      rfl
    rw [e]; decide +kernel
  rw [h v hv, h w hw]
  exact ⟨rfl, rfl⟩

example : (1 : UInt8) ≠ 0 ∧ (255 : UInt8) ≠ 0 ∧ (1 : UInt8) ≠ 255 := by decide

/-! ### C51 -/

/-- **C51** (partial) The decoders of a type with a fixed tag number accept only objects with this
tag number, and the object they decode is the one the generic parser returns. Missing: the class of
the object, which is not looked at (`C51_class_ignored`). -/
theorem C51_tag_check_partial {α : Type} (p : Parser α) (tag : Nat) (check : Any → Except SErr Unit)
    (hp : p.acceptTag = tagIs tag) :
    (∀ i r v, p.parseBer i = .ok (r, v) → ∃ a, parseBerAny i = .ok (r, a) ∧ a.header.tag = tag) ∧
    (∀ i r v, p.parseDer i = .ok (r, v) → ∃ a, parseDerAny i = .ok (r, a) ∧ a.header.tag = tag) ∧
    (∀ bytes rem v, fromBer p bytes = .ok (rem, v) →
      ∃ r a, parseBerAny (Input.fromSlice bytes) = .ok (r, a) ∧ a.header.tag = tag) ∧
    (∀ bytes rem v, fromDer p check bytes = .ok (rem, v) →
      ∃ r a, parseDerAny (Input.fromSlice bytes) = .ok (r, a) ∧ a.header.tag = tag) := by
  have ht : ∀ t, p.acceptTag t = true → t = tag := by
    intro t h; rw [hp] at h; simpa [tagIs] using h
  refine ⟨?_, ?_, ?_, ?_⟩
  · intro i r v h
    obtain ⟨a, x, h1, h2, _⟩ := parseBer_ok.mp h
    exact ⟨a, h1, ht _ h2⟩
  · intro i r v h
    obtain ⟨a, x, h1, h2, _⟩ := parseDer_ok.mp h
    exact ⟨a, h1, ht _ h2⟩
  · intro b r v h
    obtain ⟨r, a, x, h1, _, h2, _⟩ := fromBer_ok.mp h
    exact ⟨r, a, h1, ht _ h2⟩
  · intro b r v h
    obtain ⟨r, a, x, h1, _, _, h2, _⟩ := fromDer_ok.mp h
    exact ⟨r, a, h1, ht _ h2⟩

/-- A case: the decoder of OCTET STRING. -/
example : octetBer.acceptTag = tagIs 4 ∧ octetBer.parseBer (Input.fromSlice [4, 1, 7]) = .ok (⟨[], 3, 3⟩, [7]) :=
  ⟨rfl, by decide +kernel⟩

/-- **C51** Deviation: an object with tag number 2 decodes as an INTEGER whatever its class, with
every decoder. -/
theorem C51_class_ignored (c : Class) :
    let bytes : Bytes := [UInt8.ofNat (64 * c.toNat + 2), 0x01, 0x05]
    (uintBer 4).parseBer (Input.fromSlice bytes) = .ok (⟨[], 3, 3⟩, 5) ∧
    (uintDer 4).parseDer (Input.fromSlice bytes) = .ok (⟨[], 3, 3⟩, 5) ∧
    fromBer (uintBer 4) bytes = .ok ([], 5) ∧
    fromDer (uintBer 4) checkDerInt bytes = .ok ([], 5) ∧
    ∃ r a, parseDerAny (Input.fromSlice bytes) = .ok (r, a) ∧ a.header.cls = c := by
  refine ⟨?_, ?_, ?_, ?_, ⟨[], 3, 3⟩, ⟨⟨c, false, 2, .definite 1,
    some [UInt8.ofNat (64 * c.toNat + 2)], some ⟨[UInt8.ofNat (64 * c.toNat + 2), 0x01], 0, 2⟩⟩,
    ⟨[0x05], 2, 3⟩⟩, ?_, rfl⟩ <;> cases c <;> decide +kernel

end Asn1

import Verif.Props.OctetString
import Verif.Spec.Bits
/-!
# BIT STRING (C24)
-/
namespace Asn1
open Spec Wr

theorem byteBits_eq (b : UInt8) :
    byteBits b = (List.range 8).map fun k => b.toNat.testBit (7 - k) := by
  revert b; exact forall_byte (by decide +kernel)

theorem bits_eq (v : BitString) : v.bits = (bitsOf v.raw).take v.nbits := by
  unfold BitString.bits bitsOf
  congr 1
  congr 1
  funext b; exact byteBits_eq b

theorem bitsOf_length (bs : Bytes) : (bitsOf bs).length = 8 * bs.length := by
  induction bs with
  | nil => rfl
  | cons b bs ih => rw [bitsOf, List.flatMap_cons, List.length_append]; unfold bitsOf at ih
                    simp [ih]; omega

theorem bitsOf_cons (b : UInt8) (bs : Bytes) : bitsOf (b :: bs) = byteBits b ++ bitsOf bs := by
  rw [byteBits_eq]; rfl

theorem byteBits_pack (b0 b1 b2 b3 b4 b5 b6 b7 : Bool) :
    byteBits (packByte [b0, b1, b2, b3, b4, b5, b6, b7]) = [b0, b1, b2, b3, b4, b5, b6, b7] := by
  revert b0 b1 b2 b3 b4 b5 b6 b7; decide +kernel

/-- Packing eight bits or fewer: the missing ones are zero. -/
theorem packByte_short (l : List Bool) (h : l.length ≤ 8) :
    byteBits (packByte l) = l ++ List.replicate (8 - l.length) false := by
  have : packByte l = packByte (l ++ List.replicate (8 - l.length) false) := by
    have hg : ∀ k, l.getD k false = (l ++ List.replicate (8 - l.length) false).getD k false := by
      intro k
      simp only [List.getD_eq_getElem?_getD, List.getElem?_append, List.getElem?_replicate]
      split
      · rfl
      · rename_i hk
        rw [List.getElem?_eq_none (by omega)]
        split <;> rfl
    unfold packByte
    simp only [← hg]
  rw [this]
  have hl : (l ++ List.replicate (8 - l.length) false).length = 8 := by simp; omega
  generalize l ++ List.replicate (8 - l.length) false = m at hl
  match m, hl with
  | [b0, b1, b2, b3, b4, b5, b6, b7], _ => exact byteBits_pack ..

theorem bitsOf_packN (n : Nat) (l : List Bool) (h : l.length ≤ 8 * n) :
    bitsOf (packN n l) = l ++ List.replicate (8 * n - l.length) false := by
  induction n generalizing l with
  | zero =>
    obtain rfl : l = [] := List.eq_nil_of_length_eq_zero (by omega)
    rfl
  | succ n ih =>
    rw [packN, bitsOf_cons, ih _ (by simp; omega), packByte_short _ (by simp; omega)]
    by_cases hl : 8 ≤ l.length
    · rw [List.length_take, Nat.min_eq_left hl]
      simp only [Nat.sub_self, List.replicate_zero, List.append_nil, ← List.append_assoc,
        List.take_append_drop, List.length_drop]
      congr 2; omega
    · rw [List.take_of_length_le (by omega), List.drop_eq_nil_of_le (by omega)]
      rw [List.nil_append, List.append_assoc, List.replicate_append_replicate]
      congr 2; simp; omega

theorem packN_length (n : Nat) (l : List Bool) : (packN n l).length = n := by
  induction n generalizing l with
  | zero => rfl
  | succ n ih => simp [packN, ih]

theorem ofBits_wf (l : List Bool) : (BitString.ofBits l).WF := packN_length _ _

theorem bits_ofBits (l : List Bool) : (BitString.ofBits l).bits = l := by
  rw [bits_eq]
  show (bitsOf (packN ((l.length + 7) / 8) l)).take l.length = l
  rw [bitsOf_packN _ _ (by omega), List.take_left' rfl]

theorem ofBits_padding (l : List Bool) :
    bitsOf (BitString.ofBits l).raw =
      l ++ List.replicate (8 * (BitString.ofBits l).raw.length - l.length) false := by
  show bitsOf (packN ((l.length + 7) / 8) l) = l ++ List.replicate (8 * (packN _ l).length - _) _
  rw [packN_length, bitsOf_packN _ _ (by omega)]

/-- The content octets written for a bit string. -/
def bitContentOf (v : BitString) : Bytes := UInt8.ofNat (8 * v.raw.length - v.nbits) :: v.raw

theorem bit_encodes (v : BitString) (hv : v.WF) : Encodes bitToBer v (bitContentOf v) := by
  refine ⟨?_, ?_, (by decide : (3 : Nat) < 2 ^ 32), rfl⟩
  · exact ((writes_writeAll [_]).bind (f := fun _ => _) ((writes_writeAll v.raw).bind
      (f := fun _ => (pure (1 + v.raw.length) : Wr Nat)) (writes_pure _))).congr
      (by simp [bitContentOf]) (by simp [bitContentOf]; omega)
  · show Length.definite (1 + (v.nbits + 7) / 8) = _
    rw [← hv]; simp [bitContentOf]; omega

theorem unused_toNat (v : BitString) (hv : v.WF) :
    (UInt8.ofNat (8 * v.raw.length - v.nbits)).toNat = 8 * v.raw.length - v.nbits ∧
    8 * v.raw.length - v.nbits ≤ 7 ∧ v.nbits ≤ 8 * v.raw.length := by
  unfold BitString.WF at hv
  have : 8 * v.raw.length - v.nbits ≤ 7 := by omega
  refine ⟨?_, this, by omega⟩
  rw [UInt8.toNat_ofNat']; omega

theorem bitPrimitive_ok {rem data r : Input} {v : BitString} :
    bitPrimitive rem data = .ok (r, v) ↔ r = rem ∧ ∃ u bytes, data.data = u :: bytes ∧
      u.toNat ≤ 7 ∧ u.toNat ≤ 8 * bytes.length ∧ v = ⟨bytes, 8 * bytes.length - u.toNat⟩ := by
  unfold bitPrimitive
  cases hd : data.data with
  | nil => simp [nomErr]
  | cons u bytes =>
    simp only
    by_cases h1 : u.toNat ≤ 7
    · by_cases h2 : u.toNat ≤ 8 * bytes.length
      · rw [if_pos h1, if_pos h2]
        constructor
        · intro h; simp at h; exact ⟨h.1.symm, u, bytes, rfl, h1, h2, h.2.symm⟩
        · rintro ⟨rfl, u', b', h3, _, _, rfl⟩
          simp at h3; obtain ⟨rfl, rfl⟩ := h3; rfl
      · rw [if_pos h1, if_neg h2]
        constructor
        · intro h; simp [nomErr] at h
        · rintro ⟨_, u', b', h3, _, h5, _⟩
          simp at h3; obtain ⟨rfl, rfl⟩ := h3; exact absurd h5 h2
    · rw [if_neg h1]
      constructor
      · intro h; simp [nomErr] at h
      · rintro ⟨_, u', b', h3, h4, _, _⟩
        simp at h3; obtain ⟨rfl, rfl⟩ := h3; exact absurd h4 h1

/-- Primitive contents and the bit strings read from them. -/
def BitLeaf (cs : Bytes) (v : BitString) : Prop :=
  ∃ u bytes, cs = u :: bytes ∧ u.toNat ≤ 7 ∧ u.toNat ≤ 8 * bytes.length ∧
    v = ⟨bytes, 8 * bytes.length - u.toNat⟩

theorem bitLeaf_ok {h : Header} {i r : Input} {v : BitString}
    (hl : h.length = .definite i.data.length) :
    bitLeaf h i = .ok (r, v) ↔ r = after i i.data.length ∧ BitLeaf i.data v := by
  unfold bitLeaf
  rw [berGetContent_all hl, bind_ok]
  simp only [bitPrimitive_ok, first_all, BitLeaf]

theorem bitContent_prim {h : Header} {i r : Input} {v : BitString} (hc : h.constructed = false)
    (hl : h.length = .definite i.data.length) :
    bitContent h i = .ok (r, v) ↔ r = after i i.data.length ∧ BitLeaf i.data v := by
  unfold bitContent
  rw [if_pos (by simp [hc]), bitLeaf_ok hl]

/-- All the bits, one string after the other. -/
def joinBits (vs : List BitString) : BitString := BitString.ofBits (vs.map (·.bits)).flatten

theorem foldl_bits (vs : List BitString) :
    vs.foldl BitString.append BitString.empty = joinBits vs := by
  have : ∀ (vs : List BitString) (l : List Bool),
      vs.foldl BitString.append (BitString.ofBits l) =
        BitString.ofBits (l ++ (vs.map (·.bits)).flatten) := by
    intro vs
    induction vs with
    | nil => simp
    | cons v vs ih =>
      intro l
      rw [List.foldl_cons, BitString.append, bits_ofBits, ih]; simp
  exact this vs []

theorem bitContent_constr {h : Header} {i : Input} {v : BitString} (hc : h.constructed = true)
    (hcons : Consistent h i) :
    (∃ r, bitContent h i = .ok (r, v)) ↔ Segs 3 BitLeaf joinBits 5 true i.data v := by
  unfold bitContent
  rw [if_neg (by simp [hc])]
  have := parseSegmented_ok (acceptTag := tagIs tagBitString) (empty := BitString.empty)
    (append := BitString.append) (leaf := bitLeaf) (tag := 3) (Leaf := BitLeaf)
    (join := joinBits) (fun t => by simp only [tagIs, tagBitString]; exact decide_eq_true_iff)
    foldl_bits (fun h i w _ h2 => by simp [bitLeaf_ok h2]) 5 h i v hcons
  rw [hc] at this
  exact this

theorem safe_bit : bitBer.Safe ∧ bitDer.Safe := by
  have hl : ∀ h i, NoPanic (bitLeaf h i) := by
    intro h i
    refine NoPanic.bind (noPanic_berContent _ _) fun x _ => ?_
    simp only
    unfold bitPrimitive
    split
    · exact noPanic_nomErr _ _
    · split
      · split
        · exact noPanic_ok _
        · exact noPanic_nomErr _ _
      · exact noPanic_nomErr _ _
  have h : bitBer.Safe := by
    intro h i
    show NoPanic (bitContent h i)
    unfold bitContent
    split
    · exact hl h i
    · exact parseSegmented_safe hl _ h i
  exact ⟨h, fun hd i => NoPanic.bind (safe_assertPrimitive hd i) fun _ _ => h hd i⟩

theorem bitLeaf_self (v : BitString) (hv : v.WF) : BitLeaf (bitContentOf v) v := by
  obtain ⟨h1, h2, h3⟩ := unused_toNat v hv
  refine ⟨_, _, rfl, by omega, by omega, ?_⟩
  rw [h1, show 8 * v.raw.length - (8 * v.raw.length - v.nbits) = v.nbits by omega]

/-- **C24** Every well-formed bit string with fewer than `2^64 - 1` bytes, of any number of bits,
is written as the number of unused bits (0 to 7) and its bytes, and decodes to itself. -/
theorem C24_bitstring_roundtrip (v : BitString) (hv : v.WF) (hs : v.raw.length + 1 < 2 ^ 64) :
    (bitToBer.writeContent v).exec = (UInt8.ofNat (8 * v.raw.length - v.nbits) :: v.raw,
      .ok (1 + v.raw.length)) ∧
    8 * v.raw.length - v.nbits ≤ 7 ∧
    ParseBerBack bitToBer bitBer v v ∧ FromBerBack bitToBer bitBer v v ∧
    ParseDerBack bitToBer bitDer v v := by
  have hsz : (bitContentOf v).length < 2 ^ 64 := by simp [bitContentOf]; omega
  have he := bit_encodes v hv
  have hd : Decodes bitBer false (bitContentOf v) v := by
    intro h d h1 h2 h3
    refine ⟨_, (bitContent_prim h1 (by rw [h2, h3])).mpr ⟨rfl, ?_⟩⟩
    rw [h3]; exact bitLeaf_self v hv
  have hdD : Decodes bitDer false (bitContentOf v) v := by
    intro h d h1 h2 h3
    obtain ⟨x, hx⟩ := hd h d h1 h2 h3
    exact ⟨x, bind_eq_ok.mpr ⟨(), assertPrimitive_ok.mpr h1, hx⟩⟩
  have h1 := back_ber (p := bitBer) he hsz rfl hd
  refine ⟨?_, (unused_toNat v hv).2.1, h1.1, h1.2, back_der he hsz rfl hdD⟩
  have := he.content
  rw [Writes] at this
  rw [this]; simp [bitContentOf]; omega

/-- A case: twelve bits in two bytes. -/
example : BitString.WF ⟨[0xab, 0xc0], 12⟩ := rfl

theorem trailingZeros_pad (b : UInt8) (u : Nat) (hu : u ≤ 7) :
    u ≤ trailingZeros b ↔ (byteBits b).drop (8 - u) = List.replicate u false := by
  revert b
  match u, hu with
  | 0, _ | 1, _ | 2, _ | 3, _ | 4, _ | 5, _ | 6, _ | 7, _ => exact forall_byte (by decide +kernel)

theorem bitsOf_snoc (bs : Bytes) (b : UInt8) : bitsOf (bs ++ [b]) = bitsOf bs ++ byteBits b := by
  rw [byteBits_eq]; simp [bitsOf]

/-- The check of `from_der`: exactly the contents whose unused bits are zero. -/
theorem bitCheck_ok {a : Any} {v : BitString} (hv : BitLeaf a.data.data v) :
    bitCheck a = .ok () ↔ a.header.constructed = false ∧ ZeroPadded a.data.data v.bits := by
  obtain ⟨u, bytes, h1, h2, h3, rfl⟩ := hv
  have hbits : (⟨bytes, 8 * bytes.length - u.toNat⟩ : BitString).bits =
      (bitsOf bytes).take (8 * bytes.length - u.toNat) := bits_eq _
  rw [hbits, h1]
  have hz : ZeroPadded (u :: bytes) ((bitsOf bytes).take (8 * bytes.length - u.toNat)) ↔
      (bitsOf bytes).drop (8 * bytes.length - u.toNat) = List.replicate u.toNat false := by
    constructor
    · rintro ⟨u', b', h4, h5⟩
      simp at h4; obtain ⟨rfl, rfl⟩ := h4
      have h6 := List.take_append_drop (8 * bytes.length - u.toNat) (bitsOf bytes)
      exact List.append_cancel_left (h6.trans h5)
    · intro h4
      exact ⟨u, bytes, rfl, by rw [← h4, List.take_append_drop]⟩
  rw [hz]
  unfold bitCheck
  cases hc : a.header.constructed with
  | true => simp [assertPrimitiveS, hc, Bind.bind, Except.bind]
  | false =>
    have : assertPrimitiveS a.header = .ok () := by simp [assertPrimitiveS, hc]
    rw [this]
    show (match a.data.data with | _ => _) = _ ↔ _
    rw [h1]
    cases bytes with
    | nil =>
      have : u = 0 := UInt8.toNat.inj (by simpa using h3)
      subst this; simp [bitsOf]
    | cons b bs =>
      simp only [true_and]
      obtain ⟨init, last, hil⟩ : ∃ init last, b :: bs = init ++ [last] :=
        ⟨_, _, (List.dropLast_concat_getLast (List.cons_ne_nil b bs)).symm⟩
      rw [hil, bitsOf_snoc]
      have hgl : (init ++ [last]).getLastD 0 = last := by simp [List.getLastD_eq_getLast?]
      rw [hgl]
      have hlen : (init ++ [last]).length = init.length + 1 := by simp
      rw [hlen]
      have : List.drop (8 * (init.length + 1) - u.toNat) (bitsOf init ++ byteBits last) =
          (byteBits last).drop (8 - u.toNat) := by
        rw [List.drop_append, List.drop_eq_nil_of_le (by rw [bitsOf_length]; omega), bitsOf_length,
          List.nil_append]
        congr 1; omega
      rw [this, ← trailingZeros_pad last _ h2]
      by_cases hlt : trailingZeros last < u.toNat
      · rw [if_pos hlt]; simp; omega
      · rw [if_neg hlt]; simp; omega

/-- **C24** The bits of a slice, of any number, come back in the same order, through the four
APIs (`BitString::from(bits)`, then encoding and decoding). -/
theorem C24_bits_roundtrip (l : List Bool) (hs : l.length + 16 < 2 ^ 64) :
    (BitString.ofBits l).bits = l ∧
    (∃ cs, (bitToBer.writeContent (BitString.ofBits l)).exec = (cs, .ok cs.length) ∧
      BitContent cs l ∧ ZeroPadded cs l) ∧
    ParseBerBack bitToBer bitBer (.ofBits l) (.ofBits l) ∧
    FromBerBack bitToBer bitBer (.ofBits l) (.ofBits l) ∧
    ParseDerBack bitToBer bitDer (.ofBits l) (.ofBits l) ∧
    FromDerBack bitToBer bitBer bitCheck (.ofBits l) (.ofBits l) := by
  have hwf := ofBits_wf l
  have hlen : (BitString.ofBits l).raw.length = (l.length + 7) / 8 := hwf
  have hn : (BitString.ofBits l).nbits = l.length := rfl
  have hsz' : (BitString.ofBits l).raw.length + 1 < 2 ^ 64 := by rw [hlen]; omega
  have hsz : (bitContentOf (.ofBits l)).length < 2 ^ 64 := by simp [bitContentOf]; omega
  obtain ⟨g1, g2, g3, g4, g5⟩ := C24_bitstring_roundtrip _ hwf hsz'
  obtain ⟨q1, q2, q3⟩ := unused_toNat _ hwf
  have hpad : ZeroPadded (bitContentOf (.ofBits l)) l := by
    refine ⟨_, _, rfl, ?_⟩
    rw [q1, hn]; exact ofBits_padding l
  refine ⟨bits_ofBits l, ⟨_, by rw [g1]; simp; omega, ⟨_, _, rfl, by omega, by omega, ?_⟩, hpad⟩,
    g3, g4, g5, back_fromDer (bit_encodes _ hwf) hsz rfl ?_ ?_⟩
  · have h := bits_ofBits l
    rw [bits_eq] at h
    rw [q1]
    rw [show 8 * (BitString.ofBits l).raw.length - (8 * (BitString.ofBits l).raw.length -
      (BitString.ofBits l).nbits) = (BitString.ofBits l).nbits by omega, h]
  · intro h d h1 h2 h3
    refine ⟨_, (bitContent_prim h1 (by rw [h2, h3])).mpr ⟨rfl, ?_⟩⟩
    rw [h3]; exact bitLeaf_self _ hwf
  · intro a h1 _ h3
    refine (bitCheck_ok (v := .ofBits l) ?_).mpr ⟨h1, ?_⟩
    · rw [h3]; exact bitLeaf_self _ hwf
    · rw [h3, bits_ofBits]; exact hpad

/-- A non-trivial case: eleven bits. -/
example : bitToBer.toVec (.ofBits [true, false, true, true, false, false, false, true, true, true,
    false]) = .ok [0x03, 0x03, 0x05, 0xb1, 0xc0] := by decide +kernel

theorem bitLeaf_bits {cs : Bytes} {v : BitString} (h : BitLeaf cs v) :
    BitContent cs v.bits ∧ v.WF ∧ bitContentOf v = cs := by
  obtain ⟨u, bytes, h1, h2, h3, rfl⟩ := h
  refine ⟨⟨u, bytes, h1, h2, h3, bits_eq _⟩, ?_, ?_⟩
  · show bytes.length = _
    simp only; omega
  · rw [h1]; unfold bitContentOf
    simp only
    rw [show 8 * bytes.length - (8 * bytes.length - u.toNat) = u.toNat by omega]
    simp

/-- **C24** What is accepted as BIT STRING. `parse_der`: exactly the primitive contents that begin
with a number of unused bits from 0 to 7, with bytes to take them from; the value has exactly
these bits and re-encodes to the same content. `from_der` moreover demands that the unused bits
be zero. BER: primitive contents likewise, or segments, whose bits are concatenated in order. -/
theorem C24_bitstring_decoding (i r : Input) (v : BitString) :
    (bitDer.parseDer i = .ok (r, v) ↔ ∃ a, parseDerAny i = .ok (r, a) ∧ a.header.tag = 3 ∧
      a.header.constructed = false ∧ BitContent a.data.data v.bits ∧
      (∃ u, a.data.data = u :: v.raw) ∧ v.WF) ∧
    (∀ bs rem, fromDer bitBer bitCheck bs = .ok (rem, v) ↔
      ∃ r a, bitDer.parseDer (Input.fromSlice bs) = .ok (r, v) ∧ r.data = rem ∧
        parseDerAny (Input.fromSlice bs) = .ok (r, a) ∧ ZeroPadded a.data.data v.bits) ∧
    (bitBer.parseBer i = .ok (r, v) ↔ ∃ a, parseBerAny i = .ok (r, a) ∧ a.header.tag = 3 ∧
      ((a.header.constructed = false ∧ BitContent a.data.data v.bits ∧
        (∃ u, a.data.data = u :: v.raw) ∧ v.WF) ∨
       (a.header.constructed = true ∧ Segs 3
        (fun cs w => BitContent cs w.bits ∧ (∃ u, cs = u :: w.raw) ∧ w.WF)
        (fun vs => BitString.ofBits (vs.map (·.bits)).flatten) 5 true a.data.data v))) := by
  have hleaf : ∀ cs (v : BitString), BitLeaf cs v ↔
      BitContent cs v.bits ∧ (∃ u, cs = u :: v.raw) ∧ v.WF := by
    intro cs v
    constructor
    · intro h
      obtain ⟨h1, h2, h3⟩ := bitLeaf_bits h
      exact ⟨h1, ⟨_, h3.symm⟩, h2⟩
    · rintro ⟨⟨u, bytes, rfl, h2, h3, h4⟩, ⟨u', h5⟩, h6⟩
      simp at h5
      obtain ⟨rfl, rfl⟩ := h5
      refine ⟨u, v.raw, rfl, h2, h3, ?_⟩
      have := congrArg List.length h4
      rw [bits_eq, List.length_take, List.length_take, bitsOf_length] at this
      unfold BitString.WF at h6
      have hn : v.nbits = 8 * v.raw.length - u.toNat := by omega
      rw [← hn]
  have hacc : ∀ t, bitBer.acceptTag t = true ↔ t = 3 := by
    intro t; simp only [bitBer, tagIs, tagBitString]; exact decide_eq_true_iff
  have hD : ∀ (i r : Input), bitDer.parseDer i = .ok (r, v) ↔ ∃ a, parseDerAny i = .ok (r, a) ∧
      a.header.tag = 3 ∧ a.header.constructed = false ∧ BitLeaf a.data.data v := by
    intro i r
    rw [parseDer_ok]
    constructor
    · rintro ⟨a, x, h1, h2, h3⟩
      obtain ⟨_, h4, h5⟩ := bind_eq_ok.mp h3
      have hc := assertPrimitive_ok.mp h4
      exact ⟨a, h1, (hacc _).mp h2, hc, ((bitContent_prim hc (derAny_definite h1)).mp h5).2⟩
    · rintro ⟨a, h1, h2, h3, h4⟩
      exact ⟨a, _, h1, (hacc _).mpr h2, bind_eq_ok.mpr ⟨(), assertPrimitive_ok.mpr h3,
        (bitContent_prim h3 (derAny_definite h1)).mpr ⟨rfl, h4⟩⟩⟩
  refine ⟨?_, ?_, ?_⟩
  · rw [hD]; simp only [hleaf]
  · intro bs rem
    rw [fromDer_ok]
    constructor
    · rintro ⟨r, a, x, h1, h2, h3, h4, h5⟩
      have hc : a.header.constructed = false := by
        unfold bitCheck assertPrimitiveS at h3
        cases hcc : a.header.constructed with
        | false => rfl
        | true => rw [hcc] at h3; simp [Bind.bind, Except.bind] at h3
      have hl := ((bitContent_prim hc (derAny_definite h1)).mp h5).2
      exact ⟨r, a, (hD _ _).mpr ⟨a, h1, (hacc _).mp h4, hc, hl⟩, h2, h1,
        ((bitCheck_ok hl).mp h3).2⟩
    · rintro ⟨r, a, h1, h2, h3, h4⟩
      obtain ⟨a', g1, g2, g3, g4⟩ := (hD _ _).mp h1
      rw [h3] at g1; simp at g1; subst g1
      exact ⟨r, a, _, h3, h2, (bitCheck_ok g4).mpr ⟨g3, h4⟩, (hacc _).mpr g2,
        (bitContent_prim g3 (derAny_definite h3)).mpr ⟨rfl, g4⟩⟩
  · have hL : (fun (cs : Bytes) (w : BitString) =>
        BitContent cs w.bits ∧ (∃ u, cs = u :: w.raw) ∧ w.WF) = BitLeaf := by
      funext cs w; exact propext (hleaf cs w).symm
    rw [hL, parseBer_ok]
    constructor
    · rintro ⟨a, x, h1, h2, h3⟩
      refine ⟨a, h1, (hacc _).mp h2, ?_⟩
      cases hc : a.header.constructed with
      | false => exact .inl ⟨rfl, (hleaf _ _).mp
          ((bitContent_prim hc (berAny_primitive h1 hc)).mp h3).2⟩
      | true => exact .inr ⟨rfl, (bitContent_constr hc (consistent_ber h1)).mp ⟨x, h3⟩⟩
    · rintro ⟨a, h1, h2, h3⟩
      rcases h3 with ⟨hc, h3⟩ | ⟨hc, h3⟩
      · exact ⟨a, _, h1, (hacc _).mpr h2,
          (bitContent_prim hc (berAny_primitive h1 hc)).mpr ⟨rfl, (hleaf _ _).mpr h3⟩⟩
      · obtain ⟨x, hx⟩ := (bitContent_constr hc (consistent_ber h1)).mpr h3
        exact ⟨a, x, h1, (hacc _).mpr h2, hx⟩

/-- The example of X.690 8.6.4.2, with what follows. -/
example : bitBer.parseBer (Input.fromSlice
    [0x23, 0x80, 0x03, 0x03, 0x00, 0x0a, 0x3b, 0x03, 0x05, 0x04, 0x5f, 0x29, 0x1c, 0xd0, 0, 0, 9]) =
    .ok (⟨[9], 16, 17⟩, ⟨[0x0a, 0x3b, 0x5f, 0x29, 0x1c, 0xd0], 44⟩) := by decide +kernel

/-- **C24** Errors: no content, more than seven unused bits, or no bytes to take them from. -/
theorem C24_bitstring_errors (i r : Input) (a : Any) (ha : parseBerAny i = .ok (r, a))
    (hc : a.header.constructed = false)
    (hb : a.data.data = [] ∨ (∃ u bytes, a.data.data = u :: bytes ∧ 7 < u.toNat) ∨
      ∃ u : UInt8, a.data.data = [u] ∧ u ≠ 0) (v : Input × BitString) :
    bitBer.parseBer i ≠ .ok v ∧ bitDer.parseDer i ≠ .ok v := by
  have key : ∀ w : BitString, ¬ BitContent a.data.data w.bits := by
    rintro w ⟨u, bytes, h1, h2, h3, -⟩
    rw [h1] at hb
    rcases hb with hb | ⟨u', b', hb, hlt⟩ | ⟨u', hb, hne⟩
    · simp at hb
    · simp at hb; obtain ⟨rfl, rfl⟩ := hb; omega
    · simp at hb; obtain ⟨rfl, rfl⟩ := hb
      exact hne (UInt8.toNat.inj (by simpa using h3))
  constructor
  · intro h
    obtain ⟨a', h1, _, h3⟩ := (C24_bitstring_decoding i v.1 v.2).2.2.mp h
    rw [ha] at h1; simp at h1; obtain ⟨-, rfl⟩ := h1
    rcases h3 with h3 | h3
    · exact key _ h3.2.1
    · rw [hc] at h3; simp at h3
  · intro h
    obtain ⟨a', h1, _, h3, h4, _⟩ := (C24_bitstring_decoding i v.1 v.2).1.mp h
    rw [C11_der_subset_ber_any _ _ _ h1] at ha; simp at ha; obtain ⟨-, rfl⟩ := ha
    exact key _ h4

example : parseBerAny (Input.fromSlice [0x03, 0x01, 0x01]) =
    .ok (⟨[], 3, 3⟩, ⟨⟨.universal, false, 3, .definite 1, some [0x03], some ⟨[0x03, 0x01], 0, 2⟩⟩,
      ⟨[0x01], 2, 3⟩⟩) := by decide +kernel

/-- **C38** BIT STRING: `parse_der` does not check the unused bits, `from_der` does; so `from_der`
refuses the library's own encoding of `BitString::new(4, &[0xff])`. `BitString::new(0, &[])`
panics. -/
theorem C38_bitstring_deviation :
    BitString.new 4 [0xff] = .ok ⟨[0xff], 4⟩ ∧
    bitToBer.toVec ⟨[0xff], 4⟩ = .ok [0x03, 0x02, 0x04, 0xff] ∧
    bitDer.parseDer (Input.fromSlice [0x03, 0x02, 0x04, 0xff]) = .ok (⟨[], 4, 4⟩, ⟨[0xff], 4⟩) ∧
    fromDer bitBer bitCheck [0x03, 0x02, 0x04, 0xff] =
      .error (.error (.derConstraintFailed .unusedBitsNotZero)) ∧
    BitString.new 0 [] = .error .panic := by
  refine ⟨by decide +kernel, by decide +kernel, by decide +kernel, by decide +kernel,
    by decide +kernel⟩

/-- **C11** What DER accepts as BIT STRING, BER accepts with the same value and remainder. -/
theorem C11_der_subset_ber_bit (i r : Input) (v : BitString)
    (h : bitDer.parseDer i = .ok (r, v)) : bitBer.parseBer i = .ok (r, v) := by
  obtain ⟨a, x, h1, h2, h3⟩ := parseDer_ok.mp h
  obtain ⟨_, _, h4⟩ := bind_eq_ok.mp h3
  exact parseBer_ok.mpr ⟨a, x, C11_der_subset_ber_any _ _ _ h1, h2, h4⟩

/-- A case. -/
example : bitBer.parseBer (Input.fromSlice [3, 2, 4, 0xf0, 9]) = .ok (⟨[9], 4, 5⟩, ⟨[0xf0], 4⟩) :=
  C11_der_subset_ber_bit _ _ _ (by decide +kernel)

end Asn1

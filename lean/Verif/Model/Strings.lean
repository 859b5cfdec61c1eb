import Verif.Model.Iterator
/-!
# OCTET STRING, BIT STRING and segmented encodings

src/ber/appendable.rs, src/asn1_types/{octetstring,bitstring}.rs
-/
namespace Asn1

/-- src/tag.rs `Tag::BitString`. -/
def tagBitString : Nat := 3
/-- src/tag.rs `Tag::OctetString`. -/
def tagOctetString : Nat := 4

section Segmented
variable {α : Type}

/-- src/ber/appendable.rs:43-60: one turn of the loop; `rec` parses a segment. `false` is
`break`. -/
def segStep (acceptTag : Nat → Bool) (append : α → α → α) (rec : Header → Input → PRes α)
    (v : α) (a : Any) : Except PErr (Bool × α) :=
  if a.header.tag = tagEndOfContent then .ok (false, v)
  else if !acceptTag a.header.tag then nomErr a.data .invalidTag
  else if a.data.isEmpty then .ok (true, v)
  else
    match rec a.header a.data with
    | .ok (_, part) => .ok (true, append v part)
    | .error e => .error e

/-- src/ber/appendable.rs:33-38: the content of a constructed string. -/
def segContent (h : Header) (input : Input) : PRes Input :=
  if h.length.isDefinite then berGetContent h input else input.takeSplit input.len

/-- src/ber/appendable.rs:18-67 `parse_ber_segmented`. `leaf` is the branch of
`T::from_ber_content` for primitive headers (the only one it is called with), `empty` is
`T::default()`, `append v part` the value of `v` after `v.append(&mut part)`. -/
def parseSegmented (acceptTag : Nat → Bool) (empty : α) (append : α → α → α)
    (leaf : Header → Input → PRes α) : Nat → Header → Input → PRes α
  | 0, _, input => nomErr input .berMaxDepth
  | limit + 1, h, input =>
    if input.isEmpty then nomErr input .invalidLength
    else if h.constructed then do
      let (rem, data) ← segContent h input
      let (_, v) ← forIter anyBer.parseBer
        (segStep acceptTag append
          (fun h i => parseSegmented acceptTag empty append leaf limit h i))
        (data.len + 1) (AnyIter.new data) empty
      pure (rem, v)
    else do
      let (rem, data) ← berGetContent h input
      let (_, t) ← leaf h data
      pure (rem, t)

end Segmented

/-- src/asn1_types/octetstring.rs:6 `OCTETSTRING_MAX_RECURSION`. -/
def OCTETSTRING_MAX_RECURSION : Nat := 5

/-- src/asn1_types/octetstring.rs:66-72: primitive content. The `Cow` is its bytes. -/
def octetLeaf (_ : Header) (input : Input) : PRes Bytes := do
  let (rem, data) ← input.takeSplit input.len
  pure (rem, data.data)

/-- src/asn1_types/octetstring.rs:57-78 `BerParser for OctetString`; 107-118 `append`. -/
def octetContent (h : Header) (input : Input) : PRes Bytes :=
  if !h.constructed then octetLeaf h input
  else parseSegmented (tagIs tagOctetString) [] (· ++ ·) octetLeaf OCTETSTRING_MAX_RECURSION
    h input

/-- `BerParser for OctetString`. -/
def octetBer : Parser Bytes := ⟨tagIs tagOctetString, octetContent⟩

/-- src/asn1_types/octetstring.rs:80-92 `DerParser for OctetString`. -/
def octetDer : Parser Bytes where
  acceptTag := tagIs tagOctetString
  content h input := do
    h.assertPrimitive input
    octetContent h input

/-- src/asn1_types/octetstring.rs:94-100 and 181-187 `check_constraints`. -/
def octetCheck (a : Any) : Except SErr Unit := assertPrimitiveS a.header

/-- src/asn1_types/octetstring.rs:124-141 and 196-213 `ToBer`/`ToDer` for `OctetString` and
`&[u8]`. -/
def octetToBer : ToBer Bytes where
  encoder := .primitive tagOctetString
  contentLen v := .definite v.length
  tagInfo _ := (.universal, false, tagOctetString)
  writeContent v := do
    Wr.writeAll v
    pure v.length

/-- src/asn1_types/octetstring.rs:148-166 `BerParser for &[u8]`. -/
def sliceContent (h : Header) (input : Input) : PRes Bytes :=
  if h.constructed then nomErr input .lifetimeError
  else do
    let (rem, data) ← input.takeSplit input.len
    pure (rem, data.data)

/-- `BerParser for &[u8]`. -/
def sliceBer : Parser Bytes := ⟨tagIs tagOctetString, sliceContent⟩

/-- src/asn1_types/octetstring.rs:168-180 `DerParser for &[u8]`. -/
def sliceDer : Parser Bytes where
  acceptTag := tagIs tagOctetString
  content h input := do
    h.assertPrimitive input
    sliceContent h input

/-! ### BIT STRING -/

/-- src/asn1_types/bitstring.rs:6 `BITSTRING_MAX_RECURSION`. -/
def BITSTRING_MAX_RECURSION : Nat := 5

/-- src/asn1_types/bitstring.rs:16-19 `BitString`: a `BitVec<u8, Msb0>` is its raw bytes and its
number of live bits, with `raw.length = ⌈nbits/8⌉`. (External crate `bitvec`: `truncate` only
changes the number of live bits and drops whole bytes.) -/
structure BitString where
  raw : Bytes
  nbits : Nat
  deriving DecidableEq, Repr

/-- The eight bits of a byte, most significant first (`Msb0`). -/
def byteBits (b : UInt8) : List Bool :=
  [b &&& 0x80 != 0, b &&& 0x40 != 0, b &&& 0x20 != 0, b &&& 0x10 != 0,
   b &&& 0x08 != 0, b &&& 0x04 != 0, b &&& 0x02 != 0, b &&& 0x01 != 0]

/-- src/asn1_types/bitstring.rs:57-59 `as_bitslice`: the live bits. -/
def BitString.bits (v : BitString) : List Bool := (v.raw.flatMap byteBits).take v.nbits

/-- One byte made of at most eight bits, most significant first; missing bits are zero. -/
def packByte (l : List Bool) : UInt8 :=
  (if l.getD 0 false then 0x80 else 0) ||| (if l.getD 1 false then 0x40 else 0) |||
  (if l.getD 2 false then 0x20 else 0) ||| (if l.getD 3 false then 0x10 else 0) |||
  (if l.getD 4 false then 0x08 else 0) ||| (if l.getD 5 false then 0x04 else 0) |||
  (if l.getD 6 false then 0x02 else 0) ||| (if l.getD 7 false then 0x01 else 0)

/-- The first `n` bytes packed from a list of bits. -/
def packN : Nat → List Bool → Bytes
  | 0, _ => []
  | n + 1, l => packByte (l.take 8) :: packN n (l.drop 8)

/-- src/asn1_types/bitstring.rs:80-85 `From<&BitSlice<u8, Msb0>>`, for a slice starting at a byte
boundary (external crate `bitvec`: the bits after the last one are zero). -/
def BitString.ofBits (l : List Bool) : BitString := ⟨packN ((l.length + 7) / 8) l, l.length⟩

/-- src/asn1_types/bitstring.rs:178-182 `append` (external `BitVec::append`): the live bits, one
list after the other. The accumulator of `parse_ber_segmented` starts empty, so that the bits
after the last one are zero. -/
def BitString.append (a b : BitString) : BitString := BitString.ofBits (a.bits ++ b.bits)

/-- `BitString::default()`. -/
def BitString.empty : BitString := ⟨[], 0⟩

/-- src/asn1_types/bitstring.rs:26-33 `BitString::new`. -/
def BitString.new (unused : UInt8) (s : Bytes) : Except SerErr BitString :=
  if unused.toNat < 8 ∧ unused.toNat < 8 * s.length then
    .ok ⟨s, 8 * s.length - unused.toNat⟩
  else .error .panic

/-- src/asn1_types/bitstring.rs:48-53 `is_set`. -/
def BitString.isSet (v : BitString) (n : Nat) : Bool := (v.bits[n]?).getD false

/-- src/asn1_types/bitstring.rs:16 derived `PartialEq`: the equality of `bitvec::vec::BitVec`, which
compares the live bits. -/
def BitString.eqv (a b : BitString) : Bool := a.bits == b.bits

/-- src/asn1_types/bitstring.rs:98-119: primitive content, `rem` being what follows it. -/
def bitPrimitive (rem data : Input) : PRes BitString :=
  match data.data with
  | [] => nomErr data .invalidLength
  | ignored :: bytes =>
    if ignored.toNat ≤ 7 then
      if ignored.toNat ≤ 8 * bytes.length then
        .ok (rem, ⟨bytes, 8 * bytes.length - ignored.toNat⟩)
      else nomErr data .invalidLength
    else nomErr data (.invalidValue tagBitString "Invalid unused bits")

/-- src/asn1_types/bitstring.rs:95-119: the branch for primitive headers. -/
def bitLeaf (h : Header) (input : Input) : PRes BitString := do
  let (rem, data) ← berGetContent h input
  bitPrimitive rem data

/-- src/asn1_types/bitstring.rs:87-126 `BerParser for BitString`. -/
def bitContent (h : Header) (input : Input) : PRes BitString :=
  if !h.constructed then bitLeaf h input
  else parseSegmented (tagIs tagBitString) BitString.empty BitString.append bitLeaf
    BITSTRING_MAX_RECURSION h input

/-- `BerParser for BitString`. -/
def bitBer : Parser BitString := ⟨tagIs tagBitString, bitContent⟩

/-- src/asn1_types/bitstring.rs:129-141 `DerParser for BitString`. -/
def bitDer : Parser BitString where
  acceptTag := tagIs tagBitString
  content h input := do
    h.assertPrimitive input
    bitContent h input

/-- Rust's `u8::trailing_zeros`. -/
def trailingZeros (b : UInt8) : Nat :=
  if b &&& 0x01 != 0 then 0 else if b &&& 0x02 != 0 then 1 else if b &&& 0x04 != 0 then 2
  else if b &&& 0x08 != 0 then 3 else if b &&& 0x10 != 0 then 4 else if b &&& 0x20 != 0 then 5
  else if b &&& 0x40 != 0 then 6 else if b &&& 0x80 != 0 then 7 else 8

/-- src/asn1_types/bitstring.rs:143-170 `check_constraints`. -/
def bitCheck (a : Any) : Except SErr Unit := do
  assertPrimitiveS a.header
  match a.data.data with
  | [] => .error (.error .invalidLength)
  | [s0] => if s0 = 0 then .ok () else .error (.error .invalidLength)
  | s0 :: s1 :: rest =>
    if trailingZeros ((s1 :: rest).getLastD 0) < s0.toNat then
      .error (.error (.derConstraintFailed .unusedBitsNotZero))
    else .ok ()

/-- src/asn1_types/bitstring.rs:188-212 `ToBer`/`ToDer` for `BitString`. -/
def bitToBer : ToBer BitString where
  encoder := .primitive tagBitString
  contentLen v := .definite (1 + (v.nbits + 7) / 8)
  tagInfo _ := (.universal, false, tagBitString)
  writeContent v := do
    Wr.writeAll [UInt8.ofNat (8 * v.raw.length - v.nbits)]
    Wr.writeAll v.raw
    pure (1 + v.raw.length)

end Asn1

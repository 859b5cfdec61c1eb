import Verif.Model.Error
/-!
# Headers: src/header.rs
-/
namespace Asn1

/-- src/header.rs:20-37 `Header`. -/
structure Header where
  cls : Class
  constructed : Bool
  tag : Nat
  length : Length
  rawTag : Option Bytes
  rawHeader : Option Input
  deriving DecidableEq, Repr

/-- src/header.rs:41-50 `Header::new`. -/
def Header.new (cls : Class) (constructed : Bool) (tag : Nat) (length : Length) : Header :=
  ⟨cls, constructed, tag, length, none, none⟩

/-- src/header.rs:585-595 `bytes_to_u64_g`: one step per byte, overflow test before shifting.
`u` is a `u64`; `u & 0xff00_0000_0000_0000 != 0` is `u ≥ 2^56`. -/
def bytesToU64 : Bytes → Nat → Option Nat
  | [], u => some u
  | c :: cs, u => if u ≥ 2 ^ 56 then none else bytesToU64 cs (u * 256 + c.toNat)

/-- src/header.rs:511-531: the loop reading the septets of a long-form tag.
`input` is the whole input (for the error), `c` the `u32` accumulator, `cnt` is
`tag_byte_count`. The fuel is the number of remaining bytes plus one. -/
def tagLoop (input : Input) : Nat → Input → Nat → Nat → Except PErr (Input × Nat × Nat)
  | 0, _, _, _ => .error .diverge
  | fuel + 1, rem, c, cnt =>
    match beU8 rem with
    | .error _ => nomErr input .invalidTag
    | .ok (r, b) =>
      if cnt > 5 then nomErr input .invalidTag
      else
        -- `c << 7` on `u32` drops high bits
        let c := (c * 128 % 2 ^ 32) + (b &&& 0x7f).toNat
        if b &&& 0x80 = 0 then .ok (r, c, cnt + 1)
        else tagLoop input fuel r c (cnt + 1)

/-- src/header.rs:503-533: tag number and number of identifier octets, `b0` being the first
one and `rem` what follows it. -/
def parseTag (input : Input) (b0 : UInt8) (rem : Input) : Except PErr (Input × Nat × Nat) :=
  let tag0 := b0 &&& 0x1f
  if tag0 = 0x1f then tagLoop input (rem.data.length + 1) rem 0 1
  else .ok (rem, tag0.toNat, 1)

/-- src/header.rs:541-572: the length octets after the first length byte `lenB0`. -/
def parseLength (input : Input) (constructed : Bool) (lenB0 : UInt8) (rem : Input) :
    PRes Length :=
  if lenB0 = 0x80 then
    if !constructed then nomErr input .indefiniteLengthUnexpected
    else .ok (rem, .indefinite)
  else if lenB0 &&& 0x80 = 0 then .ok (rem, .definite lenB0.toNat)
  else if lenB0 = 0xff then nomErr input .invalidLength
  else do
    let (r, lenBytes) ← takeS (lenB0 &&& 0x7f).toNat rem
    match bytesToU64 lenBytes.data 0 with
    -- `usize::try_from(u64)` cannot fail on 64-bit targets
    | some l => pure (r, .definite l)
    | none => nomErr input .invalidLength

/-- src/header.rs:482-581 `parse_header`. The subtraction of spans and the slicing of the raw
tag and raw header are explicit panics when out of range. -/
def parseHeader (input : Input) : PRes Header := do
  let (rem, b0) ← beU8 input
  match Class.tryFrom (b0 >>> 6) with
  | none => .error .panic -- unreachable!()
  | some cls =>
    let constructed : Bool := (b0 &&& 0x20) != 0
    let (rem, tag, tagByteCount) ← parseTag input b0 rem
    if tagByteCount > input.data.length then .error .panic
    else
      let rawTag := input.data.take tagByteCount
      let (rem, lenB0) ← beU8 rem
      let (rem, length) ← parseLength input constructed lenB0 rem
      if rem.start < input.start then .error .panic
      else
        let rawHeader ← input.take (rem.start - input.start)
        pure (rem, ⟨cls, constructed, tag, length, some rawTag, some rawHeader⟩)

/-- src/header.rs:351-363 `DerParser::parse_der` for `Header` (same as `from_der`, 378-389). -/
def parseHeaderDer (input : Input) : PRes Header := do
  let (rem, header) ← parseHeader input
  if !header.length.isDefinite then
    nomErr input (.derConstraintFailed .indefiniteLength)
  else pure (rem, header)

/-- src/header.rs:160-192 `assert_primitive*`. -/
def Header.assertPrimitive (h : Header) (input : Input) : Except PErr Unit :=
  if h.constructed then nomErr input .constructUnexpected else .ok ()

/-- src/header.rs:196-228 `assert_constructed*`. -/
def Header.assertConstructed (h : Header) (input : Input) : Except PErr Unit :=
  if !h.constructed then nomErr input .constructExpected else .ok ()

/-- src/header.rs:447-468 `PartialEq for Header`. `xor` of two options is `None` when both or
neither are present. -/
def Header.eq (a b : Header) : Bool :=
  a.cls = b.cls && a.tag = b.tag && a.constructed = b.constructed
  && (if a.length.isNull && b.length.isNull then a.length = b.length else true)
  && (if a.rawTag.isSome = b.rawTag.isSome then a.rawTag = b.rawTag else true)

/-- src/header.rs:472-480 `Hash for Header`: the tuple of values fed to the hasher. -/
def Header.hashKey (h : Header) : Class × Bool × Nat × Length × Option Bytes :=
  (h.cls, h.constructed, h.tag, h.length, h.rawTag)

/-- src/header.rs:304-320 `to_static`: the raw header, which is a part of the input, is not kept. -/
def Header.toStatic (h : Header) : Header := ⟨h.cls, h.constructed, h.tag, h.length, h.rawTag, none⟩

end Asn1

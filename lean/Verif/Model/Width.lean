import Verif.Model.Derive
import Verif.Model.CharStrings
/-!
# Targets whose `usize` has `w` bits

The other modules take `usize` to have 64 bits. Here are the functions whose code depends on it: a length that does not
fit `usize` is an error (src/header.rs:566-567). Everything else is the same code over these functions.
-/
namespace Asn1

/-- src/header.rs:541-572, with `usize::try_from` of 566-567 for a `usize` of `w` bits. -/
def parseLengthW (w : Nat) (input : Input) (constructed : Bool) (lenB0 : UInt8) (rem : Input) :
    PRes Length :=
  if lenB0 = 0x80 then
    if !constructed then nomErr input .indefiniteLengthUnexpected
    else .ok (rem, .indefinite)
  else if lenB0 &&& 0x80 = 0 then .ok (rem, .definite lenB0.toNat)
  else if lenB0 = 0xff then nomErr input .invalidLength
  else do
    let (r, lenBytes) ← takeS (lenB0 &&& 0x7f).toNat rem
    match bytesToU64 lenBytes.data 0 with
    | some l => if l < 2 ^ w then pure (r, .definite l) else nomErr input .invalidLength
    | none => nomErr input .invalidLength

/-- src/header.rs:482-581 `parse_header`. -/
def parseHeaderW (w : Nat) (input : Input) : PRes Header := do
  let (rem, b0) ← beU8 input
  match Class.tryFrom (b0 >>> 6) with
  | none => .error .panic -- unreachable!()
  | some cls =>
    let constructed : Bool := (b0 &&& 0x20) != 0
    let (rem, tag, tagByteCount) ← parseTag input b0 rem
    if tagByteCount > input.data.length then .error .panic
    else
      let rawTag := input.data.take tagByteCount
      let (rem, lenB0) ← beU8 rem
      let (rem, length) ← parseLengthW w input constructed lenB0 rem
      if rem.start < input.start then .error .panic
      else
        let rawHeader ← input.take (rem.start - input.start)
        pure (rem, ⟨cls, constructed, tag, length, some rawTag, some rawHeader⟩)

/-- src/header.rs:351-363 `DerParser::parse_der` for `Header`. -/
def parseHeaderDerW (w : Nat) (input : Input) : PRes Header := do
  let (rem, header) ← parseHeaderW w input
  if !header.length.isDefinite then
    nomErr input (.derConstraintFailed .indefiniteLength)
  else pure (rem, header)

/-- src/ber/parser.rs:107-116: the loop of `ber_skip_object_content`. -/
def skipLoopW (w : Nat) (skip : Input → Header → PRes Bool) : Nat → Input → PRes Bool
  | 0, _ => .error .diverge
  | fuel + 1, i => do
    let (i2, header2) ← parseHeaderW w i
    let (i3, eoc) ← skip i2 header2
    if eoc then pure (i3, false) else skipLoopW w skip fuel i3

/-- src/ber/parser.rs:86-119 `ber_skip_object_content`. -/
def skipContentW (w : Nat) : Nat → Input → Header → PRes Bool
  | 0, i, _ => nomErr i .berMaxDepth
  | d + 1, i, hdr =>
    match hdr.length with
    | .definite l =>
      if l = 0 ∧ hdr.tag = tagEndOfContent then .ok (i, true)
      else do
        let (i, _) ← takeS l i
        pure (i, false)
    | .indefinite => do
      hdr.assertConstructed i
      skipLoopW w (fun i h => skipContentW w d i h) (i.data.length + 1) i

/-- src/ber/parser.rs:24-42 `BerMode::get_object_content`. -/
def berContentW (w : Nat) (hdr : Header) (i0 : Input) (maxDepth : Nat) : PRes Input := do
  let (i, _) ← skipContentW w maxDepth i0 hdr
  if i.start < i0.start then .error .panic
  else
    let len := i.start - i0.start
    if hdr.length.isDefinite then i0.takeSplit len
    else if len < 2 then .error .panic
    else do
      let content ← i0.take (len - 2)
      pure (i, content)

/-- src/asn1_types/any.rs:467-474 `parse_ber_any`. -/
def parseBerAnyW (w : Nat) (input : Input) : PRes Any := do
  let (i, header) ← parseHeaderW w input
  let (i, data) ← berContentW w header i MAX_RECURSION
  pure (i, ⟨header, data⟩)

/-- src/asn1_types/any.rs:476-487 `parse_der_any`. -/
def parseDerAnyW (w : Nat) (input : Input) : PRes Any := do
  let (i, header) ← parseHeaderDerW w input
  if !header.length.isDefinite then nomErr input .indefiniteLengthUnexpected
  else do
    let (i, data) ← derContent header i
    pure (i, ⟨header, data⟩)

/-- src/from_ber.rs:98-116 `BerParser::parse_ber`. -/
def Parser.parseBerW (w : Nat) (p : Parser α) (input : Input) : PRes α := do
  let (rem, header) ← parseHeaderW w input
  if !p.acceptTag header.tag then nomErr input (.unexpectedTag none header.tag)
  else do
    let (rem, data) ← berContentW w header rem MAX_RECURSION
    let (_, obj) ← p.content header data
    pure (rem, obj)

/-- src/from_der.rs:140-162 `DerParser::parse_der`. -/
def Parser.parseDerW (w : Nat) (p : Parser α) (input : Input) : PRes α := do
  let (rem, header) ← parseHeaderDerW w input
  let length ← definiteInner header.length input
  if !p.acceptTag header.tag then nomErr input (.unexpectedTag none header.tag)
  else do
    let (rem, data) ← takeS length rem
    let (_, obj) ← p.content header data
    pure (rem, obj)

/-- `Header::parse_ber` or `Header::parse_der`. -/
def Rules.headerW (w : Nat) : Rules → Input → PRes Header
  | .ber => parseHeaderW w
  | .der => parseHeaderDerW w

/-- `T::parse_ber` or `T::parse_der`. -/
def Rules.parseW (w : Nat) (m : Rules) (p : Parser α) : Input → PRes α :=
  match m with
  | .ber => p.parseBerW w
  | .der => p.parseDerW w

/-- `Any::parse_ber` or `Any::parse_der`. -/
def Rules.anyW (w : Nat) : Rules → Input → PRes Any
  | .ber => parseBerAnyW w
  | .der => parseDerAnyW w

/-- `Any::parse_ber` and `Any::parse_der` through the provided methods (src/from_ber.rs:98-116, src/from_der.rs:140-162). -/
def Rules.anyParseW (w : Nat) : Rules → Input → PRes Any
  | .ber => anyBer.parseBerW w
  | .der => anyDer.parseDerW w

/-- src/asn1_types/optional.rs:64-76 and 106-118 `from_ber_content` and `from_der_content` of `Option<T>`. -/
def optionContentW (w : Nat) (p : Parser α) (h : Header) (input : Input) : PRes (Option α) :=
  if !p.acceptTag h.tag then .ok (input, none)
  else do
    let (rem, data) ← berContentW w h input MAX_RECURSION
    let (_, obj) ← p.content h data
    pure (rem, some obj)

/-- src/asn1_types/optional.rs:40-62 and 83-104 `parse_ber` and `parse_der` of `Option<T>`. -/
def optionParseW (w : Nat) (m : Rules) (p : Parser α) (input : Input) : PRes (Option α) :=
  if input.isEmpty then .ok (input, none)
  else do
    let (rem, h) ← m.headerW w input
    if !p.acceptTag h.tag then .ok (input, none)
    else do
      let (rem, data) ← berContentW w h rem MAX_RECURSION
      let (_, obj) ← optionContentW w p h data
      pure (rem, obj)

/-- derive/src/container.rs:999-1009. -/
def taggedFieldW (w : Nat) (m : Rules) (p : Parser (TaggedValue α)) (rem : Input) : PRes α := do
  let (rem, t) ← m.parseW w p rem
  pure (rem, t.inner)

/-- derive/src/container.rs:972-993: a field that is tagged and optional. -/
def optTaggedFieldW (w : Nat) (m : Rules) (tag : Nat) (p : Parser (TaggedValue α)) (rem : Input) :
    PRes (Option α) :=
  if rem.isEmpty then .ok (rem, none)
  else do
    let (_, h) ← m.headerW w rem
    if h.tag = tag then do
      let (rem, t) ← m.parseW w p rem
      pure (rem, some t.inner)
    else pure (rem, none)

/-- 972-993 if tagged, `Option<T>::parse_ber` (1013-1017) if not. -/
def optionalFieldW (w : Nat) (m : Rules) (tag : FieldTag) (p : Parser α) : Input → PRes (Option α) :=
  match tag with
  | .untagged => optionParseW w m p
  | .explicit cls n => optTaggedFieldW w m n (explicitP cls n (m.parseW w p))
  | .implicit cls n => optTaggedFieldW w m n (implicitP cls n p)

/-- 999-1009 if tagged, `T::parse_ber` (1013-1017) if not. -/
def requiredFieldW (w : Nat) (m : Rules) (tag : FieldTag) (p : Parser α) : Input → PRes α :=
  match tag with
  | .untagged => m.parseW w p
  | .explicit cls n => taggedFieldW w m (explicitP cls n (m.parseW w p))
  | .implicit cls n => taggedFieldW w m (implicitP cls n p)

/-- derive/src/container.rs:934-1020 `get_field_berparser`. -/
def Field.parseW (w : Nat) (m : Rules) : {T : Type} → Field T → Input → PRes T
  | _, .required tag p, rem => requiredFieldW w m tag p rem
  | _, .optional tag p, rem => optionalFieldW w m tag p rem
  | _, .default tag p x, rem => do
    let (rem, v) ← optionalFieldW w m tag p rem
    pure (rem, v.getD x)
  | _, .custom f, rem => f rem

/-- derive/src/container.rs:912-921 `derive_berparser_sequence_content`. -/
def Fields.fnsW (w : Nat) (m : Rules) : {Ts : List Type} → Fields Ts → TupFns Ts
  | _, .nil => .nil
  | _, .cons f fs => .cons (f.parseW w m) (fs.fnsW w m)

/-- derive/src/container.rs:264-388 `gen_berparser`. -/
def structW (w : Nat) (m : Rules) (tag : Nat) {Ts : List Type} (fs : Fields Ts) : Parser (Tup Ts) where
  acceptTag := tagIs tag
  content h input := do
    h.assertConstructed input
    (fs.fnsW w m).run input

/-! ### Strings, which may be constructed in BER -/

/-- src/ber/appendable.rs:33-38: the content of a constructed string. -/
def segContentW (w : Nat) (h : Header) (input : Input) : PRes Input :=
  if h.length.isDefinite then berContentW w h input MAX_RECURSION else input.takeSplit input.len

/-- src/ber/appendable.rs:18-67 `parse_ber_segmented`. -/
def parseSegmentedW (w : Nat) (acceptTag : Nat → Bool) (empty : α) (append : α → α → α)
    (leaf : Header → Input → PRes α) : Nat → Header → Input → PRes α
  | 0, _, input => nomErr input .berMaxDepth
  | limit + 1, h, input =>
    if input.isEmpty then nomErr input .invalidLength
    else if h.constructed then do
      let (rem, data) ← segContentW w h input
      let (_, v) ← forIter (anyBer.parseBerW w)
        (segStep acceptTag append
          (fun h i => parseSegmentedW w acceptTag empty append leaf limit h i))
        (data.len + 1) (AnyIter.new data) empty
      pure (rem, v)
    else do
      let (rem, data) ← berContentW w h input MAX_RECURSION
      let (_, t) ← leaf h data
      pure (rem, t)

/-- src/asn1_types/octetstring.rs:57-78 `BerParser for OctetString`. -/
def octetBerW (w : Nat) : Parser Bytes where
  acceptTag := tagIs tagOctetString
  content h input :=
    if !h.constructed then octetLeaf h input
    else parseSegmentedW w (tagIs tagOctetString) [] (· ++ ·) octetLeaf OCTETSTRING_MAX_RECURSION h input

/-- src/asn1_types/bitstring.rs:87-126 `BerParser for BitString`. -/
def bitBerW (w : Nat) : Parser BitString where
  acceptTag := tagIs tagBitString
  content h input :=
    if !h.constructed then bitLeaf h input
    else parseSegmentedW w (tagIs tagBitString) BitString.empty BitString.append bitLeaf BITSTRING_MAX_RECURSION h input

/-- src/asn1_types/strings.rs:113-127: the bytes of the string. -/
def strBytesW (w : Nat) (h : Header) (input : Input) : PRes Bytes :=
  if !h.constructed then do
    let (rem, data) ← input.takeSplit input.len
    pure (rem, data.data)
  else parseSegmentedW w (tagIs tagOctetString) [] (· ++ ·) octetLeaf OCTETSTRING_MAX_RECURSION h input

/-- src/asn1_types/strings.rs:109-148: `BerParser` of the string types, and of `String`
(src/asn1_types/strings/string.rs:16-28). -/
def strBerW (w : Nat) (tag : Nat) (k : StrKind) : Parser Text where
  acceptTag := tagIs tag
  content h input := do
    let (rem, data) ← strBytesW w h input
    strOfBytes k rem data

/-- src/asn1_types/strings/bmpstring.rs:63-72 and universalstring.rs:63-72: the bytes of the string. -/
def wideBytesW (w : Nat) (h : Header) (input : Input) : PRes Bytes :=
  if h.constructed then do
    let (rem, data) ← input.takeSplit input.len
    pure (rem, data.data)
  else parseSegmentedW w (tagIs tagOctetString) [] (· ++ ·) octetLeaf OCTETSTRING_MAX_RECURSION h input

/-- src/asn1_types/strings/bmpstring.rs:55-90 `BerParser for BmpString`. -/
def bmpBerW (w : Nat) : Parser Text where
  acceptTag := tagIs 30
  content h input := do
    let (rem, data) ← wideBytesW w h input
    bmpOfBytes rem data

/-- src/asn1_types/strings/universalstring.rs:55-102 `BerParser for UniversalString`. -/
def univBerW (w : Nat) : Parser Text where
  acceptTag := tagIs 28
  content h input := do
    let (rem, data) ← wideBytesW w h input
    univOfBytes rem data

/-! ### CHOICE -/

/-- derive/src/choice.rs:211-232 and 265-273 (tagged), 298-313 and 341-347 (untagged). -/
def variantContentW (w : Nat) {T : Type} (m : Rules) (k : ChoiceKind) (p : Parser T) (h : Header) (input : Input) :
    PRes T :=
  match k with
  | .explicit => m.parseW w p input
  | .implicit => p.content h input
  | .untagged => p.content h input

/-- derive/src/choice.rs:211-232 and 265-273 (tagged), 298-313 and 341-347 (untagged): the branches. -/
def Variants.contentW (w : Nat) (m : Rules) (k : ChoiceKind) :
    {Ts : List Type} → Variants Ts → Header → Input → PRes (HSum Ts)
  | _, .nil, h, input => nomErr input (.unexpectedTag none h.tag)
  | _, .cons t p vs, h, input =>
    if variantAccept k t p h.tag = true then do
      let (rem, x) ← variantContentW w m k p h input
      pure (rem, .inl x)
    else do
      let (rem, x) ← vs.contentW w m k h input
      pure (rem, .inr x)

/-- derive/src/choice.rs:188-278 (tagged) and 280-350 (untagged): `from_ber_content` and `from_der_content`. -/
def choiceW (w : Nat) (m : Rules) (k : ChoiceKind) {Ts : List Type} (vs : Variants Ts) : Parser (HSum Ts) where
  acceptTag := vs.accept k
  content h input :=
    match k with
    | .explicit => do
      h.assertConstructed input
      vs.contentW w m k h input
    | _ => vs.contentW w m k h input

/-! ### Byte slices -/

/-- src/from_ber.rs:59-77: `FromBer` for types with `TryFrom<Any>`. -/
def fromBerW (w : Nat) (p : Parser α) (bytes : Bytes) : Except SErr (Bytes × α) := do
  let (i, any) ← wrapBerParser (parseBerAnyW w) bytes
  let result ← tryFromAny p any
  pure (i, result)

/-- src/from_der.rs:93-114: `FromDer` for types with `TryFrom<Any>`, `CheckDerConstraints` and `DerAutoDerive`. -/
def fromDerW (w : Nat) (p : Parser α) (check : Any → Except SErr Unit) (bytes : Bytes) :
    Except SErr (Bytes × α) := do
  let (i, any) ← wrapBerParser (parseDerAnyW w) bytes
  check any
  let result ← tryFromAny p any
  pure (i, result)

end Asn1

import Verif.Model.CharStrings
import Verif.Model.Containers
import Verif.Model.Oid
import Verif.Model.Integer
import Verif.Model.Simple
/-!
# Shared and owned content: the `Cow`s inside decoded values

src/asn1_types/{octetstring,integer,oid,sequence,set,strings}.rs and strings/str.rs.

The other files model the values of these types; here the decoders are modelled again with the variant
of their `Cow`. A reference into the input is the range of the input it points to (`Input` has the
positions of its bytes).
-/
namespace Asn1

/-- `Cow<'a, [u8]>`: a reference into the input, or bytes of its own. -/
inductive Cow where
  | borrowed (range : Input)
  | owned (bytes : Bytes)
  deriving DecidableEq, Repr

/-- The bytes (`AsRef`, `Deref`): src/asn1_types/octetstring.rs:41-45, integer.rs:464-468. -/
def Cow.bytes : Cow → Bytes
  | .borrowed i => i.data
  | .owned bs => bs

/-- src/asn1_types/integer.rs:386-391, sequence.rs:106-111, set.rs:103-108 `as_raw_slice`: the reference
that outlives the value. -/
def Cow.asRawSlice : Cow → Option Input
  | .borrowed i => some i
  | .owned _ => none

/-- src/asn1_types/octetstring.rs:107-118 `append`. -/
def Cow.append (a b : Cow) : Cow :=
  match a with
  | .borrowed i => .owned (i.data ++ b.bytes)
  | .owned bs => .owned (bs ++ b.bytes)

/-- `OctetString::default()` (src/asn1_types/octetstring.rs:18, derived): `Cow::default()` is owned. -/
def Cow.empty : Cow := .owned []

/-- src/asn1_types/octetstring.rs:65-73: primitive content. -/
def octetCowLeaf (_ : Header) (input : Input) : PRes Cow := do
  let (rem, data) ← input.takeSplit input.len
  pure (rem, .borrowed data)

/-- src/asn1_types/octetstring.rs:57-78 `BerParser for OctetString`. -/
def octetCowContent (h : Header) (input : Input) : PRes Cow :=
  if !h.constructed then octetCowLeaf h input
  else parseSegmented (tagIs tagOctetString) Cow.empty Cow.append octetCowLeaf
    OCTETSTRING_MAX_RECURSION h input

/-- `BerParser for OctetString`. -/
def octetCowBer : Parser Cow := ⟨tagIs tagOctetString, octetCowContent⟩

/-- src/asn1_types/octetstring.rs:80-92 `DerParser for OctetString`. -/
def octetCowDer : Parser Cow where
  acceptTag := tagIs tagOctetString
  content h input := do
    h.assertPrimitive input
    octetCowContent h input

/-- src/asn1_types/octetstring.rs:148-166 `BerParser for &[u8]`: the slice. -/
def sliceRefContent (h : Header) (input : Input) : PRes Input :=
  if h.constructed then nomErr input .lifetimeError
  else input.takeSplit input.len

/-- `BerParser for &[u8]`. -/
def sliceRefBer : Parser Input := ⟨tagIs tagOctetString, sliceRefContent⟩

/-- src/asn1_types/octetstring.rs:168-180 `DerParser for &[u8]`. -/
def sliceRefDer : Parser Input where
  acceptTag := tagIs tagOctetString
  content h input := do
    h.assertPrimitive input
    sliceRefContent h input

/-- `Cow<'a, str>` (src/asn1_types/strings.rs:56-58): the text, and the range of the input if it is
borrowed. -/
structure StrCow where
  text : Text
  range : Option Input
  deriving DecidableEq, Repr

/-- src/asn1_types/strings.rs:76-83 `as_raw_str`. -/
def StrCow.asRawStr (s : StrCow) : Option Input := s.range

/-- src/asn1_types/strings.rs:62-66 `new` and 93-97 `From<&str>`: borrowed from the argument (`range`).
-/
def StrCow.new (text : Text) (range : Input) : StrCow := ⟨text, some range⟩

/-- src/asn1_types/strings.rs:99-105 `From<String>`. -/
def StrCow.ofString (text : Text) : StrCow := ⟨text, none⟩

/-- src/asn1_types/strings.rs:112-127: the bytes of the string. -/
def strCowBytes (h : Header) (input : Input) : PRes Cow :=
  if !h.constructed then do
    let (rem, data) ← input.takeSplit input.len
    pure (rem, .borrowed data)
  else parseSegmented (tagIs tagOctetString) Cow.empty Cow.append octetCowLeaf
    OCTETSTRING_MAX_RECURSION h input

/-- src/asn1_types/strings.rs:129-147: charset test, then UTF-8 of the borrowed or owned bytes. -/
def strCowOfBytes (k : StrKind) (rem : Input) (data : Cow) : PRes StrCow :=
  match k.testValidCharset data.bytes with
  | .error e => nomErr rem (.ofError e)
  | .ok () =>
    match data with
    | .borrowed i =>
      match fromUtf8 i.data with
      | some s => .ok (rem, ⟨s, some i⟩)
      | none => nomErr rem .stringInvalidCharset
    | .owned bs =>
      match fromUtf8 bs with
      | some s => .ok (rem, ⟨s, none⟩)
      | none => nomErr rem .stringInvalidCharset

/-- src/asn1_types/strings.rs:109-148 `from_ber_content`. -/
def strCowContent (k : StrKind) (h : Header) (input : Input) : PRes StrCow := do
  let (rem, data) ← strCowBytes h input
  strCowOfBytes k rem data

/-- `BerParser` of the string types. -/
def strCowBer (k : StrKind) : Parser StrCow := ⟨tagIs k.tag, strCowContent k⟩

/-- src/asn1_types/strings.rs:151-162 `DerParser`. -/
def strCowDer (k : StrKind) : Parser StrCow where
  acceptTag := tagIs k.tag
  content h input := do
    h.assertPrimitive input
    strCowContent k h input

/-- src/asn1_types/strings/str.rs:26-37 and 51-58: the text with the slice it refers to. -/
def utf8WholeRef (input : Input) : PRes (Text × Input) := do
  let (rem, data) ← input.takeSplit input.len
  match fromUtf8 data.data with
  | some s => .ok (rem, (s, data))
  | none => nomErr rem .stringInvalidCharset

/-- src/asn1_types/strings/str.rs:14-38 `BerParser for &str`. -/
def strRefBer : Parser (Text × Input) where
  acceptTag := tagIs 12
  content h input := if h.constructed then nomErr input .lifetimeError else utf8WholeRef input

/-- src/asn1_types/strings/str.rs:40-60 `DerParser for &str`. -/
def strRefDer : Parser (Text × Input) where
  acceptTag := tagIs 12
  content h input := do
    h.assertPrimitive input
    utf8WholeRef input

/-- src/asn1_types/integer.rs:558-582 `BerParser for Integer`. -/
def integerCowContent (h : Header) (input : Input) : PRes Cow := do
  h.assertPrimitive input
  let (rem, content) ← derContent h input
  if content.isEmpty then nomErr content .invalidLength
  else pure (rem, .borrowed content)

/-- `BerParser for Integer`. -/
def integerCowBer : Parser Cow := ⟨tagIs tagInteger, integerCowContent⟩

/-- src/asn1_types/integer.rs:588-597 `DerParser for Integer`. -/
def integerCowDer : Parser Cow where
  acceptTag := tagIs tagInteger
  content h input := do
    checkDerIntInput input
    integerCowContent h input

/-- src/asn1_types/oid.rs:49-63 `BerParser for Oid` (66-76 `DerParser` is the same): `into_cow`. -/
def oidCowContent (h : Header) (input : Input) : PRes Cow := do
  h.assertPrimitive input
  if input.isEmpty then nomErr input .invalidLength
  else do
    let (rem, data) ← input.takeSplit input.len
    pure (rem, .borrowed data)

/-- `BerParser for Oid` and `DerParser for Oid`. -/
def oidCowP : Parser Cow := ⟨fun t => tagIs tagOid t || tagIs tagRelativeOid t, oidCowContent⟩

/-- src/asn1_types/sequence.rs:403-445 (tag 16) and set.rs:386-428 (tag 17) `BerParser` and
`DerParser`. -/
def rawCowP (tag : Nat) : Parser Cow where
  acceptTag := tagIs tag
  content h input := do
    h.assertConstructed input
    let (rem, data) ← input.takeSplit input.len
    pure (rem, .borrowed data)

end Asn1

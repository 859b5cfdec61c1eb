import Verif.Model.Strings
import Verif.Model.Time
import Verif.Model.Text
/-!
# Character strings

src/asn1_types/strings.rs (macro `asn1_string!`), src/asn1_types/strings/*.rs,
src/asn1_types/object_descriptor.rs, src/asn1_types/any.rs:408-464.

The difference between borrowed and owned texts (`Cow`, `as_raw_str`) is in Model/Sharing.
-/
namespace Asn1

/-- What distinguishes two types made by `asn1_string!`: the tag and `test_valid_charset`. -/
structure StrKind where
  tag : Nat
  testValidCharset : Bytes → Except Error Unit

/-- `if !i.iter().all(f) { return Err(StringInvalidCharset) }; Ok(())`. -/
def allBytes (f : UInt8 → Bool) (i : Bytes) : Except Error Unit :=
  if !i.all f then .error .stringInvalidCharset else .ok ()

/-- Rust's `u8::is_ascii`. -/
def isAscii (b : UInt8) : Bool := decide (b.toNat < 0x80)

/-- src/asn1_types/strings/numericstring.rs:11-13. -/
def isNumeric (b : UInt8) : Bool := (0x30 ≤ b && b ≤ 0x39) || b == 0x20

/-- src/asn1_types/strings/printablestring.rs:12-28. -/
def isPrintable (b : UInt8) : Bool :=
  (0x61 ≤ b && b ≤ 0x7a) || (0x41 ≤ b && b ≤ 0x5a) || (0x30 ≤ b && b ≤ 0x39) || b == 0x20 ||
  b == 0x27 || b == 0x28 || b == 0x29 || b == 0x2b || b == 0x2c || b == 0x2d || b == 0x2e ||
  b == 0x2f || b == 0x3a || b == 0x3d || b == 0x3f

/-- src/asn1_types/strings/visiblestring.rs:11-13, teletexstring.rs:11-13,
videotexstring.rs:11-14. -/
def isVisibleChar (b : UInt8) : Bool := 0x20 ≤ b && b ≤ 0x7f

/-- src/asn1_types/strings/utf8string.rs:9-14. -/
def utf8StringK : StrKind where
  tag := 12
  testValidCharset i := match fromUtf8 i with | some _ => .ok () | none => .error .stringInvalidCharset
/-- src/asn1_types/strings/numericstring.rs:8-19. -/
def numericStringK : StrKind := ⟨18, allBytes isNumeric⟩
/-- src/asn1_types/strings/printablestring.rs:8-36. -/
def printableStringK : StrKind := ⟨19, allBytes isPrintable⟩
/-- src/asn1_types/strings/teletexstring.rs:8-19. -/
def teletexStringK : StrKind := ⟨20, allBytes isVisibleChar⟩
/-- src/asn1_types/strings/videotexstring.rs:8-20. -/
def videotexStringK : StrKind := ⟨21, allBytes isVisibleChar⟩
/-- src/asn1_types/strings/ia5string.rs:8-15. -/
def ia5StringK : StrKind := ⟨22, allBytes isAscii⟩
/-- src/asn1_types/strings/graphicstring.rs:8-15. -/
def graphicStringK : StrKind := ⟨25, allBytes isAscii⟩
/-- src/asn1_types/strings/visiblestring.rs:8-19. -/
def visibleStringK : StrKind := ⟨26, allBytes isVisibleChar⟩
/-- src/asn1_types/strings/generalstring.rs:8-15. -/
def generalStringK : StrKind := ⟨27, allBytes isAscii⟩
/-- src/asn1_types/object_descriptor.rs:11-18. -/
def objectDescriptorK : StrKind := ⟨7, allBytes isAscii⟩

/-- src/asn1_types/strings.rs:113-127: the bytes of the string. The segments of a constructed string
are OCTET STRINGs (X.690 8.23.6 NOTE; in fact any object with tag number 4). -/
def strBytes (h : Header) (input : Input) : PRes Bytes :=
  if !h.constructed then do
    let (rem, data) ← input.takeSplit input.len
    pure (rem, data.data)
  else parseSegmented (tagIs tagOctetString) [] (· ++ ·) octetLeaf OCTETSTRING_MAX_RECURSION h input

/-- src/asn1_types/strings.rs:129-147: charset test, then UTF-8. -/
def strOfBytes (k : StrKind) (rem : Input) (data : Bytes) : PRes Text :=
  match k.testValidCharset data with
  | .error e => nomErr rem (.ofError e)
  | .ok () =>
    match fromUtf8 data with
    | some s => .ok (rem, s)
    | none => nomErr rem .stringInvalidCharset

/-- src/asn1_types/strings.rs:109-148 `from_ber_content`. -/
def strBerContent (k : StrKind) (h : Header) (input : Input) : PRes Text := do
  let (rem, data) ← strBytes h input
  strOfBytes k rem data

/-- `BerParser` of the string types. -/
def strBer (k : StrKind) : Parser Text := ⟨tagIs k.tag, strBerContent k⟩

/-- src/asn1_types/strings.rs:151-162 `DerParser`. -/
def strDer (k : StrKind) : Parser Text where
  acceptTag := tagIs k.tag
  content h input := do
    h.assertPrimitive input
    strBerContent k h input

/-- src/asn1_types/strings.rs:164-169 `check_constraints`. -/
def strCheck (a : Any) : Except SErr Unit := assertPrimitiveS a.header

/-- src/asn1_types/strings.rs:177-214 `ToBer`/`ToDer`. -/
def strToBer (tag : Nat) : ToBer Text where
  encoder := .primitive tag
  contentLen s := .definite (Text.byteLen s)
  tagInfo _ := (.universal, false, tag)
  writeContent s := do
    Wr.writeAll (Text.utf8 s)
    pure (Text.byteLen s)

/-! ### `&str` and `String` -/

/-- src/asn1_types/strings/str.rs:26-37, 51-58, string.rs:40-48: UTF-8 of the whole content. -/
def utf8Whole (input : Input) : PRes Text := do
  let (rem, data) ← input.takeSplit input.len
  match fromUtf8 data.data with
  | some s => .ok (rem, s)
  | none => nomErr rem .stringInvalidCharset

/-- src/asn1_types/strings/str.rs:14-38 `BerParser for &str`. -/
def refStrBer : Parser Text where
  acceptTag := tagIs 12
  content h input := if h.constructed then nomErr input .lifetimeError else utf8Whole input

/-- src/asn1_types/strings/str.rs:40-60 and string.rs:30-50: `DerParser` for `&str` and `String`. -/
def refStrDer : Parser Text where
  acceptTag := tagIs 12
  content h input := do
    h.assertPrimitive input
    utf8Whole input

/-- src/asn1_types/strings/string.rs:16-28 `BerParser for String`. -/
def stringBer : Parser Text := ⟨tagIs 12, strBerContent utf8StringK⟩

/-! ### BMPString -/

/-- src/asn1_types/strings/bmpstring.rs:63-72 and universalstring.rs:63-72: the bytes of the string.
As in the code, a constructed string is taken as it is, segment headers included, and a primitive one
goes through `parse_ber_segmented`. -/
def wideBytes (h : Header) (input : Input) : PRes Bytes :=
  if h.constructed then do
    let (rem, data) ← input.takeSplit input.len
    pure (rem, data.data)
  else parseSegmented (tagIs tagOctetString) [] (· ++ ·) octetLeaf OCTETSTRING_MAX_RECURSION h input

/-- src/asn1_types/strings/bmpstring.rs:75-83: `chunks(2)`; an odd last byte is a unit. -/
def units16 : Bytes → List Nat
  | [] => []
  | [a] => [a.toNat]
  | a :: b :: r => (a.toNat * 256 + b.toNat) :: units16 r

/-- src/asn1_types/strings/bmpstring.rs:85-89. -/
def bmpOfBytes (rem : Input) (data : Bytes) : PRes Text :=
  match fromUtf16 (units16 data) with
  | some s => .ok (rem, s)
  | none => nomErr rem .stringInvalidCharset

/-- src/asn1_types/strings/bmpstring.rs:55-90 `from_ber_content`. -/
def bmpBerContent (h : Header) (input : Input) : PRes Text := do
  let (rem, data) ← wideBytes h input
  bmpOfBytes rem data

/-- `BerParser for BmpString`. -/
def bmpBer : Parser Text := ⟨tagIs 30, bmpBerContent⟩

/-- src/asn1_types/strings/bmpstring.rs:92-104 `DerParser for BmpString`. -/
def bmpDer : Parser Text where
  acceptTag := tagIs 30
  content h input := do
    h.assertPrimitive input
    bmpBerContent h input

/-- src/asn1_types/strings/bmpstring.rs:119-132 `TestValidCharset for BmpString` (used by no
parser): `decode_utf16` fails on the same units as `from_utf16`. -/
def bmpTestValidCharset (i : Bytes) : Except Error Unit :=
  if i.length % 2 ≠ 0 then .error .stringInvalidCharset
  else
    match fromUtf16 (units16 i) with
    | some _ => .ok ()
    | none => .error .stringInvalidCharset

/-- src/asn1_types/strings/bmpstring.rs:148-152: the units, high byte first. -/
def unitBytes (us : List Nat) : Bytes := us.flatMap fun u => [UInt8.ofNat (u / 256), UInt8.ofNat (u % 256)]

/-- src/asn1_types/strings/bmpstring.rs:138-162 `ToBer for BmpString` (`ToDer` is the same). -/
def bmpToBer : ToBer Text where
  encoder := .primitive 30
  contentLen s := .definite ((Text.utf16 s).length * 2)
  tagInfo _ := (.universal, false, 30)
  writeContent s := do
    Wr.writeAll (unitBytes (Text.utf16 s))
    pure (unitBytes (Text.utf16 s)).length

/-! ### UniversalString -/

/-- src/asn1_types/strings/universalstring.rs:81-96: `chunks(4)`, `char::from_u32`. The number of
bytes is a multiple of four, so the case of a shorter chunk (`unreachable!()`) is an error here. -/
def chars32 : Bytes → Except Unit (Option Text)
  | [] => .ok (some [])
  | a :: b :: c :: d :: r =>
    match chars32 r with
    | .ok rest => .ok ((charFromU32 (((a.toNat * 256 + b.toNat) * 256 + c.toNat) * 256 + d.toNat)).bind
        fun ch => rest.map (ch :: ·))
    | .error e => .error e
  | _ => .error ()

/-- src/asn1_types/strings/universalstring.rs:74-101. -/
def univOfBytes (rem : Input) (data : Bytes) : PRes Text :=
  if data.length % 4 ≠ 0 then nomErr rem .stringInvalidCharset
  else
    match chars32 data with
    | .error _ => .error .panic
    | .ok none => nomErr rem .stringInvalidCharset
    | .ok (some s) => .ok (rem, s)

/-- src/asn1_types/strings/universalstring.rs:55-102 `from_ber_content`. -/
def univBerContent (h : Header) (input : Input) : PRes Text := do
  let (rem, data) ← wideBytes h input
  univOfBytes rem data

/-- `BerParser for UniversalString`. -/
def univBer : Parser Text := ⟨tagIs 28, univBerContent⟩

/-- src/asn1_types/strings/universalstring.rs:104-116 `DerParser for UniversalString`. -/
def univDer : Parser Text where
  acceptTag := tagIs 28
  content h input := do
    h.assertPrimitive input
    univBerContent h input

/-- Rust's `u32::to_be_bytes`. -/
def beBytes32 (n : Nat) : Bytes :=
  [UInt8.ofNat (n / 16777216), UInt8.ofNat (n / 65536 % 256), UInt8.ofNat (n / 256 % 256),
    UInt8.ofNat (n % 256)]

/-- src/asn1_types/strings/universalstring.rs:135-156 `ToBer for UniversalString` (`ToDer` is the
same): four times the UTF-8 length is announced. -/
def univToBer : ToBer Text where
  encoder := .primitive 28
  contentLen s := .definite (Text.byteLen s * 4)
  tagInfo _ := (.universal, false, 28)
  writeContent s := do
    writePieces (s.map fun c => beBytes32 c.toNat)
    pure (Text.byteLen s * 4)

/-! ### Any -/

/-- src/asn1_types/any.rs:418-435 `as_any_str`. -/
def asAnyStr (a : Any) : Except SErr Text :=
  if a.header.tag ∈ [27, 25, 22, 18, 19, 20, 12, 21, 26] then
    match fromUtf8 a.data.data with
    | some s => .ok s
    | none => .error (.error .stringInvalidCharset)
  else .error (.error .berTypeError)

/-- src/asn1_types/any.rs:440-464 `as_any_string`. -/
def asAnyString (a : Any) : Except SErr Text :=
  if a.header.tag ∈ [27, 25, 22, 18, 19, 20, 12, 21, 26] then
    match fromUtf8 a.data.data with
    | some s => .ok s
    | none => .error (.error .stringInvalidCharset)
  else if a.header.tag = 30 then tryFromAny bmpBer a
  else if a.header.tag = 28 then tryFromAny univBer a
  else .error (.error .berTypeError)

end Asn1

import Verif.Model.ErrorConv
import Verif.Model.Text
import Verif.Model.Writer
/-!
# The texts of errors: `Display` in src/error.rs, src/class.rs, src/input.rs

The enumerations derive `Display` with `displaydoc`: the text of a variant is its documentation comment,
in which `{name:?}` is the text of a field by `Debug` and `{name:}` by `Display`. `SerializeError` derives
it with `thiserror`. `Debug` is derived (Rust's standard library) everywhere.
-/
namespace Asn1

/-- A text of the source. (Irreducible: proofs do not look at its characters unless told to.) -/
@[irreducible] def lit (s : String) : Text := s.toList

/-- `Display` and `Debug` of `u8`, `u32` and `usize` (Rust's standard library): decimal digits. -/
def numText (n : Nat) : Text :=
  if n < 10 then [Char.ofNat (48 + n)] else numText (n / 10) ++ [Char.ofNat (48 + n % 10)]

/-- `Debug` of `Option<T>` (Rust's standard library). -/
def optText {α : Type} (f : α → Text) : Option α → Text
  | none => lit "None"
  | some a => lit "Some(" ++ f a ++ lit ")"

/-- src/tag.rs:10 derived `Debug` of `Tag`. -/
def tagText (t : Nat) : Text := lit "Tag(" ++ numText t ++ lit ")"

/-- src/class.rs:8-19 derived `Debug` of `Class`. -/
def Class.debugText : Class → Text
  | .universal => lit "Universal"
  | .application => lit "Application"
  | .contextSpecific => lit "ContextSpecific"
  | .priv => lit "Private"

/-- src/class.rs:54-64 `Display for Class`. -/
def Class.text : Class → Text
  | .universal => lit "UNIVERSAL"
  | .application => lit "APPLICATION"
  | .contextSpecific => lit "CONTEXT-SPECIFIC"
  | .priv => lit "PRIVATE"

/-- src/error.rs:17-40 derived `Debug` of `DerConstraint`. -/
def DerConstraint.debugText : DerConstraint → Text
  | .indefiniteLength => lit "IndefiniteLength"
  | .constructed => lit "Constructed"
  | .notConstructed => lit "NotConstructed"
  | .missingTimeZone => lit "MissingTimeZone"
  | .missingSeconds => lit "MissingSeconds"
  | .unusedBitsNotZero => lit "UnusedBitsNotZero"
  | .invalidBoolean => lit "InvalidBoolean"
  | .integerEmpty => lit "IntegerEmpty"
  | .integerLeadingZeroes => lit "IntegerLeadingZeroes"
  | .integerLeadingFF => lit "IntegerLeadingFF"

/-- src/error.rs:17-40 `Display` of `DerConstraint`. -/
def DerConstraint.text : DerConstraint → Text
  | .indefiniteLength => lit "Indefinite length not allowed"
  | .constructed => lit "Object must not be constructed"
  | .notConstructed => lit "Object must be constructed"
  | .missingTimeZone => lit "DateTime object is missing timezone"
  | .missingSeconds => lit "DateTime object is missing seconds"
  | .unusedBitsNotZero => lit "Bitstring unused bits must be set to zero"
  | .invalidBoolean => lit "Boolean value must be 0x00 of 0xff"
  | .integerEmpty => lit "Integer must not be empty"
  | .integerLeadingZeroes => lit "Leading zeroes in Integer encoding"
  | .integerLeadingFF => lit "Leading 0xff in negative Integer encoding"

/-- Derived `Debug` of nom's `Needed` (external crate); the size is a `NonZeroUsize`. -/
def Needed.debugText : Needed → Text
  | .unknown => lit "Unknown"
  | .size n => lit "Size(" ++ numText n ++ lit ")"

/-- Texts made by code outside this crate: `Debug` of nom's `ErrorKind`, of a `String` (quoted and
escaped), and of the two I/O errors of the model. -/
structure TextLib where
  kind : ErrorKind → Text
  quote : String → Text
  ioError : Text
  tagTooLong : Text

/-- src/error.rs:44-99 `Display` of `Error`. -/
def Error.text (lib : TextLib) : Error → Text
  | .berTypeError => lit "BER object does not have the expected type"
  | .berValueError => lit "BER object does not have the expected value"
  | .invalidLength => lit "Invalid Length"
  | .invalidValue tag msg =>
    lit "Invalid Value when parsing object with tag " ++ tagText tag ++ lit " " ++ msg.toList
  | .invalidTag => lit "Invalid Tag"
  | .unknownTag t => lit "Unknown tag: " ++ numText t
  | .unexpectedTag expected actual =>
    lit "Unexpected Tag (expected: " ++ optText tagText expected ++ lit ", actual: "
      ++ tagText actual ++ lit ")"
  | .unexpectedClass expected actual =>
    lit "Unexpected Class (expected: " ++ optText Class.debugText expected ++ lit ", actual: "
      ++ actual.debugText ++ lit ")"
  | .indefiniteLengthUnexpected => lit "Indefinite length not allowed"
  | .constructExpected => lit "DER object was expected to be constructed (and found to be primitive)"
  | .constructUnexpected => lit "DER object was expected to be primitive (and found to be constructed)"
  | .integerTooLarge => lit "Integer too large to fit requested type"
  | .integerNegative => lit "BER integer is negative, while an unsigned integer was requested"
  | .berMaxDepth => lit "BER recursive parsing reached maximum depth"
  | .stringInvalidCharset => lit "Invalid encoding or forbidden characters in string"
  | .invalidDateTime => lit "Invalid Date or Time"
  | .derConstraintFailed c => lit "DER Failed constraint: " ++ c.debugText
  | .lifetimeError => lit "Requesting borrowed data from a temporary object"
  | .unsupported => lit "Feature is not yet implemented"
  | .incomplete n => lit "incomplete data, missing: " ++ n.debugText
  | .nomError k => lit "nom error: " ++ lib.kind k

/-- src/error.rs:266-322 `Display` of `InnerError`. -/
def InnerError.text : InnerError → Text
  | .berTypeError => lit "BER object does not have the expected type"
  | .berValueError => lit "BER object does not have the expected value"
  | .invalidLength => lit "Invalid Length"
  | .invalidValue tag msg =>
    lit "Invalid Value when parsing object with tag " ++ tagText tag ++ lit " " ++ msg.toList
  | .invalidTag => lit "Invalid Tag"
  | .unknownTag t => lit "Unknown tag: " ++ numText t
  | .unexpectedTag expected actual =>
    lit "Unexpected Tag (expected: " ++ optText tagText expected ++ lit ", actual: "
      ++ tagText actual ++ lit ")"
  | .unexpectedClass expected actual =>
    lit "Unexpected Class (expected: " ++ optText Class.debugText expected ++ lit ", actual: "
      ++ actual.debugText ++ lit ")"
  | .indefiniteLengthUnexpected => lit "Indefinite length not allowed"
  | .constructExpected => lit "DER object was expected to be constructed (and found to be primitive)"
  | .constructUnexpected => lit "DER object was expected to be primitive (and found to be constructed)"
  | .integerTooLarge => lit "Integer too large to fit requested type"
  | .integerNegative => lit "BER integer is negative, while an unsigned integer was requested"
  | .berMaxDepth => lit "BER recursive parsing reached maximum depth"
  | .stringInvalidCharset => lit "Invalid encoding or forbidden characters in string"
  | .invalidDateTime => lit "Invalid Date or Time"
  | .derConstraintFailed c => lit "DER Failed constraint: " ++ c.debugText
  | .nom _ => lit "Parse error"
  | .lifetimeError => lit "Requesting borrowed data from a temporary object"
  | .unsupported => lit "Feature is not yet implemented"
  | .incomplete n => lit "incomplete data, missing: " ++ n.debugText

/-- src/input.rs:125-129 `Display for Input`. -/
def Input.text (i : Input) : Text :=
  lit "Input(start=" ++ numText i.start ++ lit " end=" ++ numText i.stop ++ lit ")"

/-- src/error.rs:211-215 `Display for BerError<Input>`. -/
def BerErr.text (e : BerErr) : Text :=
  lit "BerError: input=" ++ e.input.text ++ lit " error=" ++ e.inner.text

/-- src/error.rs:44 derived `Debug` of `Error`. -/
def Error.debugText (lib : TextLib) : Error → Text
  | .berTypeError => lit "BerTypeError"
  | .berValueError => lit "BerValueError"
  | .invalidLength => lit "InvalidLength"
  | .invalidValue tag msg =>
    lit "InvalidValue { tag: " ++ tagText tag ++ lit ", msg: " ++ lib.quote msg ++ lit " }"
  | .invalidTag => lit "InvalidTag"
  | .unknownTag t => lit "UnknownTag(" ++ numText t ++ lit ")"
  | .unexpectedTag expected actual =>
    lit "UnexpectedTag { expected: " ++ optText tagText expected ++ lit ", actual: "
      ++ tagText actual ++ lit " }"
  | .unexpectedClass expected actual =>
    lit "UnexpectedClass { expected: " ++ optText Class.debugText expected ++ lit ", actual: "
      ++ actual.debugText ++ lit " }"
  | .indefiniteLengthUnexpected => lit "IndefiniteLengthUnexpected"
  | .constructExpected => lit "ConstructExpected"
  | .constructUnexpected => lit "ConstructUnexpected"
  | .integerTooLarge => lit "IntegerTooLarge"
  | .integerNegative => lit "IntegerNegative"
  | .berMaxDepth => lit "BerMaxDepth"
  | .stringInvalidCharset => lit "StringInvalidCharset"
  | .invalidDateTime => lit "InvalidDateTime"
  | .derConstraintFailed c => lit "DerConstraintFailed(" ++ c.debugText ++ lit ")"
  | .lifetimeError => lit "LifetimeError"
  | .unsupported => lit "Unsupported"
  | .incomplete n => lit "Incomplete(" ++ n.debugText ++ lit ")"
  | .nomError k => lit "NomError(" ++ lib.kind k ++ lit ")"

/-- src/error.rs:529-542 `Display` of `SerializeError`. The panics of the model are not errors and have
no text. -/
def SerErr.text (lib : TextLib) : SerErr → Option Text
  | .asn1 e => some (lit "ASN.1 error: " ++ e.debugText lib)
  | .invalidClass c => some (lit "Invalid Class " ++ numText c)
  | .invalidLength => some (lit "Invalid Length")
  | .io => some (lit "I/O error: " ++ lib.ioError)
  | .tagTooLong => some (lit "I/O error: " ++ lib.tagTooLong)
  | .panic => none

end Asn1

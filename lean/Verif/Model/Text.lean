import Verif.Base.Bytes
/-!
# Text: Rust's `str` and `char`

`str`, `String` and `char` come from Rust's standard library, not from this crate. A text is modelled
by its characters (a Lean `Char` is a Unicode scalar value, as a Rust `char` is). The conversions used
by the crate are written out here from the documentation and source of the standard library.
-/
namespace Asn1

/-- `str`, `String`, `Cow<str>`: the characters. -/
abbrev Text := List Char

/-- `str::as_bytes`: UTF-8, with the encoding of one character taken from Lean's core library. -/
def Text.utf8 (s : Text) : Bytes := s.flatMap String.utf8EncodeChar

/-- `str::len`. -/
def Text.byteLen (s : Text) : Nat := (Text.utf8 s).length

/-- Continuation bytes of UTF-8. -/
def isCont (b : UInt8) : Bool := decide (0x80 ≤ b.toNat ∧ b.toNat ≤ 0xbf)

/-- The second bytes allowed after the first byte of a three-byte sequence
(core::str::validations: `(0xE0, 0xA0..=0xBF) | (0xE1..=0xEC, 0x80..=0xBF) | (0xED, 0x80..=0x9F) |
(0xEE..=0xEF, 0x80..=0xBF)`). -/
def second3 (b0 b1 : UInt8) : Bool :=
  isCont b1 && (b0.toNat != 0xe0 || decide (0xa0 ≤ b1.toNat)) &&
    (b0.toNat != 0xed || decide (b1.toNat ≤ 0x9f))

/-- The same for four-byte sequences (`(0xF0, 0x90..=0xBF) | (0xF1..=0xF3, 0x80..=0xBF) |
(0xF4, 0x80..=0x8F)`). -/
def second4 (b0 b1 : UInt8) : Bool :=
  isCont b1 && (b0.toNat != 0xf0 || decide (0x90 ≤ b1.toNat)) &&
    (b0.toNat != 0xf4 || decide (b1.toNat ≤ 0x8f))

/-- The character of a two-byte sequence. -/
def utf8Two (b0 b1 : UInt8) : Char := Char.ofNat (b0.toNat % 32 * 64 + b1.toNat % 64)
/-- The character of a three-byte sequence. -/
def utf8Three (b0 b1 b2 : UInt8) : Char :=
  Char.ofNat (b0.toNat % 16 * 4096 + b1.toNat % 64 * 64 + b2.toNat % 64)
/-- The character of a four-byte sequence. -/
def utf8Four (b0 b1 b2 b3 : UInt8) : Char :=
  Char.ofNat (b0.toNat % 8 * 262144 + b1.toNat % 64 * 4096 + b2.toNat % 64 * 64 + b3.toNat % 64)

/-- `core::str::from_utf8` and `String::from_utf8` (`none` is `Utf8Error`): the well-formed sequences
of the Unicode standard, table 3-7. -/
def fromUtf8 : Bytes → Option Text
  | [] => some []
  | b0 :: r0 =>
    if b0.toNat < 0x80 then (fromUtf8 r0).map (Char.ofNat b0.toNat :: ·)
    else if 0xc2 ≤ b0.toNat ∧ b0.toNat ≤ 0xdf then
      match r0 with
      | b1 :: r1 => if isCont b1 then (fromUtf8 r1).map (utf8Two b0 b1 :: ·) else none
      | [] => none
    else if 0xe0 ≤ b0.toNat ∧ b0.toNat ≤ 0xef then
      match r0 with
      | b1 :: b2 :: r2 =>
        if second3 b0 b1 && isCont b2 then (fromUtf8 r2).map (utf8Three b0 b1 b2 :: ·) else none
      | _ => none
    else if 0xf0 ≤ b0.toNat ∧ b0.toNat ≤ 0xf4 then
      match r0 with
      | b1 :: b2 :: b3 :: r3 =>
        if second4 b0 b1 && isCont b2 && isCont b3 then
          (fromUtf8 r3).map (utf8Four b0 b1 b2 b3 :: ·)
        else none
      | _ => none
    else none

/-- `char::encode_utf16`: the units of one character. -/
def utf16Char (c : Char) : List Nat :=
  if c.toNat < 0x10000 then [c.toNat]
  else [0xd800 + (c.toNat - 0x10000) / 0x400, 0xdc00 + (c.toNat - 0x10000) % 0x400]

/-- `str::encode_utf16`. -/
def Text.utf16 (s : Text) : List Nat := s.flatMap utf16Char

/-- `String::from_utf16` (`none` is `FromUtf16Error`): units that are no surrogates stand for
themselves, and a high surrogate must be followed by a low one. -/
def fromUtf16 : List Nat → Option Text
  | [] => some []
  | u :: us =>
    if u < 0xd800 ∨ 0xdfff < u then (fromUtf16 us).map (Char.ofNat u :: ·)
    else if u ≤ 0xdbff then
      match us with
      | v :: vs =>
        if 0xdc00 ≤ v ∧ v ≤ 0xdfff then
          (fromUtf16 vs).map (Char.ofNat (0x10000 + (u - 0xd800) * 0x400 + (v - 0xdc00)) :: ·)
        else none
      | [] => none
    else none

/-- `char::from_u32`. -/
def charFromU32 (n : Nat) : Option Char :=
  if n < 0xd800 ∨ (0xdfff < n ∧ n < 0x110000) then some (Char.ofNat n) else none

end Asn1

import Verif.Model.CharStrings
import Verif.Spec.Segmented
/-!
# Alphabets and encodings of the character strings
-/
namespace Asn1.Spec
open Asn1

/-- NumericString (X.680 table 9): digits and space. -/
def numericChar (c : Char) : Bool := ('0' ≤ c && c ≤ '9') || c == ' '

/-- PrintableString (X.680 table 10): letters, digits, space, `'`, `(`, `)`, `+`, `,`, `-`, `.`,
`/`, `:`, `=` and `?`. -/
def printableChar (c : Char) : Bool :=
  ('A' ≤ c && c ≤ 'Z') || ('a' ≤ c && c ≤ 'z') || ('0' ≤ c && c ≤ '9') ||
    [' ', '\'', '(', ')', '+', ',', '-', '.', '/', ':', '=', '?'].contains c

/-- ASCII from space to DEL. (X.680 does not allow DEL in VisibleString, see `C44_deviations`.) -/
def visibleChar (c : Char) : Bool := decide (0x20 ≤ c.toNat ∧ c.toNat ≤ 0x7f)

/-- ASCII. (X.680 has no control characters in GraphicString and ObjectDescriptor, and X.680 allows
more than ASCII in GeneralString and GraphicString, see `C44_deviations`.) -/
def asciiChar (c : Char) : Bool := decide (c.toNat ≤ 0x7f)

/-- The string types made by the macro `asn1_string!`, their tags and alphabets. -/
inductive StringType : StrKind → Nat → (Char → Bool) → Prop
  | utf8 : StringType utf8StringK 12 (fun _ => true)
  | numeric : StringType numericStringK 18 numericChar
  | printable : StringType printableStringK 19 printableChar
  | teletex : StringType teletexStringK 20 visibleChar
  | videotex : StringType videotexStringK 21 visibleChar
  | ia5 : StringType ia5StringK 22 asciiChar
  | graphic : StringType graphicStringK 25 asciiChar
  | visible : StringType visibleStringK 26 visibleChar
  | general : StringType generalStringK 27 asciiChar
  | objectDescriptor : StringType objectDescriptorK 7 asciiChar

/-- The bytes of a string object: a primitive object holds them, a constructed one is made of OCTET
STRING segments that are joined (see `Segs`; at most five levels). -/
def StringBytes (constructed : Bool) (content bs : Bytes) : Prop :=
  (constructed = false ∧ bs = content) ∨
  (constructed = true ∧ Segs 4 (fun bs v => v = bs) List.flatten 5 true content bs)

/-- A 16-bit unit, most significant byte first. -/
def be16 (n : Nat) : Bytes := [UInt8.ofNat (n / 256), UInt8.ofNat (n % 256)]

/-- UTF-16BE: a unit, or a pair of surrogates for the characters above U+FFFF. -/
def utf16be (s : List Char) : Bytes :=
  s.flatMap fun c =>
    if c.toNat ≤ 0xffff then be16 c.toNat
    else be16 (0xd800 + (c.toNat - 0x10000) / 1024) ++ be16 (0xdc00 + (c.toNat - 0x10000) % 1024)

/-- UTF-16BE of a text; when the number of bytes is odd, the last byte alone stands for a character
(X.690 has no such content, see `C45_deviations`). -/
def BmpText (bs : Bytes) (s : Text) : Prop :=
  bs = utf16be s ∨ ∃ s' a, s = s' ++ [Char.ofNat (UInt8.toNat a)] ∧ bs = utf16be s' ++ [a]

/-- UCS-4: four bytes per character, most significant first. -/
def ucs4 (s : List Char) : Bytes := s.flatMap fun c => be16 (c.toNat / 65536) ++ be16 (c.toNat % 65536)

end Asn1.Spec

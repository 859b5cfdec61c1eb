import Verif.Model.Oid
/-!
# The procedural macros `encode_oid!` and `encode_int!`, from text to text
-/
namespace Asn1

/-- `char::is_whitespace` on ASCII: tab, line feed, vertical tab, form feed, carriage return, space. (Simplified: the
other white space of Unicode does not occur between the tokens of a token stream.) -/
def isWhite (b : UInt8) : Bool := decide (9 ≤ b.toNat ∧ b.toNat ≤ 13) || b == 32

/-- `str::trim`. -/
def trimText (w : Bytes) : Bytes := ((w.dropWhile isWhite).reverse.dropWhile isWhite).reverse

/-- `u128::from_str` (core library), the digits. -/
def parseDigits128 : Bytes → Nat → Option Nat
  | [], acc => some acc
  | b :: rest, acc =>
    if 48 ≤ b.toNat ∧ b.toNat ≤ 57 then
      if acc * 10 + (b.toNat - 48) < 2 ^ 128 then parseDigits128 rest (acc * 10 + (b.toNat - 48))
      else none
    else none

/-- `u128::from_str` (core library): as `u64::from_str`. -/
def parseU128 (s : Bytes) : Option Nat :=
  match s with
  | [] => none
  | b :: rest => if b = 43 then (if rest = [] then none else parseDigits128 rest 0) else parseDigits128 s 0

/-- impl/src/lib.rs:17, 24 and 27: the messages of the compile-time errors of `encode_oid!`. -/
inductive OidMacroError
  | couldNotParse
  | tooShort
  | tooBig
  deriving DecidableEq, Repr

/-- impl/src/lib.rs:38-44 and 117-125: the array expression that replaces the macro call, `[`, each byte as
`0x{:02x}, `, `]`. -/
def arrayCode (v : Bytes) : Bytes :=
  [91] ++ v.flatMap (fun b => [48, 120, hexDigit (b.toNat / 16), hexDigit (b.toNat % 16), 44, 32]) ++ [93]

/-- impl/src/lib.rs:19-44 `encode_oid!`, after the numbers have been read; `[0]` for the OID `0`. -/
def encodeOidItems (relative : Bool) (items : List Nat) : Except OidMacroError Bytes :=
  if relative then .ok (arrayCode (items.flatMap encodeBase128))
  else
    match items with
    | [] => .error .tooShort
    | [a] => if a = 0 then .ok [91, 48, 93] else .error .tooShort
    | a :: b :: rest =>
      if a > 2 ∨ b > 39 then .error .tooBig
      else .ok (arrayCode (UInt8.ofNat (a * 40 + b) :: rest.flatMap encodeBase128))

/-- impl/src/lib.rs:14-18: the numbers between the dots, then the code. -/
def encodeOidBody (relative : Bool) (s : Bytes) : Except OidMacroError Bytes :=
  match collectOption (fun w => parseU128 (trimText w)) (splitDots s) with
  | none => .error .couldNotParse
  | some items => encodeOidItems relative items

/-- impl/src/lib.rs:6-45 `encode_oid!`, on the text of its tokens (`TokenStream::to_string`); `rel ` makes it
relative. -/
def encodeOidText : Bytes → Except OidMacroError Bytes
  | 114 :: 101 :: 108 :: 32 :: s => encodeOidBody true s
  | s => encodeOidBody false s

/-- src/asn1_types/oid.rs:464-481 `oid!`: `rel` makes a relative OID. On the bytes of the array. -/
def oidMacro (relative : Bool) (bytes : Bytes) : Oid := ⟨bytes, relative⟩

/-- impl/src/lib.rs:111-126 `encode_int!`, on the value of the literal (`LitInt::base10_parse::<u64>` of `syn`, which
reads all forms of Rust's integer literals, is not modelled). -/
def encodeIntCode (value : Nat) : Option Bytes :=
  if value < 2 ^ 64 then some (arrayCode (encodeIntMacro value)) else none

end Asn1

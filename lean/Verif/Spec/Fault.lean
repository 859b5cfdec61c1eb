import Verif.Spec.Form
import Verif.Spec.Integer
import Verif.Spec.Time
import Verif.Spec.CharStrings
/-!
# What can be wrong with the content of a primitive object

The faults of a content, as the documentation of `BerError` and `DerConstraint` (src/error.rs:19-40 and 268-322)
names them, stated about the octets only.
-/
namespace Asn1.Spec
open Asn1

/-- Universal types with a primitive encoding. -/
inductive Kind where
  | boolean
  | null
  /-- unsigned and signed integers of `N` octets -/
  | uint (N : Nat)
  | int (N : Nat)
  /-- INTEGER of any size -/
  | integer
  | enumerated
  /-- a derived enumeration with the given discriminants -/
  | enum (ds : List Nat)
  | oid
  | octetString
  | bitString
  /-- a string of characters of the given alphabet -/
  | text (alphabet : Char → Bool)
  | bmpString
  | universalString
  | utcTime
  | generalizedTime

/-- The Rust types of each kind: `bool` and `Boolean`, `&[u8]` and `OctetString`, and so on. -/
inductive DecoderOf : {α : Type} → Rules → Kind → Parser α → Prop
  | bool : DecoderOf .ber .boolean boolBer
  | boolDer : DecoderOf .der .boolean boolDer
  | boolean : DecoderOf .ber .boolean booleanBer
  | booleanDer : DecoderOf .der .boolean booleanDer
  | null (m : Rules) : DecoderOf m .null nullP
  | uint {N : Nat} (h : 1 ≤ N) : DecoderOf .ber (.uint N) (uintBer N)
  | uintDer {N : Nat} (h : 1 ≤ N) : DecoderOf .der (.uint N) (uintDer N)
  | int {N : Nat} (h : 1 ≤ N) : DecoderOf .ber (.int N) (intBer N)
  | intDer {N : Nat} (h : 1 ≤ N) : DecoderOf .der (.int N) (intDer N)
  | integer : DecoderOf .ber .integer integerBer
  | integerDer : DecoderOf .der .integer integerDer
  | enumerated : DecoderOf .ber .enumerated enumeratedBer
  | enumeratedDer : DecoderOf .der .enumerated enumeratedDer
  | enum (ds : List Nat) : DecoderOf .ber (.enum ds) (enumP enumeratedBer ds)
  | enumDer (ds : List Nat) : DecoderOf .der (.enum ds) (enumP enumeratedDer ds)
  | oid (m : Rules) : DecoderOf m .oid oidP
  | octetString : DecoderOf .ber .octetString octetBer
  | octetStringDer : DecoderOf .der .octetString octetDer
  | slice : DecoderOf .ber .octetString sliceBer
  | sliceDer : DecoderOf .der .octetString sliceDer
  | bitString : DecoderOf .ber .bitString bitBer
  | bitStringDer : DecoderOf .der .bitString bitDer
  | text {k : StrKind} {tag : Nat} {A : Char → Bool} (h : StringType k tag A) :
      DecoderOf .ber (.text A) (strBer k)
  | textDer {k : StrKind} {tag : Nat} {A : Char → Bool} (h : StringType k tag A) :
      DecoderOf .der (.text A) (strDer k)
  | str : DecoderOf .ber (.text fun _ => true) refStrBer
  | strDer : DecoderOf .der (.text fun _ => true) refStrDer
  | string : DecoderOf .ber (.text fun _ => true) stringBer
  | bmpString : DecoderOf .ber .bmpString bmpBer
  | bmpStringDer : DecoderOf .der .bmpString bmpDer
  | universalString : DecoderOf .ber .universalString univBer
  | universalStringDer : DecoderOf .der .universalString univDer
  | utcTime : DecoderOf .ber .utcTime utcBer
  | utcTimeDer : DecoderOf .der .utcTime utcDer
  | generalizedTime : DecoderOf .ber .generalizedTime genBer
  | generalizedTimeDer : DecoderOf .der .generalizedTime genDer

/-- The kinds whose contents are numbers. -/
inductive Kind.Number : Kind → Prop
  | uint (N : Nat) : Number (.uint N)
  | int (N : Nat) : Number (.int N)
  | integer : Number .integer
  | enumerated : Number .enumerated
  | enum (ds : List Nat) : Number (.enum ds)

/-- The kinds whose contents are numbers from 0 to `256 ^ N - 1`. -/
inductive Kind.Unsigned : Kind → Nat → Prop
  | uint (N : Nat) : Unsigned (.uint N) N
  | enumerated : Unsigned .enumerated 4
  | enum (ds : List Nat) : Unsigned (.enum ds) 4

/-- Octets that can be in a time. -/
def TimeOctets (c : Bytes) : Prop := ∀ b ∈ c, 0x20 ≤ b.toNat ∧ b.toNat ≤ 0x7f

/-- In DER a number has the shortest form. -/
def Shortest (m : Rules) (c : Bytes) : Prop := m = .der → MinimalInt c

/-- `Fault m k c e`: under the rules `m`, the content `c` is not one of the kind `k`, and `e` is the error for
it. The texts of `InvalidValue` are left out (they are empty here). -/
inductive Fault : Rules → Kind → Bytes → InnerError → Prop
  | booleanLength {m : Rules} {c : Bytes} : c.length ≠ 1 → Fault m .boolean c .invalidLength
  | booleanOctet {b : UInt8} : b.toNat ≠ 0 → b.toNat ≠ 255 →
      Fault .der .boolean [b] (.derConstraintFailed .invalidBoolean)
  | null {m : Rules} {c : Bytes} : c ≠ [] → Fault m .null c .invalidLength
  | numberEmpty {k : Kind} : k.Number → Fault .der k [] (.derConstraintFailed .integerEmpty)
  | numberZeroes {k : Kind} {a b : UInt8} {c : Bytes} : k.Number → a.toNat = 0 → b.toNat < 128 →
      Fault .der k (a :: b :: c) (.derConstraintFailed .integerLeadingZeroes)
  | numberOnes {k : Kind} {a b : UInt8} {c : Bytes} : k.Number → a.toNat = 255 → 128 ≤ b.toNat →
      Fault .der k (a :: b :: c) (.derConstraintFailed .integerLeadingFF)
  | integerEmpty : Fault .ber .integer [] .invalidLength
  | negative {m : Rules} {k : Kind} {N : Nat} {c : Bytes} : k.Unsigned N → Shortest m c → twos c < 0 →
      Fault m k c .integerNegative
  | tooLarge {m : Rules} {k : Kind} {N : Nat} {c : Bytes} : k.Unsigned N → Shortest m c →
      (256 ^ N : Nat) ≤ twos c → Fault m k c .integerTooLarge
  /-- A negative number is too large, too, if it has more octets than the type, whatever its value (in DER: see
  `C120_signed`). -/
  | intTooLarge {m : Rules} {N : Nat} {c : Bytes} : Shortest m c →
      ((2 ^ (8 * N - 1) : Nat) ≤ twos c ∨ twos c < 0 ∧ N < c.length) → Fault m (.int N) c .integerTooLarge
  | discriminant {m : Rules} {ds : List Nat} {c : Bytes} : Shortest m c → InUint 4 (twos c) →
      (∀ d ∈ ds, (d : Int) ≠ twos c) → Fault m (.enum ds) c (.unexpectedTag none 10)
  | oid {m : Rules} : Fault m .oid [] .invalidLength
  | bitsEmpty {m : Rules} : Fault m .bitString [] .invalidLength
  | bitsUnused {m : Rules} {u : UInt8} {c : Bytes} : 7 < u.toNat →
      Fault m .bitString (u :: c) (.invalidValue 3 "")
  | bitsMissing {m : Rules} {u : UInt8} {c : Bytes} : u.toNat ≤ 7 → 8 * c.length < u.toNat →
      Fault m .bitString (u :: c) .invalidLength
  | text {m : Rules} {A : Char → Bool} {c : Bytes} : (¬ ∃ s, c = Text.utf8 s ∧ ∀ ch ∈ s, A ch = true) →
      Fault m (.text A) c .stringInvalidCharset
  | bmpEmpty {m : Rules} : Fault m .bmpString [] .invalidLength
  | bmpText {m : Rules} {c : Bytes} : c ≠ [] → (¬ ∃ s, BmpText c s) → Fault m .bmpString c .stringInvalidCharset
  | universalEmpty {m : Rules} : Fault m .universalString [] .invalidLength
  | universalText {m : Rules} {c : Bytes} : c ≠ [] → (¬ ∃ s, c = ucs4 s) →
      Fault m .universalString c .stringInvalidCharset
  | utcOctets {m : Rules} {c : Bytes} : ¬ TimeOctets c → Fault m .utcTime c .stringInvalidCharset
  | utcText {m : Rules} {c : Bytes} : TimeOctets c → (¬ ∃ t, UtcText c t) →
      Fault m .utcTime c (.invalidValue 23 "")
  | genOctets {m : Rules} {c : Bytes} : ¬ TimeOctets c → Fault m .generalizedTime c .stringInvalidCharset
  | genZone {c : Bytes} : TimeOctets c → ¬ ascii "Z" <:+ c →
      Fault .der .generalizedTime c (.derConstraintFailed .missingTimeZone)
  | genComma {c : Bytes} : TimeOctets c → ascii "Z" <:+ c → ascii "," <:+: c →
      Fault .der .generalizedTime c (.derConstraintFailed .missingSeconds)
  | genText {m : Rules} {c : Bytes} : TimeOctets c → (m = .der → ascii "Z" <:+ c ∧ ¬ ascii "," <:+: c) →
      (¬ ∃ t, GenText c t) → Fault m .generalizedTime c (.invalidValue 24 "")

/-- An error without the text of `InvalidValue`. -/
def plainError : InnerError → InnerError
  | .invalidValue tag _ => .invalidValue tag ""
  | e => e

end Asn1.Spec

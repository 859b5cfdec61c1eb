import Verif.Model.Oid
import Verif.Model.Integer
import Verif.Model.Simple
import Verif.Model.Strings
import Verif.Spec.Integer
import Verif.Spec.Time
import Verif.Spec.CharStrings
import Verif.Spec.Real
/-!
# The universal types and their values
-/
namespace Asn1

/-- What the crate provides for a type: `ToBer`/`ToDer`, `BerParser`, `DerParser`,
`CheckDerConstraints` and the constant tag `Tagged::TAG`. -/
structure Codec (α : Type) where
  enc : ToBer α
  ber : Parser α
  der : Parser α
  check : Any → Except SErr Unit
  tag : Nat

/-- `u8` ... `u128`. -/
def uintC (N : Nat) : Codec Nat := ⟨uintToBer N, uintBer N, uintDer N, checkDerInt, 2⟩
/-- `i8` ... `i128`. -/
def intC (N : Nat) : Codec Int := ⟨intToBer N, intBer N, intDer N, checkDerInt, 2⟩
/-- `Integer`. -/
def integerC : Codec Integer := ⟨integerToBer, integerBer, integerDer, checkDerInt, 2⟩
/-- `bool`. -/
def boolC : Codec Bool := ⟨boolToBer, boolBer, boolDer, booleanCheck, 1⟩
/-- `Null` and `()`. -/
def nullC : Codec Unit := ⟨nullToBer, nullP, nullP, nullCheck, 5⟩
/-- `Enumerated`. -/
def enumC : Codec Nat := ⟨enumeratedToBer, enumeratedBer, enumeratedDer, enumeratedCheck, 10⟩
/-- `OctetString` and `&[u8]`. -/
def octetC : Codec Bytes := ⟨octetToBer, octetBer, octetDer, octetCheck, 4⟩
/-- `BitString`. -/
def bitC : Codec BitString := ⟨bitToBer, bitBer, bitDer, bitCheck, 3⟩
/-- `Oid`. -/
def oidC : Codec Oid := ⟨oidToBer, oidP, oidP, oidCheck, 6⟩
/-- `UtcTime`. -/
def utcC : Codec DateTime := ⟨utcToBer, utcBer, utcDer, utcCheck, 23⟩
/-- `GeneralizedTime`. -/
def genC : Codec DateTime := ⟨genToBer, genBer, genDer, genCheck, 24⟩
/-- The types of `asn1_string!`: UTF8String and the restricted strings. -/
def strC (k : StrKind) : Codec Text := ⟨strToBer k.tag, strBer k, strDer k, strCheck, k.tag⟩
/-- `&str`. -/
def refStrC : Codec Text := ⟨strToBer 12, refStrBer, refStrDer, strCheck, 12⟩
/-- `String`. -/
def stringC : Codec Text := ⟨strToBer 12, stringBer, refStrDer, strCheck, 12⟩
/-- `BmpString`. -/
def bmpC : Codec Text := ⟨bmpToBer, bmpBer, bmpDer, strCheck, 30⟩
/-- `UniversalString`. -/
def univC : Codec Text := ⟨univToBer, univBer, univDer, strCheck, 28⟩
/-- `Real`. -/
def realC (lib : FloatLib) : Codec Real := ⟨realToBer lib, realP lib, realP lib, realCheck, 9⟩

namespace Spec

/-- The values of the universal types (every machine integer; the integers whose bytes are minimal;
booleans; NULL; enumeration values; octet strings; bit strings made from lists of bits; object
identifiers; times in UTC with two-digit years, or with four-digit years and no milliseconds that
start with a zero; texts over the alphabet of their type; non-empty texts for BMPString, non-empty ASCII
texts for UniversalString; the REALs of `RealValue`). -/
inductive UniversalValue : {α : Type} → Codec α → α → Prop
  | uint (N : Nat) (hN : 1 ≤ N ∧ N ≤ 16) {v : Nat} (hv : v < 256 ^ N) : UniversalValue (uintC N) v
  | int (N : Nat) (hN : 1 ≤ N ∧ N ≤ 16) {v : Int} (hv : InInt N v) : UniversalValue (intC N) v
  | integer {d : Bytes} (hm : MinimalInt d) : UniversalValue integerC ⟨d⟩
  | bool {b : Bool} : UniversalValue boolC b
  | null : UniversalValue nullC ()
  | enumerated {v : Nat} (hv : v < 2 ^ 32) : UniversalValue enumC v
  | octetString {v : Bytes} : UniversalValue octetC v
  | bitString (l : List Bool) : UniversalValue bitC (.ofBits l)
  | oid {o : Oid} (hne : o.asn1 ≠ []) (hr : o.relative = false) : UniversalValue oidC o
  | utcTime {t : DateTime} (h : UtcValue t) : UniversalValue utcC t
  | generalizedTime {t : DateTime} (h : GenValue t) : UniversalValue genC t
  | text {k : StrKind} {tag : Nat} {A : Char → Bool} (hk : StringType k tag A) {s : Text}
      (hs : ∀ c ∈ s, A c = true) : UniversalValue (strC k) s
  | refStr {s : Text} : UniversalValue refStrC s
  | string {s : Text} : UniversalValue stringC s
  | bmpString {s : Text} (hne : s ≠ []) : UniversalValue bmpC s
  | universalString {s : Text} (hne : s ≠ []) (ha : ∀ c ∈ s, c.toNat < 0x80) : UniversalValue univC s
  | real {lib : FloatLib} {r : Real} (h : RealValue r) : UniversalValue (realC lib) r

end Spec
end Asn1

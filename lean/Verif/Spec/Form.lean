import Verif.Model.Derive
import Verif.Model.CharStrings
import Verif.Model.Time
import Verif.Spec.TwoWay
import Verif.Model.Float32
/-!
# Types whose values are primitive, and types whose values are constructed

X.690 8.2-8.19: the content of BOOLEAN, INTEGER, ENUMERATED, REAL, NULL, OBJECT IDENTIFIER is primitive, that of
SEQUENCE, SET and of an EXPLICIT tag is constructed; in DER (10.2) that of a string is primitive.
-/
namespace Asn1.Spec
open Asn1

/-- The parsers which, under the rules `m`, have to refuse an object that is constructed, with the error for it. -/
inductive PrimitiveOnly : {α : Type} → Rules → Parser α → InnerError → Prop
  | uint (N : Nat) : PrimitiveOnly .ber (uintBer N) .constructUnexpected
  | int (N : Nat) : PrimitiveOnly .ber (intBer N) .constructUnexpected
  | integer : PrimitiveOnly .ber integerBer .constructUnexpected
  | boolean : PrimitiveOnly .ber booleanBer .constructUnexpected
  | booleanDer : PrimitiveOnly .der booleanDer .constructUnexpected
  | bool : PrimitiveOnly .ber boolBer .constructUnexpected
  | boolDer : PrimitiveOnly .der boolDer .constructUnexpected
  | null (m : Rules) : PrimitiveOnly m nullP .constructUnexpected
  | enumerated : PrimitiveOnly .ber enumeratedBer .constructUnexpected
  | enumeratedDer : PrimitiveOnly .der enumeratedDer .constructUnexpected
  | enum (m : Rules) (p : Parser Nat) (ds : List Nat) : PrimitiveOnly m (enumP p ds) .constructUnexpected
  | oid (m : Rules) : PrimitiveOnly m oidP .constructUnexpected
  | real (m : Rules) (lib : FloatLib) : PrimitiveOnly m (realP lib) .constructUnexpected
  | f64 (m : Rules) (lib : FloatLib) : PrimitiveOnly m (f64P lib) .constructUnexpected
  | f32 (m : Rules) (lib : FloatLib) : PrimitiveOnly m (f32P lib) .constructUnexpected
  /-- Constructed times are allowed by X.690, not supported here. -/
  | utcTime : PrimitiveOnly .ber utcBer .unsupported
  | generalizedTime : PrimitiveOnly .ber genBer .unsupported
  | utcTimeDer : PrimitiveOnly .der utcDer .constructUnexpected
  | generalizedTimeDer : PrimitiveOnly .der genDer .constructUnexpected
  /-- The segments of a string cannot be borrowed as one. -/
  | slice : PrimitiveOnly .ber sliceBer .lifetimeError
  | refStr : PrimitiveOnly .ber refStrBer .lifetimeError
  | sliceDer : PrimitiveOnly .der sliceDer .constructUnexpected
  | refStrDer : PrimitiveOnly .der refStrDer .constructUnexpected
  | octetString : PrimitiveOnly .der octetDer .constructUnexpected
  | bitString : PrimitiveOnly .der bitDer .constructUnexpected
  | text (k : StrKind) : PrimitiveOnly .der (strDer k) .constructUnexpected
  | bmpString : PrimitiveOnly .der bmpDer .constructUnexpected
  | universalString : PrimitiveOnly .der univDer .constructUnexpected
  | alias {α : Type} {m : Rules} {p : Parser α} {e : InnerError} (h : PrimitiveOnly m p e) :
      PrimitiveOnly m (aliasP p) e

/-- The parsers which, under both rules, have to refuse an object that is primitive. -/
inductive ConstructedOnly : {α : Type} → Parser α → Prop
  | vec {α : Type} (parse : Input → PRes Any) (p : Parser α) : ConstructedOnly (vecP parse p)
  | sequenceOf {α : Type} (parse : Input → PRes Any) (p : Parser α) : ConstructedOnly (sequenceOfP parse p)
  | setOf {α : Type} (parse : Input → PRes Any) (p : Parser α) : ConstructedOnly (setOfP parse p)
  | set {α σ : Type} (S : SetImpl α σ) (parse : Input → PRes Any) (p : Parser α) : ConstructedOnly (setP S parse p)
  | array {α : Type} (N : Nat) (parse : Input → PRes Any) (p : Parser α) : ConstructedOnly (arrayP N parse p)
  | raw (tag : Nat) : ConstructedOnly (rawP tag)
  | anySeq (tag : Nat) (parse : Input → PRes Any) : ConstructedOnly (anySeqP tag parse)
  | explicit {α : Type} (cls : Class) (tag : Nat) (parse : Input → PRes α) :
      ConstructedOnly (explicitP cls tag parse)
  | struct {Ts : List Type} (m : Rules) (tag : Nat) (fs : Fields Ts) : ConstructedOnly (structP m tag fs)
  | choice {Ts : List Type} (m : Rules) (vs : Variants Ts) : ConstructedOnly (choiceP m .explicit vs)
  | alias {α : Type} {p : Parser α} (h : ConstructedOnly p) : ConstructedOnly (aliasP p)

end Asn1.Spec

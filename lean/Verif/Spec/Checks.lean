import Verif.Model.Checks
import Verif.Spec.Integer
/-!
# The DER constraints of an object: specification
-/
namespace Asn1.Spec
open Asn1

/-- The object is in primitive form. -/
def PrimitiveObj (a : Any) : Prop := a.header.constructed = false
/-- The length of the object is given by its header. -/
def DefiniteObj (a : Any) : Prop := ∃ n, a.header.length = .definite n

/-- The content of a BIT STRING: the number of unused bits, and bytes of which the last one ends in so many zero
bits (at most eight); no bytes if the number is 0. -/
def PaddedWithZeros : Bytes → Prop
  | [] => False
  | [n] => n = 0
  | n :: b :: bs => ∃ front last, b :: bs = front ++ [last] ∧ n.toNat ≤ 8 ∧ 2 ^ n.toNat ∣ last.toNat

/-- The content starts with the object `x`, as read by `Any::from_ber`. -/
def StartsWithBer (a x : Any) : Prop := ∃ rem, wrapBerParser parseBerAny a.data.data = .ok (rem, x)
/-- The content starts with the object `x`, as read by `Any::from_der`. -/
def StartsWithDer (a x : Any) : Prop := ∃ rem, wrapBerParser parseDerAny a.data.data = .ok (rem, x)

/-- The bytes are the DER objects `xs`, one after the other, and nothing else. -/
inductive ObjectsDer : Bytes → List Any → Prop
  | nil : ObjectsDer [] []
  | cons {b rem x xs} (h : b ≠ []) (hx : wrapBerParser parseDerAny b = .ok (rem, x)) (ht : ObjectsDer rem xs) :
      ObjectsDer b (x :: xs)

/-- The bytes start with the DER objects `xs`, one after the other. -/
inductive BeginsDer : Bytes → List Any → Prop
  | nil {b} : BeginsDer b []
  | cons {b rem x xs} (hx : wrapBerParser parseDerAny b = .ok (rem, x)) (ht : BeginsDer rem xs) :
      BeginsDer b (x :: xs)

mutual
/-- The constraints that `check_constraints` of the type imposes on an object. -/
def Satisfies : CheckTy → Any → Prop
  | .null, _ | .utcTime, _ | .raw, _ => True
  | .boolean, a => ∃ b bs, a.data.data = b :: bs ∧ (b = 0 ∨ b = 0xff)
  | .integer, a => PrimitiveObj a ∧ DefiniteObj a ∧ MinimalInt a.data.data
  | .enumerated, a | .any, a => DefiniteObj a
  | .octetString, a | .charString, a => PrimitiveObj a
  | .bitString, a => PrimitiveObj a ∧ PaddedWithZeros a.data.data
  | .oid, a | .real, a => PrimitiveObj a ∧ DefiniteObj a
  | .generalizedTime, a => (∃ front, a.data.data = front ++ [0x5a]) ∧ (0x2c : UInt8) ∉ a.data.data
  | .embeddedPdv, a => ¬ PrimitiveObj a ∧ DefiniteObj a
  | .option t, a => Satisfies t a
  | .explicit t, a => DefiniteObj a ∧ ∃ x, StartsWithBer a x ∧ Satisfies t x
  | .implicit innerTag t, a => DefiniteObj a ∧ Satisfies t ⟨{ a.header with tag := innerTag }, a.data⟩
  | .explicitParser t, a => DefiniteObj a ∧ ∃ x, StartsWithDer a x ∧ Satisfies t x
  | .sequenceOf t, a => a.header.tag = 16 ∧ ¬ PrimitiveObj a ∧
      ∃ xs, ObjectsDer a.data.data xs ∧ ∀ x ∈ xs, Satisfies t x
  | .setOf t, a => a.header.tag = 17 ∧ ¬ PrimitiveObj a ∧
      ∃ xs, ObjectsDer a.data.data xs ∧ ∀ x ∈ xs, Satisfies t x
  | .alias tag t, a => a.header.tag = tag ∧ Satisfies t a
  | .struct tag ts, a => a.header.tag = tag ∧ ∃ xs, BeginsDer a.data.data xs ∧ SatisfyAll ts xs
/-- One object for each type, which satisfies its constraints. -/
def SatisfyAll : List CheckTy → List Any → Prop
  | [], xs => xs = []
  | t :: ts, xs => ∃ x rest, xs = x :: rest ∧ Satisfies t x ∧ SatisfyAll ts rest
end

mutual
/-- `bool` occurs in the type. -/
def HasBoolean : CheckTy → Prop
  | .boolean => True
  | .option t | .explicit t | .implicit _ t | .explicitParser t | .sequenceOf t | .setOf t | .alias _ t =>
    HasBoolean t
  | .struct _ ts => SomeBoolean ts
  | _ => False
/-- `bool` occurs in one of the types. -/
def SomeBoolean : List CheckTy → Prop
  | [] => False
  | t :: ts => HasBoolean t ∨ SomeBoolean ts
end

end Asn1.Spec

namespace Asn1.Spec
open Asn1

mutual
/-- The `DerParser` `p` belongs to a type whose DER constraints are `t`. Left out: BIT STRING and EMBEDDED PDV, for
which `C127_accepted_by_der_partial` is false, and structs with optional or tagged fields. -/
inductive DerTypeOf : {α : Type} → Parser α → CheckTy → Prop
  | uint (N : Nat) : DerTypeOf (uintDer N) .integer
  | int (N : Nat) : DerTypeOf (intDer N) .integer
  | integer : DerTypeOf integerDer .integer
  | bool : DerTypeOf boolDer .boolean
  | boolean : DerTypeOf booleanDer .boolean
  | null : DerTypeOf nullP .null
  | enumerated : DerTypeOf enumeratedDer .enumerated
  | octetString : DerTypeOf octetDer .octetString
  | slice : DerTypeOf sliceDer .octetString
  | charString (k : StrKind) : DerTypeOf (strDer k) .charString
  | str : DerTypeOf refStrDer .charString
  | bmpString : DerTypeOf bmpDer .charString
  | universalString : DerTypeOf univDer .charString
  | oid : DerTypeOf oidP .oid
  | real (lib : FloatLib) : DerTypeOf (realP lib) .real
  | f64 (lib : FloatLib) : DerTypeOf (f64P lib) .real
  | utcTime : DerTypeOf utcDer .utcTime
  | generalizedTime : DerTypeOf genDer .generalizedTime
  | raw (tag : Nat) : DerTypeOf (rawP tag) .raw
  | vec {α : Type} {p : Parser α} {t : CheckTy} (h : DerTypeOf p t) : DerTypeOf (vecDer p) (.sequenceOf t)
  | sequenceOf {α : Type} {p : Parser α} {t : CheckTy} (h : DerTypeOf p t) :
      DerTypeOf (sequenceOfP anyDer.parseDer p) (.sequenceOf t)
  | setOf {α : Type} {p : Parser α} {t : CheckTy} (h : DerTypeOf p t) :
      DerTypeOf (setOfP anyDer.parseDer p) (.setOf t)
  | set {α σ : Type} (S : SetImpl α σ) {p : Parser α} {t : CheckTy} (h : DerTypeOf p t) :
      DerTypeOf (setP S anyDer.parseDer p) (.setOf t)
  | explicit {α : Type} {p : Parser α} {t : CheckTy} (cls : Class) (tag : Nat) (h : DerTypeOf p t) :
      DerTypeOf (explicitP cls tag p.parseDer) (.explicit t)
  | implicit {α : Type} {p : Parser α} {t : CheckTy} (cls : Class) (tag innerTag : Nat)
      (hi : p.acceptTag innerTag = true) (h : DerTypeOf p t) :
      DerTypeOf (implicitP cls tag p) (.implicit innerTag t)
  | alias {α : Type} {p : Parser α} {t : CheckTy} (tag : Nat) (hi : ∀ n, p.acceptTag n = true ↔ n = tag)
      (h : DerTypeOf p t) : DerTypeOf (aliasP p) (.alias tag t)
  | struct {Ts : List Type} {fs : Fields Ts} {ts : List CheckTy} (tag : Nat) (h : PlainParsers fs ts) :
      DerTypeOf (structP .der tag fs) (.struct tag ts)
/-- The fields of a struct, none of them optional or tagged. -/
inductive PlainParsers : {Ts : List Type} → Fields Ts → List CheckTy → Prop
  | nil : PlainParsers .nil []
  | cons {T : Type} {Ts : List Type} {p : Parser T} {fs : Fields Ts} {t : CheckTy} {ts : List CheckTy}
      (h : DerTypeOf p t) (ht : PlainParsers fs ts) : PlainParsers (.cons (.required .untagged p) fs) (t :: ts)
end

mutual
/-- `g` is `from_der` of a type whose DER constraints are `t`. Left out: the types for which
`C127_from_der_checks_partial` is false, that is `Vec<T>`, `SequenceOf<T>` and the sets, IMPLICIT tags, and structs
with optional or tagged fields. -/
inductive FromDerOf : {α : Type} → (Bytes → Except SErr (Bytes × α)) → CheckTy → Prop
  /-- `FromDer` made from `TryFrom<Any>` and `CheckDerConstraints` -/
  | auto {α : Type} (p : Parser α) (t : CheckTy) : FromDerOf (fromDer p t.check) t
  | explicit {α : Type} {g : Bytes → Except SErr (Bytes × α)} {t : CheckTy} (cls : Class) (tag : Nat)
      (h : FromDerOf g t) : FromDerOf (explicitFromDer cls tag g) (.explicit t)
  | explicitParser {α : Type} {g : Bytes → Except SErr (Bytes × α)} {t : CheckTy} (h : FromDerOf g t) :
      FromDerOf (taggedParserExplicit parseDerAny g) (.explicitParser t)
  | implicitParser {α : Type} (innerTag : Nat) (p : Parser α) (t : CheckTy) :
      FromDerOf (taggedParserImplicitDer innerTag t.check (tryFromAny p)) (.implicit innerTag t)
  | struct {Ts : List Type} {fs : SliceFields Ts} {ts : List CheckTy} (tag : Nat) (h : PlainFields fs ts) :
      FromDerOf (structFromDer tag fs) (.struct tag ts)
/-- The fields of a struct, none of them optional or tagged. -/
inductive PlainFields : {Ts : List Type} → SliceFields Ts → List CheckTy → Prop
  | nil : PlainFields .nil []
  | cons {T : Type} {Ts : List Type} {ty : SliceType T} {fs : SliceFields Ts} {t : CheckTy} {ts : List CheckTy}
      (h : FromDerOf ty.from_ t) (ht : PlainFields fs ts) :
      PlainFields (.cons (.required .untagged ty) fs) (t :: ts)
end

end Asn1.Spec

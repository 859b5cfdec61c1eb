import Verif.Model.AnyMethods
import Verif.Model.Derive
import Verif.Model.Time
/-!
# `CheckDerConstraints` for all types

The checks of the single types are next to their parsers (`checkDerInt`, `bitCheck`, ...). Here are those that
no parser calls, and the check of any type built from the types of the crate.
-/
namespace Asn1

/-- src/asn1_types/tagged/explicit.rs:332-343 `check_constraints` of an explicit `TaggedParser`: the content is
read by `Any::from_der`, where `TaggedValue` (`explicitCheck`) has `Any::from_ber`. -/
def taggedParserExplicitCheck (check : Any → Except SErr Unit) (any : Any) : Except SErr Unit := do
  assertDefiniteS any.header.length
  match wrapBerParser parseDerAny any.data.data with
  | .ok (_, inner) => check inner
  | .error e => .error e.flatten

/-- src/asn1_types/sequence.rs:447-453 `check_constraints` of `Sequence` and src/asn1_types/set.rs:430-434 of
`Set`. -/
def rawCheck (_ : Any) : Except SErr Unit := .ok ()

/-- src/asn1_types/optional.rs:146-153 `check_constraints` of `Option<T>`. -/
def optionCheck (check : Any → Except SErr Unit) (any : Any) : Except SErr Unit := check any

/-- The types with `CheckDerConstraints`, as far as their check is concerned. -/
inductive CheckTy where
  /-- `Null`, `()` -/
  | null
  | utcTime
  /-- `Sequence` and `Set`: the content is kept as bytes -/
  | raw
  /-- `bool`, `Boolean` -/
  | boolean
  /-- `i8` to `i128`, `u8` to `u128`, `Integer` -/
  | integer
  | enumerated
  /-- `OctetString`, `&[u8]` -/
  | octetString
  /-- the character string types, `&str`, `String` -/
  | charString
  | bitString
  | oid
  /-- `Real`, `f32`, `f64` -/
  | real
  | any
  | generalizedTime
  | embeddedPdv
  | option (t : CheckTy)
  /-- `TaggedValue<T, _, Explicit, ..>` -/
  | explicit (t : CheckTy)
  /-- `TaggedValue<T, _, Implicit, ..>` and `TaggedParser<Implicit, T>`, with the tag of `T` -/
  | implicit (innerTag : Nat) (t : CheckTy)
  /-- `TaggedParser<Explicit, T>` -/
  | explicitParser (t : CheckTy)
  /-- `Vec<T>`, `SequenceOf<T>` -/
  | sequenceOf (t : CheckTy)
  /-- `SetOf<T>`, `BTreeSet<T>`, `HashSet<T>` -/
  | setOf (t : CheckTy)
  /-- `derive(DerAlias)`, with the tag of the alias -/
  | alias (tag : Nat) (t : CheckTy)
  /-- `derive(DerSequence)` (tag 16) and `derive(DerSet)` (tag 17), with the types of the fields -/
  | struct (tag : Nat) (ts : List CheckTy)

mutual
/-- `T::check_constraints` for the type `t`: the functions cited at the checks it is made of. -/
def CheckTy.check : CheckTy → Any → Except SErr Unit
  | .null => nullCheck
  | .utcTime => utcCheck
  | .raw => rawCheck
  | .boolean => booleanCheck
  | .integer => checkDerInt
  | .enumerated => enumeratedCheck
  | .octetString => octetCheck
  | .charString => strCheck
  | .bitString => bitCheck
  | .oid => oidCheck
  | .real => realCheck
  | .any => anyCheck
  | .generalizedTime => genCheck
  | .embeddedPdv => pdvCheck
  | .option t => optionCheck t.check
  | .explicit t => explicitCheck t.check
  | .implicit innerTag t => implicitCheck innerTag t.check
  | .explicitParser t => taggedParserExplicitCheck t.check
  | .sequenceOf t => seqCheck 16 t.check
  | .setOf t => seqCheck 17 t.check
  | .alias tag t => aliasCheck tag t.check
  | .struct tag ts => structCheck tag (checks ts)
/-- The checks of the fields of a struct. -/
def checks : List CheckTy → List (Any → Except SErr Unit)
  | [] => []
  | t :: ts => t.check :: checks ts
end

end Asn1

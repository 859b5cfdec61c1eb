import Verif.Model.Containers
import Verif.Model.CharStrings
import Verif.Model.Simple
import Verif.Model.Real
import Verif.Model.Tagged
/-!
# Conversions and other methods of `Any` and `Header`: src/asn1_types/any.rs, src/header.rs

`as_any_str` and `as_any_string` are in Model/CharStrings, `from_ber_and_then` and
`from_der_and_then` in Model/Containers, `TryFrom<Any>` in Model/Typed.
-/
namespace Asn1

/-- src/asn1_types/any.rs:241-259 `impl_any_into!` (`any.u8()`, `any.bool()`, ...) and 261-281
`impl_any_as!` (`any.as_u8()`, `any.as_bool()`, ...): the methods at 283-376. `p` is the `BerParser`
of the type. A shallow copy of the object is the object. -/
def anyInto {α : Type} (p : Parser α) (a : Any) : Except SErr α :=
  match p.content a.header a.data with
  | .ok (_, obj) => .ok obj
  | .error e => .error (SErr.fromNomBerr e)

/-- src/asn1_types/any.rs:308-312 `relative_oid` and 356-360 `as_relative_oid`. -/
def anyRelativeOid (a : Any) : Except SErr Oid := do
  assertTagS a.header tagRelativeOid
  pure ⟨a.data.data, true⟩

/-- src/asn1_types/any.rs:379-389 `as_optional`; `tryFrom` is `TryFrom<&Any> for T`. -/
def anyOptional {α : Type} (tryFrom : Any → Except SErr α) (a : Any) : Except SErr (Option α) :=
  match tryFrom a with
  | .ok t => .ok (some t)
  | .error (.error (.unexpectedTag _ _)) => .ok none
  | .error e => .error e

/-- src/asn1_types/any.rs:140-142 `iter_elements::<Mode>`: the iterator, and what it parses with.
`der` says whether `Mode` is `DerMode`; it is not used. -/
def anyIterElements (_der : Bool) (a : Any) : AnyIter × (Input → PRes Any) :=
  (AnyIter.new a.data, anyBer.parseBer)

/-- src/asn1_types/any.rs:153-166 `parse_content_ber` and `parse_content_der`; `f` is `T::from_ber`
or `T::from_der`. -/
def anyParseContent {α : Type} (f : Bytes → Except SErr (Bytes × α)) (a : Any) :
    Except SErr (Bytes × α) := f a.data.data

/-- src/header.rs:275-282 and src/asn1_types/any.rs:172-177 `parse_ber_content`. -/
def headerBerContent (h : Header) (i : Input) : PRes Input := berContent h i 8

/-- src/header.rs:286-293 and src/asn1_types/any.rs:181-189 `parse_der_content`. -/
def headerDerContent (h : Header) (i : Input) : PRes Input :=
  if !h.length.isDefinite then nomErr i (.derConstraintFailed .indefiniteLength)
  else derContent h i

/-! ### EMBEDDED PDV: src/asn1_types/embedded_pdv.rs -/

/-- src/asn1_types/embedded_pdv.rs:19-33 `PdvIdentification`. -/
inductive PdvIdentification where
  | syntaxes (sAbstract sTransfer : Oid)
  | syntax (oid : Oid)
  | presentationContextId (i : Integer)
  | contextNegotiation (presentationContextId : Integer) (presentationSyntax : Oid)
  | transferSyntax (oid : Oid)
  | fixed
  deriving DecidableEq, Repr

/-- src/asn1_types/embedded_pdv.rs:12-17 `EmbeddedPdv`. -/
structure EmbeddedPdv where
  identification : PdvIdentification
  dataValueDescriptor : Option Text
  dataValue : Bytes
  deriving DecidableEq, Repr

/-- `TaggedImplicit::<T, _, tag>::parse_ber` (context-specific class). -/
def contextBer {α : Type} (tag : Nat) (p : Parser α) (i : Input) : PRes (TaggedValue α) :=
  (implicitP .contextSpecific tag p).parseBer i

/-- src/asn1_types/embedded_pdv.rs:62-69 and 85-98: the two fields of a SEQUENCE with automatic
tags. -/
def pdvPair {α β : Type} (p : Parser α) (q : Parser β) (data : Input) : Except PErr (α × β) := do
  let (rem, x) ← contextBer 0 p data
  let (_, y) ← contextBer 1 q rem
  pure (x.inner, y.inner)

/-- src/asn1_types/embedded_pdv.rs:55-115: the alternative, by the tag of `inner0`. -/
def pdvIdentification (inner0 : Any) : Except PErr PdvIdentification :=
  match inner0.header.tag with
  | 0 => (pdvPair oidP oidP inner0.data).map fun x => .syntaxes x.1 x.2
  | 1 => (oidP.content inner0.header inner0.data).map fun x => .syntax x.2
  | 2 => (integerBer.content inner0.header inner0.data).map fun x => .presentationContextId x.2
  | 3 => (pdvPair integerBer oidP inner0.data).map fun x => .contextNegotiation x.1 x.2
  | 4 => (oidP.content inner0.header inner0.data).map fun x => .transferSyntax x.2
  | 5 => .ok .fixed
  | _ => nomErr inner0.data (.invalidValue inner0.header.tag "Invalid identification tag in EMBEDDED PDV")

/-- src/asn1_types/embedded_pdv.rs:45-130 `from_ber_content`. -/
def pdvContent (_ : Header) (input : Input) : PRes EmbeddedPdv := do
  let (rem, t0) ← contextBer 0 anyBer input
  let identification ← pdvIdentification t0.inner
  let (rem, t1) ← optionParse parseHeader (implicitP .contextSpecific 1 (strBer objectDescriptorK)) rem
  let (rem, t2) ← contextBer 2 sliceBer rem
  pure (rem, ⟨identification, t1.map (·.inner), t2.inner⟩)

/-- `BerParser` (42-131) and `DerParser` (133-142, the same) for `EmbeddedPdv`; the tag is 11. -/
def pdvP : Parser EmbeddedPdv := ⟨tagIs 11, pdvContent⟩

/-- src/asn1_types/embedded_pdv.rs:144-150 `check_constraints`. -/
def pdvCheck (a : Any) : Except SErr Unit := do
  assertDefiniteS a.header.length
  assertConstructedS a.header

end Asn1

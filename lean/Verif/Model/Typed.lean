import Verif.Model.Ber
/-!
# Typed parsing: src/from_ber.rs, src/from_der.rs, src/tag.rs, src/asn1_types/any.rs
-/
namespace Asn1

/-- What a Rust type provides to be parsed: `DynTagged::accept_tag` (src/tag.rs:128) and either
`BerParser::from_ber_content` (src/from_ber.rs:124-127) or `DerParser::from_der_content`
(src/from_der.rs:176-179). A type implementing both traits is two values of `Parser`. -/
structure Parser (α : Type) where
  acceptTag : Nat → Bool
  content : Header → Input → PRes α

/-- src/length.rs:33-38 `definite_inner`, through `BerError::convert_into(input)`. -/
def definiteInner (l : Length) (input : Input) : Except PErr Nat :=
  match l with
  | .definite n => .ok n
  | .indefinite => nomErr input .indefiniteLengthUnexpected

namespace Parser
variable {α : Type}

/-- src/from_ber.rs:98-116 `BerParser::parse_ber`. -/
def parseBer (p : Parser α) (input : Input) : PRes α := do
  let (rem, header) ← parseHeader input
  if !p.acceptTag header.tag then nomErr input (.unexpectedTag none header.tag)
  else do
    let (rem, data) ← berContent header rem MAX_RECURSION
    let (_, obj) ← p.content header data
    pure (rem, obj)

/-- src/from_ber.rs:129-141 `BerParser::parse_ber_optional`. -/
def parseBerOptional (p : Parser α) (input : Input) : PRes (Option α) :=
  if input.len = 0 then .ok (input, none)
  else do
    let (rem, header) ← parseHeader input
    if !p.acceptTag header.tag then .ok (input, none)
    else do
      let (rem, data) ← berContent header rem MAX_RECURSION
      let (_, obj) ← p.content header data
      pure (rem, some obj)

/-- src/from_ber.rs:144-160 `BerParser::parse_ber_as_input`. -/
def parseBerAsInput (p : Parser α) (input : Input) : PRes (Header × Input) := do
  let (rem, header) ← parseHeader input
  if !p.acceptTag header.tag then nomErr input (.unexpectedTag none header.tag)
  else do
    let (rem, data) ← berContent header rem MAX_RECURSION
    pure (rem, (header, data))

/-- src/from_der.rs:140-162 `DerParser::parse_der`. -/
def parseDer (p : Parser α) (input : Input) : PRes α := do
  let (rem, header) ← parseHeaderDer input
  let length ← definiteInner header.length input
  if !p.acceptTag header.tag then nomErr input (.unexpectedTag none header.tag)
  else do
    let (rem, data) ← takeS length rem
    let (_, obj) ← p.content header data
    pure (rem, obj)

/-- src/from_der.rs:181-197 `DerParser::parse_der_optional`. -/
def parseDerOptional (p : Parser α) (input : Input) : PRes (Option α) :=
  if input.len = 0 then .ok (input, none)
  else do
    let (rem, header) ← parseHeaderDer input
    if !p.acceptTag header.tag then .ok (input, none)
    else do
      let length ← definiteInner header.length input
      let (rem, data) ← takeS length rem
      let (_, obj) ← p.content header data
      pure (rem, some obj)

/-- src/from_der.rs:200-216 `DerParser::parse_der_as_input`. -/
def parseDerAsInput (p : Parser α) (input : Input) : PRes (Header × Input) := do
  let (rem, header) ← parseHeaderDer input
  if !p.acceptTag header.tag then nomErr input (.unexpectedTag none header.tag)
  else do
    let (rem, data) ← derContent header rem
    pure (rem, (header, data))

end Parser

/-! ### The byte-slice API -/

/-- `nom::Err<Error>` (`ParseResult`, src/error.rs:522) and plain `Error` (`Result`,
src/error.rs:525; then always `error`), plus the outcomes that are not Rust values. -/
inductive SErr where
  | incomplete (n : Nat)
  | error (e : Error)
  | panic
  | diverge
  deriving DecidableEq, Repr

/-- `Err::convert` from `Err<BerError<Input>>` to `Err<Error>` (src/error.rs:451-455), as in
`wrap_ber_parser`. -/
def SErr.convert : PErr → SErr
  | .incomplete n => .incomplete n
  | .error _ e => .error (Error.ofInner e)
  | .panic => .panic
  | .diverge => .diverge

/-- `Error::from_nom_berr` (src/error.rs:401-406). -/
def SErr.fromNomBerr : PErr → SErr
  | .incomplete n => .error (.incomplete (.size n))
  | .error _ e => .error (Error.ofInner e)
  | .panic => .panic
  | .diverge => .diverge

/-- src/from_ber.rs:164-175 `wrap_ber_parser`. -/
def wrapBerParser {α : Type} (f : Input → PRes α) (bytes : Bytes) : Except SErr (Bytes × α) :=
  match f (Input.fromSlice bytes) with
  | .ok (rem, res) => .ok (rem.data, res)
  | .error e => .error (SErr.convert e)

/-- src/asn1_types/any.rs:196-210 `TryFrom<Any>` made by `impl_tryfrom_any!` (`p` is the
`BerParser` of the type; the version on references, 212-226, is the same). -/
def tryFromAny {α : Type} (p : Parser α) (any : Any) : Except SErr α :=
  if !p.acceptTag any.header.tag then .error (.error (.unexpectedTag none any.header.tag))
  else
    match p.content any.header any.data with
    | .ok (_, obj) => .ok obj
    | .error e => .error (SErr.fromNomBerr e)

/-- src/from_ber.rs:59-77: `FromBer` for types with `TryFrom<Any>`. -/
def fromBer {α : Type} (p : Parser α) (bytes : Bytes) : Except SErr (Bytes × α) := do
  let (i, any) ← wrapBerParser parseBerAny bytes
  let result ← tryFromAny p any
  pure (i, result)

/-- src/from_der.rs:93-114: `FromDer` for types with `TryFrom<Any>`, `CheckDerConstraints` and
`DerAutoDerive`. `p` is the `BerParser` of the type, `check` its `check_constraints`. -/
def fromDer {α : Type} (p : Parser α) (check : Any → Except SErr Unit) (bytes : Bytes) :
    Except SErr (Bytes × α) := do
  let (i, any) ← wrapBerParser parseDerAny bytes
  check any
  let result ← tryFromAny p any
  pure (i, result)

/-- src/header.rs:160-166 `Header::assert_primitive`. -/
def assertPrimitiveS (h : Header) : Except SErr Unit :=
  if h.constructed then .error (.error .constructUnexpected) else .ok ()

/-- src/header.rs:196-202 `Header::assert_constructed`. -/
def assertConstructedS (h : Header) : Except SErr Unit :=
  if h.constructed then .ok () else .error (.error .constructExpected)

/-- src/length.rs:48-53 `Length::assert_definite`. -/
def assertDefiniteS (l : Length) : Except SErr Unit :=
  if l.isDefinite then .ok () else .error (.error .indefiniteLengthUnexpected)

/-- src/tag.rs:147-149: `accept_tag` of types with a constant tag. -/
def tagIs (t : Nat) (tag : Nat) : Bool := tag = t

/-- `input.take_from(input.len())` used by the content parsers to say that everything was
consumed. -/
def Input.atEnd (i : Input) : Except PErr Input := i.takeFrom i.len

/-- src/asn1_types/any.rs:43-56 `Any::from_tag_and_data`; 16 and 17 are SEQUENCE and SET. -/
def Any.fromTagAndData (tag : Nat) (data : Input) : Any :=
  ⟨⟨.universal, tag = 16 || tag = 17, tag, .definite data.len, none, none⟩, data⟩

/-- src/asn1_types/any.rs:496-516 `BerParser for Any`, 566-569 `accept_tag`. -/
def anyBer : Parser Any where
  acceptTag _ := true
  content h input := do
    let (rem, data) ← match h.length with
      | .definite l => takeS l input
      | .indefinite => takeS input.len input
    pure (rem, ⟨h, data⟩)

/-- src/asn1_types/any.rs:525-541 `DerParser for Any`. -/
def anyDer : Parser Any where
  acceptTag _ := true
  content h input := do
    let (rem, data) ← derContent h input
    pure (rem, ⟨h, data⟩)

/-- src/asn1_types/any.rs:543-549 `CheckDerConstraints for Any`. -/
def anyCheck (a : Any) : Except SErr Unit := assertDefiniteS a.header.length

end Asn1

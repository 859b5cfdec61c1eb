import Verif.Model.Oid
import Verif.Model.ErrorConv
/-!
# Tagged values and optional values

src/asn1_types/tagged.rs, src/asn1_types/tagged/{explicit,implicit,parser,builder,helpers,optional}.rs,
src/asn1_types/optional.rs, src/asn1_types/any.rs:91-134.

The const parameter `CLASS: u8` is a `Class` (a value above 3 does not compile in the explicit
case, `Class::new_unwrap`). The error type `E` of the byte-slice API is `Error`.
-/
namespace Asn1

/-- src/asn1_types/tagged.rs:62-70 `TaggedValue` (the phantom fields are left out), with its
constructors `explicit` (95-101) and `implicit` (107-113) and `into_inner` (76-78). -/
structure TaggedValue (α : Type) where
  inner : α
  deriving DecidableEq, Repr

variable {α : Type}

/-- `Class::assert_eq` through `From<Error>`, in the byte-slice API. -/
def assertClassS (h : Header) (cls : Class) : Except SErr Unit :=
  match h.cls.assertEq cls with
  | .ok _ => .ok ()
  | .error e => .error (.error e)

/-! ### EXPLICIT -/

/-- src/asn1_types/tagged/explicit.rs:57-88 and 100-131 `from_ber_content` and
`from_der_content`; `parse` is `T::parse_ber`, respectively `T::parse_der`. `accept_tag` is the
one of a type with a constant tag (5-9). -/
def explicitP (cls : Class) (tag : Nat) (parse : Input → PRes α) : Parser (TaggedValue α) where
  acceptTag := tagIs tag
  content h input := do
    h.assertConstructed input
    if h.cls ≠ cls then nomErr input (.unexpectedClass (some cls) h.cls)
    else if !tagIs tag h.tag then nomErr input (.unexpectedTag (some tag) h.tag)
    else do
      let (rem, t) ← parse input
      pure (rem, ⟨t⟩)

/-- src/asn1_types/tagged/explicit.rs:38-43: `Incomplete` becomes an error. -/
def SErr.flatten : SErr → SErr
  | .incomplete n => .error (.incomplete (.size n))
  | e => e

/-- src/asn1_types/tagged/explicit.rs:31-45 `TryFrom<&Any>`; `fromBer` is `T::from_ber`. -/
def explicitTryFrom (cls : Class) (tag : Nat) (fromBer : Bytes → Except SErr (Bytes × α))
    (any : Any) : Except SErr (TaggedValue α) := do
  assertTagS any.header tag
  assertConstructedS any.header
  if any.header.cls ≠ cls then .error (.error (.unexpectedClass (some cls) any.header.cls))
  else
    match fromBer any.data.data with
    | .ok (_, inner) => .ok ⟨inner⟩
    | .error e => .error e.flatten

/-- src/from_ber.rs:59-77: `FromBer` for types with `TryFrom<Any>`, given the conversion. -/
def fromBerWith (tryFrom : Any → Except SErr α) (bytes : Bytes) : Except SErr (Bytes × α) := do
  let (i, any) ← wrapBerParser parseBerAny bytes
  let result ← tryFrom any
  pure (i, result)

/-- src/asn1_types/tagged/explicit.rs:140-156 `FromDer`; `fromDer` is `T::from_der`. -/
def explicitFromDer (cls : Class) (tag : Nat) (fromDer : Bytes → Except SErr (Bytes × α))
    (bytes : Bytes) : Except SErr (Bytes × TaggedValue α) := do
  let (rem, any) ← wrapBerParser parseDerAny bytes
  assertTagS any.header tag
  assertConstructedS any.header
  if any.header.cls ≠ cls then .error (.error (.unexpectedClass (some cls) any.header.cls))
  else do
    let (_, inner) ← fromDer any.data.data
    pure (rem, ⟨inner⟩)

/-- src/asn1_types/tagged/explicit.rs:164-169 `check_constraints` of an EXPLICIT value. The `?` on
`Any::from_ber` turns `nom::Err<Error>` into `Error` (src/error.rs:442-449). -/
def explicitCheck (check : Any → Except SErr Unit) (any : Any) : Except SErr Unit := do
  assertDefiniteS any.header.length
  match wrapBerParser parseBerAny any.data.data with
  | .ok (_, inner) => check inner
  | .error e => .error e.flatten

/-- src/asn1_types/tagged/explicit.rs:174-217 `ToBer` and `ToDer`; `dynTag` is `DynTagged::tag` of
the inner value, `t` its `ToBer` (`ToDer`). -/
def explicitToBer (cls : Class) (tag : Nat) (dynTag : α → Nat) (t : ToBer α) :
    ToBer (TaggedValue α) where
  encoder := .generic
  contentLen v := berTotalLength (dynTag v.inner) (t.contentLen v.inner)
  tagInfo _ := (cls, true, tag)
  writeContent v := t.encode v.inner

/-! ### IMPLICIT -/

/-- src/asn1_types/tagged/implicit.rs:81-101 and 112-132 `from_ber_content` and
`from_der_content`; `p` is the `BerParser` (`DerParser`) of the inner type; `accept_tag` is
23-25. -/
def implicitP (cls : Class) (tag : Nat) (p : Parser α) : Parser (TaggedValue α) where
  acceptTag := tagIs tag
  content h input :=
    if h.cls ≠ cls then nomErr input (.unexpectedClass (some cls) h.cls)
    else do
      let (rem, t) ← p.content h input
      pure (rem, ⟨t⟩)

/-- src/asn1_types/tagged/implicit.rs:51-70 `TryFrom<&Any>`; `innerTag` is `T::TAG`, `tryFrom` is
`T::try_from`. -/
def implicitTryFrom (cls : Class) (tag : Nat) (innerTag : Nat) (tryFrom : Any → Except SErr α)
    (any : Any) : Except SErr (TaggedValue α) := do
  assertTagS any.header tag
  if any.header.cls ≠ cls then .error (.error (.unexpectedClass (some cls) any.header.cls))
  else do
    let inner ← tryFrom ⟨{ any.header with tag := innerTag }, any.data⟩
    pure ⟨inner⟩

/-- src/asn1_types/tagged/implicit.rs:142-164 `FromDer`. -/
def implicitFromDer (cls : Class) (tag : Nat) (innerTag : Nat) (tryFrom : Any → Except SErr α)
    (bytes : Bytes) : Except SErr (Bytes × TaggedValue α) := do
  let (rem, any) ← wrapBerParser parseDerAny bytes
  let t ← implicitTryFrom cls tag innerTag tryFrom any
  pure (rem, t)

/-- src/asn1_types/tagged/implicit.rs:173-179 `check_constraints` (the same in 329-340). -/
def implicitCheck (innerTag : Nat) (check : Any → Except SErr Unit) (any : Any) :
    Except SErr Unit := do
  assertDefiniteS any.header.length
  check ⟨{ any.header with tag := innerTag }, any.data⟩

/-- src/asn1_types/tagged/implicit.rs:184-222 `ToBer` and `ToDer`; `dynConstructed` is
`DynTagged::constructed` of the inner value (13-17). -/
def implicitToBer (cls : Class) (tag : Nat) (dynConstructed : α → Bool) (t : ToBer α) :
    ToBer (TaggedValue α) where
  encoder := .generic
  contentLen v := t.contentLen v.inner
  tagInfo v := (cls, dynConstructed v.inner, tag)
  writeContent v := t.writeContent v.inner

/-! ### `TaggedParser` -/

/-- src/asn1_types/tagged/parser.rs:4-11 `TaggedParser`. -/
structure TaggedParser (α : Type) where
  header : Header
  inner : α
  deriving DecidableEq, Repr

/-- src/asn1_types/tagged/explicit.rs:300-311 and 319-330 `FromBer` and `FromDer` of an explicit
`TaggedParser`; `parse` is the generic parser, `from` is `T::from_ber` (`T::from_der`). -/
def taggedParserExplicit (parse : Input → PRes Any) (from_ : Bytes → Except SErr (Bytes × α))
    (bytes : Bytes) : Except SErr (Bytes × TaggedParser α) := do
  let (rem, any) ← wrapBerParser parse bytes
  let (_, inner) ← from_ any.data.data
  pure (rem, ⟨any.header, inner⟩)

/-- src/asn1_types/tagged/implicit.rs:253-275 `FromBer` of an implicit `TaggedParser`. -/
def taggedParserImplicitBer (innerTag : Nat) (tryFrom : Any → Except SErr α) (bytes : Bytes) :
    Except SErr (Bytes × TaggedParser α) := do
  let (rem, any) ← wrapBerParser parseBerAny bytes
  let t ← tryFrom ⟨{ any.header with tag := innerTag }, any.data⟩
  pure (rem, ⟨any.header, t⟩)

/-- src/asn1_types/tagged/implicit.rs:298-321 `FromDer` of an implicit `TaggedParser`. -/
def taggedParserImplicitDer (innerTag : Nat) (check : Any → Except SErr Unit)
    (tryFrom : Any → Except SErr α) (bytes : Bytes) : Except SErr (Bytes × TaggedParser α) := do
  let (rem, any) ← wrapBerParser parseDerAny bytes
  check ⟨{ any.header with tag := innerTag }, any.data⟩
  let t ← tryFrom ⟨{ any.header with tag := innerTag }, any.data⟩
  pure (rem, ⟨any.header, t⟩)

/-- src/asn1_types/tagged/parser.rs:53-58 and 66-71 `TaggedParser::parse_ber` and `parse_der`;
`from_` is its `FromBer` (`FromDer`). -/
def TaggedParser.parse (cls : Class) (tag : Nat)
    (from_ : Bytes → Except SErr (Bytes × TaggedParser α)) (bytes : Bytes) :
    Except SErr (Bytes × TaggedParser α) := do
  let (rem, t) ← from_ bytes
  assertClassS t.header cls
  assertTagS t.header tag
  pure (rem, t)

/-- src/asn1_types/tagged/builder.rs:28-33 `TaggedParserBuilder`. -/
structure TaggedParserBuilder where
  cls : Class
  tag : Nat
  deriving DecidableEq, Repr

namespace TaggedParserBuilder
/-- src/asn1_types/tagged/builder.rs:51-58 `new` (same for `explicit`, `implicit`, `default`). -/
def new : TaggedParserBuilder := ⟨.universal, 0⟩
/-- src/asn1_types/tagged/builder.rs:61-63 `with_class`. -/
def withClass (b : TaggedParserBuilder) (cls : Class) : TaggedParserBuilder := { b with cls := cls }
/-- src/asn1_types/tagged/builder.rs:66-68 `with_tag`. -/
def withTag (b : TaggedParserBuilder) (tag : Nat) : TaggedParserBuilder := { b with tag := tag }
/-- src/asn1_types/tagged/builder.rs:89-98 and 104-113 `ber_parser` and `der_parser`. -/
def parser (b : TaggedParserBuilder) (from_ : Bytes → Except SErr (Bytes × TaggedParser α))
    (bytes : Bytes) : Except SErr (Bytes × TaggedParser α) :=
  TaggedParser.parse b.cls b.tag from_ bytes
end TaggedParserBuilder

/-- src/asn1_types/tagged/helpers.rs:8-23 and 43-57 `parse_der_tagged_explicit` and
`parse_der_tagged_implicit`; `from_` is the `FromDer` of the `TaggedParser`. -/
def parseDerTagged (tag : Nat) (from_ : Bytes → Except SErr (Bytes × TaggedParser α))
    (bytes : Bytes) : Except SErr (Bytes × TaggedParser α) := do
  let (rem, t) ← from_ bytes
  assertTagS t.header tag
  pure (rem, t)

/-- src/asn1_types/tagged/helpers.rs:86-99 `parse_der_container`. -/
def parseDerContainer (tag : Nat) (f : Any → Except SErr (Bytes × α)) (bytes : Bytes) :
    Except SErr (Bytes × α) := do
  let (rem, any) ← wrapBerParser parseDerAny bytes
  assertTagS any.header tag
  let (_, output) ← f any
  pure (rem, output)

/-- src/asn1_types/tagged/helpers.rs:25-41 `parse_der_tagged_explicit_g`. -/
def parseDerTaggedExplicitG (tag : Nat) (f : Bytes → Header → Except SErr (Bytes × α))
    (bytes : Bytes) : Except SErr (Bytes × α) :=
  parseDerContainer tag (fun any => do
    assertTagS any.header tag
    f any.data.data any.header) bytes

/-- src/asn1_types/tagged/helpers.rs:60-84 `parse_der_tagged_implicit_g`. -/
def parseDerTaggedImplicitG (tag : Nat) (innerTag : Nat)
    (f : Bytes → Nat → Header → Except SErr (Bytes × α)) (bytes : Bytes) :
    Except SErr (Bytes × α) :=
  parseDerContainer tag (fun any => do
    assertTagS any.header tag
    f any.data.data tag { any.header with tag := innerTag }) bytes

/-- src/asn1_types/tagged/explicit.rs:347-383 `ToBer` and `ToDer` of an explicit `TaggedParser`. -/
def taggedParserExplicitToBer (t : ToBer α) : ToBer (TaggedParser α) where
  encoder := .generic
  contentLen v := t.totalLen v.inner
  tagInfo v := (v.header.cls, true, v.header.tag)
  writeContent v := t.encode v.inner

/-- src/asn1_types/tagged/implicit.rs:345-381 `ToBer` and `ToDer` of an implicit `TaggedParser`.
`self.constructed()` is the default method of `DynTagged` (src/tag.rs:117-119), which
src/asn1_types/tagged/parser.rs:74-83 does not override: false. -/
def taggedParserImplicitToBer (t : ToBer α) : ToBer (TaggedParser α) where
  encoder := .generic
  contentLen v := t.contentLen v.inner
  tagInfo v := (v.header.cls, false, v.header.tag)
  writeContent v := t.writeContent v.inner

/-- src/asn1_types/tagged/explicit.rs:245-252 `new_explicit`. -/
def TaggedParser.newExplicit (cls : Class) (tag : Nat) (inner : α) : TaggedParser α :=
  ⟨Header.new cls true tag (.definite 0), inner⟩

/-- src/asn1_types/tagged/implicit.rs:281-288 `new_implicit`. -/
def TaggedParser.newImplicit (cls : Class) (constructed : Bool) (tag : Nat) (inner : α) :
    TaggedParser α :=
  ⟨Header.new cls constructed tag (.definite 0), inner⟩

/-- src/asn1_types/any.rs:91-110 and 115-134 `Any::from_ber_and_then` and `from_der_and_then`;
`parse` is the generic parser (also src/asn1_types/tagged/explicit.rs:261-292). -/
def fromAndThen (parse : Input → PRes Any) (cls : Class) (tag : Nat) (bytes : Bytes)
    (op : Bytes → Except SErr (Bytes × α)) : Except SErr (Bytes × α) := do
  let (rem, any) ← wrapBerParser parse bytes
  assertTagS any.header tag
  assertClassS any.header cls
  let (_, res) ← op any.data.data
  pure (rem, res)

/-! ### `OptTaggedParser` -/

/-- src/asn1_types/tagged/optional.rs:51-57 `OptTaggedParser`. -/
structure OptTaggedParser where
  cls : Class
  tag : Nat
  deriving DecidableEq, Repr

namespace OptTaggedParser
/-- src/asn1_types/tagged/optional.rs:65-67. -/
def universal (tag : Nat) : OptTaggedParser := ⟨.universal, tag⟩
/-- src/asn1_types/tagged/optional.rs:69-71 `tagged`, 168-182 `From<Tag>` and `From<u32>`. -/
def tagged (tag : Nat) : OptTaggedParser := ⟨.contextSpecific, tag⟩
/-- src/asn1_types/tagged/optional.rs:73-75. -/
def application (tag : Nat) : OptTaggedParser := ⟨.application, tag⟩
/-- src/asn1_types/tagged/optional.rs:77-79. -/
def priv (tag : Nat) : OptTaggedParser := ⟨.priv, tag⟩

/-- src/asn1_types/tagged/optional.rs:102-122 `parse_ber` and 145-165 `parse_der`; `parse` is the
generic parser. -/
def run (o : OptTaggedParser) (parse : Input → PRes Any) (bytes : Bytes)
    (f : Header → Bytes → Except SErr (Bytes × α)) : Except SErr (Bytes × Option α) :=
  if bytes.isEmpty then .ok (bytes, none)
  else do
    let (rem, any) ← wrapBerParser parse bytes
    if any.header.tag ≠ o.tag then .ok (bytes, none)
    else if any.header.cls ≠ o.cls then
      .error (.error (.unexpectedClass (some o.cls) any.header.cls))
    else do
      let (_, res) ← f any.header any.data.data
      pure (rem, some res)
end OptTaggedParser

/-! ### `Option<T>` -/

/-- src/asn1_types/optional.rs:19-33 `FromBer` and 129-143 `FromDer`; `header` is
`Header::from_ber` (`from_der`), `from_` is `T::from_ber` (`from_der`). -/
def optionFrom (acceptTag : Nat → Bool) (header : Input → PRes Header)
    (from_ : Bytes → Except SErr (Bytes × α)) (bytes : Bytes) :
    Except SErr (Bytes × Option α) :=
  if bytes.isEmpty then .ok (bytes, none)
  else
    let other := match wrapBerParser header bytes with
      | .ok (_, h) => !acceptTag h.tag
      | .error _ => false
    if other then .ok (bytes, none)
    else
      match from_ bytes with
      | .ok (rem, t) => .ok (rem, some t)
      | .error e => .error e

/-- src/asn1_types/optional.rs:64-76 and 106-118 `from_ber_content` and `from_der_content`. Both
read the content out of the input once more, in BER mode. -/
def optionContent (p : Parser α) (h : Header) (input : Input) : PRes (Option α) :=
  if !p.acceptTag h.tag then .ok (input, none)
  else do
    let (rem, data) ← berContent h input MAX_RECURSION
    let (_, obj) ← p.content h data
    pure (rem, some obj)

/-- src/asn1_types/optional.rs:40-62 and 83-104 `parse_ber` and `parse_der`; `header` is
`Header::parse_ber` (`parse_der`), `p` the `BerParser` (`DerParser`) of `T`. -/
def optionParse (header : Input → PRes Header) (p : Parser α) (input : Input) :
    PRes (Option α) :=
  if input.isEmpty then .ok (input, none)
  else do
    let (rem, h) ← header input
    if !p.acceptTag h.tag then .ok (input, none)
    else do
      let (rem, data) ← berContent h rem MAX_RECURSION
      let (_, obj) ← optionContent p h data
      pure (rem, obj)

/-- src/asn1_types/optional.rs:159-165 `DynTagged::tag` of `Option<T>`, run for at most `fuel`
nested calls; `none` if it has not returned by then. -/
def optionTag : Nat → Option α → Option Nat
  | 0, _ => none
  | fuel + 1, v => if v.isSome then optionTag fuel v else some 0

/-- src/asn1_types/optional.rs:182-187 and 214-219 `ber_content_len`, `der_content_len`. -/
def optionContentLen (t : ToBer α) : Option α → Length
  | some v => t.contentLen v
  | none => .definite 0

/-- src/asn1_types/optional.rs:189-194 and 221-226 `ber_write_content`, `der_write_content`. -/
def optionWriteContent (t : ToBer α) : Option α → Wr Nat
  | some v => t.writeContent v
  | none => pure 0

/-- src/asn1_types/optional.rs:200-205 and 232-237 `ber_encode`, `der_encode`. -/
def optionEncode (t : ToBer α) : Option α → Wr Nat
  | some v => t.encode v
  | none => pure 0

/-- `ber_total_len` (src/to_ber.rs:32-36) of an `Option<T>`, with `optionTag`. -/
def optionTotalLen (t : ToBer α) (fuel : Nat) (v : Option α) : Option Length :=
  (optionTag fuel v).map fun tag => berTotalLength tag (optionContentLen t v)

end Asn1

import Verif.Model.Derive
/-!
# Types with their own error type

`BerParser::Error` (src/from_ber.rs:78-92), `DerParser::Error` (src/from_der.rs:120-134); the attributes
`#[error(E)]` and `#[map_err(f)]` of the derive macros (derive/src/container.rs:277-282 and 958-962,
derive/src/choice.rs:205-209 and 241-246, derive/src/enumerated.rs:115-138, derive/src/alias.rs:138-143
and 178-182).

The types of the crate have the error type `BerError`; those with type parameters (`Vec<T>`, tagged
values, `Option<T>`) have the one of `T`. The parsers below are the ones of Model/Typed, Model/Tagged,
Model/Containers and Model/Derive with an arbitrary error type `ε`.
-/
namespace Asn1

/-- `nom::Err<ε>`, plus the outcomes that are not Rust values. -/
inductive NErr (ε : Type) where
  | incomplete (n : Nat)
  | error (e : ε)
  | panic
  | diverge
  deriving DecidableEq, Repr

variable {α ε ε' : Type}

/-- `IResult<Input, α, ε>`. -/
notation:max "GRes " ε:max α:max => Except (NErr ε) (Input × α)

/-- nom's `Err::map`. -/
def NErr.map (f : ε' → ε) : NErr ε' → NErr ε
  | .incomplete n => .incomplete n
  | .error e => .error (f e)
  | .panic => .panic
  | .diverge => .diverge

/-- `Result::map_err(|err| err.map(f))`. -/
def mapErrG {β : Type} (f : ε' → ε) : Except (NErr ε') β → Except (NErr ε) β
  | .ok x => .ok x
  | .error e => .error (e.map f)

/-- `nom::Err<BerError>` as `NErr BerErr`. -/
def NErr.ofP : PErr → NErr BerErr
  | .incomplete n => .incomplete n
  | .error i e => .error ⟨i, e⟩
  | .panic => .panic
  | .diverge => .diverge

/-- `Result::map_err(Err::convert)`, from `BerError` to a type `ε` with `conv = ε::from`. -/
def convertG {β : Type} (conv : BerErr → ε) : Except PErr β → Except (NErr ε) β
  | .ok x => .ok x
  | .error e => .error ((NErr.ofP e).map conv)

/-- `Err(Err::Error(BerError::new(input, e).into()))`. -/
def nomErrG {β : Type} (conv : BerErr → ε) (input : Input) (e : InnerError) : Except (NErr ε) β :=
  .error (.error (conv ⟨input, e⟩))

/-- `BerParser` (`DerParser`) of a type whose `Error` is `ε`, with `conv` the implementation
`From<BerError<Input>> for ε` (src/from_ber.rs:90-92). -/
structure GParser (ε α : Type) where
  conv : BerErr → ε
  acceptTag : Nat → Bool
  content : Header → Input → GRes ε α

/-- A parser of the crate, whose error type is `BerError`. -/
def Parser.plain (p : Parser α) : GParser BerErr α where
  conv := id
  acceptTag := p.acceptTag
  content h input := convertG id (p.content h input)

namespace GParser

/-- src/from_ber.rs:98-116 `BerParser::parse_ber`. -/
def parseBer (p : GParser ε α) (input : Input) : GRes ε α := do
  let (rem, header) ← convertG p.conv (parseHeader input)
  if !p.acceptTag header.tag then nomErrG p.conv input (.unexpectedTag none header.tag)
  else do
    let (rem, data) ← convertG p.conv (berContent header rem MAX_RECURSION)
    let (_, obj) ← p.content header data
    pure (rem, obj)

/-- src/from_der.rs:140-162 `DerParser::parse_der`. -/
def parseDer (p : GParser ε α) (input : Input) : GRes ε α := do
  let (rem, header) ← convertG p.conv (parseHeaderDer input)
  let length ← convertG p.conv (definiteInner header.length input)
  if !p.acceptTag header.tag then nomErrG p.conv input (.unexpectedTag none header.tag)
  else do
    let (rem, data) ← convertG p.conv (takeS length rem)
    let (_, obj) ← p.content header data
    pure (rem, obj)

end GParser

/-- `T::parse_ber` or `T::parse_der`. -/
def Rules.parseG (m : Rules) (p : GParser ε α) : Input → GRes ε α :=
  match m with
  | .ber => p.parseBer
  | .der => p.parseDer

/-- `Any` under these rules. -/
def Rules.anyP : Rules → Parser Any
  | .ber => anyBer
  | .der => anyDer

/-! ### Tagged values and optional values -/

/-- src/asn1_types/tagged/explicit.rs:57-88 and 100-131. -/
def explicitG (m : Rules) (cls : Class) (tag : Nat) (p : GParser ε α) :
    GParser ε (TaggedValue α) where
  conv := p.conv
  acceptTag := tagIs tag
  content h input := do
    convertG p.conv (h.assertConstructed input)
    if h.cls ≠ cls then nomErrG p.conv input (.unexpectedClass (some cls) h.cls)
    else if !tagIs tag h.tag then nomErrG p.conv input (.unexpectedTag (some tag) h.tag)
    else do
      let (rem, t) ← m.parseG p input
      pure (rem, ⟨t⟩)

/-- src/asn1_types/tagged/implicit.rs:81-101 and 112-132. -/
def implicitG (cls : Class) (tag : Nat) (p : GParser ε α) : GParser ε (TaggedValue α) where
  conv := p.conv
  acceptTag := tagIs tag
  content h input :=
    if h.cls ≠ cls then nomErrG p.conv input (.unexpectedClass (some cls) h.cls)
    else do
      let (rem, t) ← p.content h input
      pure (rem, ⟨t⟩)

/-- src/asn1_types/optional.rs:64-77 and 106-119 `from_ber_content`, `from_der_content`. -/
def optionContentG (p : GParser ε α) (h : Header) (input : Input) : GRes ε (Option α) :=
  if !p.acceptTag h.tag then .ok (input, none)
  else do
    let (rem, data) ← convertG p.conv (berContent h input MAX_RECURSION)
    let (_, obj) ← p.content h data
    pure (rem, some obj)

/-- src/asn1_types/optional.rs:40-62 and 83-104 `parse_ber` and `parse_der`. -/
def optionParseG (m : Rules) (p : GParser ε α) (input : Input) : GRes ε (Option α) :=
  if input.isEmpty then .ok (input, none)
  else do
    let (rem, h) ← convertG p.conv (m.header input)
    if !p.acceptTag h.tag then .ok (input, none)
    else do
      let (rem, data) ← convertG p.conv (berContent h rem MAX_RECURSION)
      let (_, obj) ← optionContentG p h data
      pure (rem, obj)

/-! ### SEQUENCE OF -/

/-- src/asn1_types/iterator.rs:92-101 and 155-164: one step of `try_parse_collect`. -/
def parseCollectStepG (p : GParser ε α) (l : List α) (a : Any) : Except (NErr ε) (List α) :=
  if !p.acceptTag a.header.tag then nomErrG p.conv a.data (.unexpectedTag none a.header.tag)
  else
    match p.content a.header a.data with
    | .ok (_, v) => .ok (l ++ [v])
    | .error e => .error e

/-- src/asn1_types/iterator.rs:85-108 and 146-171 `try_parse_collect`: the collection into a `Result`,
one unit of fuel for each item, as in `forIter`. -/
def collectG (m : Rules) (p : GParser ε α) : Nat → AnyIter → List α →
    Except (NErr ε) (AnyIter × List α)
  | 0, _, _ => .error .diverge
  | fuel + 1, it, l =>
    match it.next (m.parse m.anyP) with
    | .error e => .error ((NErr.ofP e).map p.conv)
    | .ok (none, it') => .ok (it', l)
    | .ok (some (.err i e), _) => nomErrG p.conv i e
    | .ok (some (.obj _ a), it') =>
      match parseCollectStepG p l a with
      | .error e => .error e
      | .ok l' => collectG m p fuel it' l'

/-- src/asn1_types/sequence/vec.rs:63-88 and 90-115. -/
def vecG (m : Rules) (p : GParser ε α) : GParser ε (List α) where
  conv := p.conv
  acceptTag := tagIs 16
  content h input := do
    convertG p.conv (h.assertConstructed input)
    if input.isEmpty then .ok (input, [])
    else do
      let (it', l) ← collectG m p (input.len + 1) (AnyIter.new input) []
      pure (it'.input, l)

/-- src/asn1_types/sequence/sequence_of.rs:117-151. -/
def sequenceOfG (m : Rules) (p : GParser ε α) : GParser ε (SequenceOf α) where
  conv := p.conv
  acceptTag := tagIs 16
  content h input := do
    let (rem, items) ← (vecG m p).content h input
    pure (rem, ⟨items⟩)

/-- src/asn1_types/sequence/array.rs:15-31 and 33-49. -/
def arrayG (N : Nat) (m : Rules) (p : GParser ε α) : GParser ε (Arr α N) where
  conv := p.conv
  acceptTag := tagIs 16
  content h input := do
    let (rem, v) ← (vecG m p).content h input
    if hN : v.length = N then .ok (rem, ⟨v, hN⟩) else nomErrG p.conv input .invalidLength

/-- src/asn1_types/set/set_of.rs:117-157, btreeset.rs:35-73 and hashset.rs:34-74; `f` makes the collection of the
items. -/
def setG {σ : Type} (m : Rules) (f : List α → σ) (p : GParser ε α) : GParser ε σ where
  conv := p.conv
  acceptTag := tagIs 17
  content h input := do
    convertG p.conv (h.assertConstructed input)
    let (it', l) ← collectG m p (input.len + 1) (AnyIter.new input) []
    pure (it'.input, f l)

/-! ### Derived SEQUENCE and SET -/

/-- A field of a struct with the error type `ε`. The type of the field has the error type `ε'`; `f` is
the function given by `map_err`, or else `ε::from` (derive/src/container.rs:957-962). For a field that
is tagged and optional, the same function is applied to the `BerError` of its header
(`map_err#` in 980); `fh` is its instance at that type. A `custom` parser may use the `header` and the
content (`orig_input`) of the struct. -/
inductive GField (ε : Type) : Type → Type 1
  | required {ε' T : Type} (f : ε' → ε) (tag : FieldTag) (p : GParser ε' T) : GField ε T
  | optional {ε' T : Type} (f : ε' → ε) (fh : BerErr → ε) (tag : FieldTag) (p : GParser ε' T) :
      GField ε (Option T)
  | default {ε' T : Type} (f : ε' → ε) (fh : BerErr → ε) (tag : FieldTag) (p : GParser ε' T) (x : T) :
      GField ε T
  | custom {T : Type} (parse : Header → Input → Input → GRes ε T) : GField ε T

/-- derive/src/container.rs:999-1009. -/
def taggedFieldG (m : Rules) (p : GParser ε (TaggedValue α)) (rem : Input) : GRes ε α := do
  let (rem, t) ← m.parseG p rem
  pure (rem, t.inner)

/-- derive/src/container.rs:972-993. -/
def optTaggedFieldG (m : Rules) (f : ε' → ε) (fh : BerErr → ε) (tag : Nat)
    (p : GParser ε' (TaggedValue α)) (rem : Input) : GRes ε (Option α) :=
  if rem.isEmpty then .ok (rem, none)
  else do
    let (_, h) ← convertG fh (m.header rem)
    if h.tag = tag then do
      let (rem, t) ← mapErrG f (m.parseG p rem)
      pure (rem, some t.inner)
    else pure (rem, none)

/-- derive/src/container.rs:966-993 and 1013-1017. -/
def optionalFieldG (m : Rules) (f : ε' → ε) (fh : BerErr → ε) (tag : FieldTag) (p : GParser ε' α)
    (rem : Input) : GRes ε (Option α) :=
  match tag with
  | .untagged => mapErrG f (optionParseG m p rem)
  | .explicit cls n => optTaggedFieldG m f fh n (explicitG m cls n p) rem
  | .implicit cls n => optTaggedFieldG m f fh n (implicitG cls n p) rem

/-- derive/src/container.rs:994-1017. -/
def requiredFieldG (m : Rules) (tag : FieldTag) (p : GParser ε α) : Input → GRes ε α :=
  match tag with
  | .untagged => m.parseG p
  | .explicit cls n => taggedFieldG m (explicitG m cls n p)
  | .implicit cls n => taggedFieldG m (implicitG cls n p)

/-- derive/src/container.rs:934-1020 `get_field_berparser`; `h` and `orig` are the header and the
content of the struct. -/
def GField.parse (m : Rules) (h : Header) (orig : Input) :
    {T : Type} → GField ε T → Input → GRes ε T
  | _, .required f tag p, rem => mapErrG f (requiredFieldG m tag p rem)
  | _, .optional f fh tag p, rem => optionalFieldG m f fh tag p rem
  | _, .default f fh tag p x, rem => do
    let (rem, v) ← optionalFieldG m f fh tag p rem
    pure (rem, v.getD x)
  | _, .custom parse, rem => parse h orig rem

/-- The fields of a struct. -/
inductive GFields (ε : Type) : List Type → Type 1
  | nil : GFields ε []
  | cons {T : Type} {Ts : List Type} (f : GField ε T) (fs : GFields ε Ts) : GFields ε (T :: Ts)

/-- derive/src/container.rs:912-921: the fields are parsed one after the other. -/
def GFields.run (m : Rules) (h : Header) (orig : Input) :
    {Ts : List Type} → GFields ε Ts → Input → GRes ε (Tup Ts)
  | _, .nil, rem => .ok (rem, ())
  | _, .cons f fs, rem => do
    let (rem, v) ← f.parse m h orig rem
    let (rem, vs) ← fs.run m h orig rem
    pure (rem, (v, vs))

/-- derive/src/container.rs:264-388 `gen_berparser` with 390-404 `gen_assert_constructed`. -/
def structG (m : Rules) (tag : Nat) (conv : BerErr → ε) {Ts : List Type} (fs : GFields ε Ts) :
    GParser ε (Tup Ts) where
  conv := conv
  acceptTag := tagIs tag
  content h input := do
    convertG conv (h.assertConstructed input)
    fs.run m h input input

/-- src/asn1_types/sequence/tuple.rs:3-46: the error type of a tuple is `BerError`, and those of its components are
converted into it (24 and 42). The components are written as fields without a tag; the header is not looked at. -/
def tupleG (m : Rules) {Ts : List Type} (fs : GFields BerErr Ts) : GParser BerErr (Tup Ts) where
  conv := id
  acceptTag := tagIs 16
  content h input := fs.run m h input input

/-! ### Derived CHOICE and aliases -/

/-- The variants of a CHOICE with the error type `ε`: the tag and the parser of the payload, whose error
type is `ε'`; `f` is `ε::from` (or nothing, if there is no attribute `error`: then `ε` and `ε'` are the
same type). -/
inductive GVariants (ε : Type) : List Type → Type 1
  | nil : GVariants ε []
  | cons {ε' T : Type} {Ts : List Type} (f : ε' → ε) (tag : Nat) (p : GParser ε' T)
      (vs : GVariants ε Ts) : GVariants ε (T :: Ts)

/-- derive/src/choice.rs:84-114: the tags of one variant. -/
def variantAcceptG (k : ChoiceKind) (t : Nat) (p : GParser ε α) (tag : Nat) : Bool :=
  match k with
  | .untagged => p.acceptTag tag
  | .explicit => tag == t
  | .implicit => tag == t

/-- derive/src/choice.rs:219-231 and 304-311: the payload of one variant. -/
def variantContentG (m : Rules) (k : ChoiceKind) (p : GParser ε α) (h : Header) (input : Input) :
    GRes ε α :=
  match k with
  | .explicit => m.parseG p input
  | .implicit => p.content h input
  | .untagged => p.content h input

/-- derive/src/choice.rs:84-114: `accept_tag`. -/
def GVariants.accept (k : ChoiceKind) : {Ts : List Type} → GVariants ε Ts → Nat → Bool
  | _, .nil, _ => false
  | _, .cons _ t p vs, tag => variantAcceptG k t p tag || vs.accept k tag

/-- derive/src/choice.rs:211-232 and 265-273 (tagged), 298-313 and 341-347 (untagged): the branches. -/
def GVariants.content (m : Rules) (k : ChoiceKind) (conv : BerErr → ε) :
    {Ts : List Type} → GVariants ε Ts → Header → Input → GRes ε (HSum Ts)
  | _, .nil, h, input => nomErrG conv input (.unexpectedTag none h.tag)
  | _, .cons f t p vs, h, input =>
    if variantAcceptG k t p h.tag = true then do
      let (rem, x) ← mapErrG f (variantContentG m k p h input)
      pure (rem, .inl x)
    else do
      let (rem, x) ← vs.content m k conv h input
      pure (rem, .inr x)

/-- derive/src/choice.rs:188-278 (tagged) and 280-350 (untagged). -/
def choiceG (m : Rules) (k : ChoiceKind) (conv : BerErr → ε) {Ts : List Type} (vs : GVariants ε Ts) :
    GParser ε (HSum Ts) where
  conv := conv
  acceptTag := vs.accept k
  content h input :=
    match k with
    | .explicit => do
      convertG conv (h.assertConstructed input)
      vs.content m k conv h input
    | _ => vs.content m k conv h input

/-- derive/src/alias.rs:130-210; `f` is `ε::from`, `conv` the conversion from `BerError`. -/
def aliasG (f : ε' → ε) (conv : BerErr → ε) (p : GParser ε' α) : GParser ε (Alias α) where
  conv := conv
  acceptTag := p.acceptTag
  content h input := do
    let (rem, obj) ← mapErrG f (p.content h input)
    pure (rem, ⟨obj⟩)

/-- derive/src/enumerated.rs:103-160: `p` is the `BerParser` (`DerParser`) of `Enumerated`. -/
def enumG (conv : BerErr → ε) (p : Parser Nat) (ds : List Nat) : GParser ε (Fin ds.length) where
  conv := conv
  acceptTag := tagIs 10
  content h input := do
    convertG conv (h.assertPrimitive input)
    let (rem, n) ← convertG conv (p.content h input)
    match ds.finIdxOf? n with
    | some k => .ok (rem, k)
    | none => nomErrG conv input (.unexpectedTag none h.tag)

/-! ### The byte-slice API

`FromBer<'a, E>` (src/from_ber.rs:54-57), `FromDer<'a, E>` and `TryFrom<Any>` with `Error = E`, where
`E: From<Error>`; derived with `BerSequence`, `DerSequence`, `BerSet`, `DerSet` and `#[error(E)]`. -/

/-- `nom::Err<Error>` as `NErr Error`. -/
def NErr.ofS : SErr → NErr Error
  | .incomplete n => .incomplete n
  | .error e => .error e
  | .panic => .panic
  | .diverge => .diverge

/-- `map_err(Err::convert)` from `Error` to `ε`, with `conv = ε::from`. -/
def convertS {β : Type} (conv : Error → ε) : Except SErr β → Except (NErr ε) β
  | .ok x => .ok x
  | .error e => .error ((NErr.ofS e).map conv)

/-- src/error.rs:498-506 `from_nom_error`: the result has no `Incomplete`. -/
def NErr.flatten (conv : Error → ε) : NErr ε → NErr ε
  | .incomplete n => .error (conv (.incomplete (.size n)))
  | e => e

/-- `map_err(from_nom_error)`. -/
def flattenG {β : Type} (conv : Error → ε) : Except (NErr ε) β → Except (NErr ε) β
  | .ok x => .ok x
  | .error e => .error (e.flatten conv)

/-- What a field type with the error type `ε` provides: `E::from(Error)`, `T::from_ber`
(`T::from_der`), `T::try_from`, `T::TAG`, `T::accept_tag`. -/
structure GSlice (ε α : Type) where
  conv : Error → ε
  from_ : Bytes → Except (NErr ε) (Bytes × α)
  tryFrom : Any → Except (NErr ε) α
  tag : Nat
  acceptTag : Nat → Bool

/-- A type of the crate, whose error type is `Error`. -/
def SliceType.plain (ty : SliceType α) : GSlice Error α where
  conv := id
  from_ bytes := convertS id (ty.from_ bytes)
  tryFrom any := convertS id (ty.tryFrom any)
  tag := ty.tag
  acceptTag := ty.acceptTag

/-- src/from_ber.rs:59-77 `FromBer` for types with `TryFrom<Any>`. -/
def fromBerG (conv : Error → ε) (tryFrom : Any → Except (NErr ε) α) (bytes : Bytes) :
    Except (NErr ε) (Bytes × α) := do
  let (i, any) ← convertS conv (wrapBerParser parseBerAny bytes)
  let result ← tryFrom any
  pure (i, result)

/-- src/asn1_types/tagged/explicit.rs:31-45. -/
def explicitTryFromG (cls : Class) (tag : Nat) (g : GSlice ε α) (any : Any) :
    Except (NErr ε) (TaggedValue α) := do
  convertS g.conv (assertTagS any.header tag)
  convertS g.conv (assertConstructedS any.header)
  if any.header.cls ≠ cls then .error (.error (g.conv (.unexpectedClass (some cls) any.header.cls)))
  else do
    let (_, inner) ← flattenG g.conv (g.from_ any.data.data)
    pure ⟨inner⟩

/-- src/asn1_types/tagged/explicit.rs:140-156. -/
def explicitFromDerG (cls : Class) (tag : Nat) (g : GSlice ε α) (bytes : Bytes) :
    Except (NErr ε) (Bytes × TaggedValue α) := do
  let (rem, any) ← convertS g.conv (wrapBerParser parseDerAny bytes)
  convertS g.conv (assertTagS any.header tag)
  convertS g.conv (assertConstructedS any.header)
  if any.header.cls ≠ cls then .error (.error (g.conv (.unexpectedClass (some cls) any.header.cls)))
  else do
    let (_, inner) ← g.from_ any.data.data
    pure (rem, ⟨inner⟩)

/-- src/asn1_types/tagged/implicit.rs:51-70. -/
def implicitTryFromG (cls : Class) (tag : Nat) (g : GSlice ε α) (any : Any) :
    Except (NErr ε) (TaggedValue α) := do
  convertS g.conv (assertTagS any.header tag)
  if any.header.cls ≠ cls then .error (.error (g.conv (.unexpectedClass (some cls) any.header.cls)))
  else do
    let inner ← g.tryFrom ⟨{ any.header with tag := g.tag }, any.data⟩
    pure ⟨inner⟩

/-- src/asn1_types/tagged/implicit.rs:142-164. -/
def implicitFromDerG (cls : Class) (tag : Nat) (g : GSlice ε α) (bytes : Bytes) :
    Except (NErr ε) (Bytes × TaggedValue α) := do
  let (rem, any) ← convertS g.conv (wrapBerParser parseDerAny bytes)
  let t ← implicitTryFromG cls tag g any
  pure (rem, t)

/-- `FromBer` (`FromDer`) of the type of the field, tagged if the field is, then `into_inner`
(derive/src/container.rs:884-885, 897-898, 906). -/
def GSlice.tagged (m : Rules) (tag : FieldTag) (g : GSlice ε α) (i : Bytes) :
    Except (NErr ε) (Bytes × α) :=
  match tag, m with
  | .untagged, _ => g.from_ i
  | .explicit cls n, .ber => do
    let (i, t) ← fromBerG g.conv (explicitTryFromG cls n g) i
    pure (i, t.inner)
  | .explicit cls n, .der => do
    let (i, t) ← explicitFromDerG cls n g i
    pure (i, t.inner)
  | .implicit cls n, .ber => do
    let (i, t) ← fromBerG g.conv (implicitTryFromG cls n g) i
    pure (i, t.inner)
  | .implicit cls n, .der => do
    let (i, t) ← implicitFromDerG cls n g i
    pure (i, t.inner)

/-- derive/src/container.rs:848-871: what is appended to the calls: `f` is the function given by
`map_err`, followed by `ε::from`; in BER mode `from_nom_error` comes after it. -/
def sliceErr {β : Type} (m : Rules) (f : ε' → ε) (conv : Error → ε) (x : Except (NErr ε') β) :
    Except (NErr ε) β :=
  match m with
  | .ber => flattenG conv (mapErrG f x)
  | .der => mapErrG f x

/-- src/asn1_types/optional.rs:19-33 and 129-143, for a type with the error type `ε` (in the code only
`Error`). -/
def optionFromG (m : Rules) (g : GSlice ε α) (bytes : Bytes) :
    Except (NErr ε) (Bytes × Option α) :=
  if bytes.isEmpty then .ok (bytes, none)
  else
    let other := match wrapBerParser m.header bytes with
      | .ok (_, h) => !g.acceptTag h.tag
      | .error _ => false
    if other then .ok (bytes, none)
    else do
      let (rem, t) ← g.from_ bytes
      pure (rem, some t)

/-- A field, as in `GField`; `fh` is the instance of `f` used for the header of a field that is tagged
and optional (derive/src/container.rs:882). -/
inductive GSliceField (ε : Type) : Type → Type 1
  | required {ε' T : Type} (f : ε' → ε) (tag : FieldTag) (g : GSlice ε' T) : GSliceField ε T
  | optional {ε' T : Type} (f : ε' → ε) (fh : Error → ε) (tag : FieldTag) (g : GSlice ε' T) :
      GSliceField ε (Option T)
  | default {ε' T : Type} (f : ε' → ε) (fh : Error → ε) (tag : FieldTag) (g : GSlice ε' T) (x : T) :
      GSliceField ε T

/-- derive/src/container.rs:877-892: a field that is tagged and optional. -/
def optTaggedSliceG (m : Rules) (conv : Error → ε) (f : ε' → ε) (fh : Error → ε) (tag : FieldTag)
    (n : Nat) (g : GSlice ε' α) (i : Bytes) : Except (NErr ε) (Bytes × Option α) :=
  if i.isEmpty then .ok (i, none)
  else do
    let (_, h) ← sliceErr m fh conv (convertS id (wrapBerParser m.header i))
    if h.tag = n then do
      let (i, t) ← sliceErr m f conv (g.tagged m tag i)
      pure (i, some t)
    else pure (i, none)

/-- 877-892 if tagged, 905-907 if not. -/
def optionalSliceG (m : Rules) (conv : Error → ε) (f : ε' → ε) (fh : Error → ε) (tag : FieldTag)
    (g : GSlice ε' α) (i : Bytes) : Except (NErr ε) (Bytes × Option α) :=
  match tag with
  | .untagged => sliceErr m f conv (optionFromG m g i)
  | .explicit _ n => optTaggedSliceG m conv f fh tag n g i
  | .implicit _ n => optTaggedSliceG m conv f fh tag n g i

/-- derive/src/container.rs:830-910 `get_field_parser` with custom errors. -/
def GSliceField.parse (m : Rules) (conv : Error → ε) :
    {T : Type} → GSliceField ε T → Bytes → Except (NErr ε) (Bytes × T)
  | _, .required f tag g, i => sliceErr m f conv (g.tagged m tag i)
  | _, .optional f fh tag g, i => optionalSliceG m conv f fh tag g i
  | _, .default f fh tag g x, i => do
    let (i, v) ← optionalSliceG m conv f fh tag g i
    pure (i, v.getD x)

/-- The fields of a struct. -/
inductive GSliceFields (ε : Type) : List Type → Type 1
  | nil : GSliceFields ε []
  | cons {T : Type} {Ts : List Type} (f : GSliceField ε T) (fs : GSliceFields ε Ts) :
      GSliceFields ε (T :: Ts)

/-- derive/src/container.rs:815-828. -/
def GSliceFields.run (m : Rules) (conv : Error → ε) :
    {Ts : List Type} → GSliceFields ε Ts → Bytes → Except (NErr ε) (Bytes × Tup Ts)
  | _, .nil, i => .ok (i, ())
  | _, .cons f fs, i => do
    let (i, v) ← f.parse m conv i
    let (i, vs) ← fs.run m conv i
    pure (i, (v, vs))

/-- derive/src/container.rs:185-197 and 207 `TryFrom<Any>`. -/
def structTryFromG (tag : Nat) (conv : Error → ε) {Ts : List Type} (fs : GSliceFields ε Ts)
    (any : Any) : Except (NErr ε) (Tup Ts) := do
  convertS conv (assertTagS any.header tag)
  let (_, v) ← fs.run .ber conv any.data.data
  pure v

/-- derive/src/container.rs:481-490 and 498 `FromDer`. -/
def structFromDerG (tag : Nat) (conv : Error → ε) {Ts : List Type} (fs : GSliceFields ε Ts)
    (bytes : Bytes) : Except (NErr ε) (Bytes × Tup Ts) := do
  let (rem, any) ← convertS conv (wrapBerParser parseDerAny bytes)
  convertS conv (assertTagS any.header tag)
  let (_, v) ← fs.run .der conv any.data.data
  pure (rem, v)

/-! ### Collections in the byte-slice API -/

/-- src/asn1_types/sequence/iterator.rs:82-109 `next`; `g` is `T::from_der`, `conv` is `E::from`. -/
def SeqIter.nextG (conv : Error → ε) (g : Bytes → Except (NErr ε) (Bytes × α)) (it : SeqIter) :
    Except (NErr ε) (Option (Except ε α) × SeqIter) :=
  if it.hasError || it.data.isEmpty then .ok (none, it)
  else
    match g it.data with
    | .ok (rem, obj) => .ok (some (.ok obj), { it with data := rem })
    | .error (.error e) => .ok (some (.error e), { it with hasError := true })
    | .error (.incomplete n) => .ok (some (.error (conv (.incomplete (.size n)))), { it with hasError := true })
    | .error .panic => .error .panic
    | .error .diverge => .error .diverge

/-- `collect::<Result<_, E>>()`, as in `SeqIter.collect`. -/
def SeqIter.collectG (conv : Error → ε) (g : Bytes → Except (NErr ε) (Bytes × α)) :
    Nat → SeqIter → Except (NErr ε) (List α)
  | 0, _ => .error .diverge
  | fuel + 1, it =>
    match it.nextG conv g with
    | .error e => .error e
    | .ok (none, _) => .ok []
    | .ok (some (.error e), _) => .error (.error e)
    | .ok (some (.ok v), it') =>
      match SeqIter.collectG conv g fuel it' with
      | .ok vs => .ok (v :: vs)
      | .error e => .error e

/-- src/asn1_types/sequence/vec.rs:150-177, sequence_of.rs:169-196 (tag 16), set/set_of.rs:175-198 (tag 17). -/
def seqFromDerG (tag : Nat) (conv : Error → ε) (g : Bytes → Except (NErr ε) (Bytes × α)) (bytes : Bytes) :
    Except (NErr ε) (Bytes × List α) := do
  let (rem, any) ← convertS conv (wrapBerParser parseDerAny bytes)
  convertS conv (assertTagS any.header tag)
  let v ← SeqIter.collectG conv g (any.data.data.length + 1) (SeqIter.new any.data.data)
  pure (rem, v)

/-- src/asn1_types/set/btreeset.rs:91-118 and hashset.rs:92-120. -/
def setFromDerG {σ : Type} (S : SetImpl α σ) (conv : Error → ε) (g : Bytes → Except (NErr ε) (Bytes × α))
    (bytes : Bytes) : Except (NErr ε) (Bytes × σ) := do
  let (rem, any) ← convertS conv (wrapBerParser parseDerAny bytes)
  convertS conv (assertTagS any.header 17)
  convertS conv (assertConstructedS any.header)
  let items ← SeqIter.collectG conv g (any.data.data.length + 1) (SeqIter.new any.data.data)
  pure (rem, S.ofList items)

end Asn1

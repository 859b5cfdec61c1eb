import Verif.Model.Work
import Verif.Model.CharStrings
import Verif.Model.Derive
import Verif.Model.AnyMethods
import Verif.Model.Float32
/-!
# How many headers are read by the parsers of typed values

The functions of Model/{Typed,Iterator,Strings,CharStrings,Tagged,Containers,Derive,AnyMethods} once more, each
returning what it returns there (Props/WorkTyped) with the number of calls of `Header::parse_ber` and
`Header::parse_der`, those that fail included. (`parse_der` calls `parse_ber`, src/header.rs:351-363; the two
calls are one.)
-/
namespace Asn1

/-- A result, with the number of headers read. -/
def Tick (α : Type) : Type := Except PErr α × Nat

/-- One computation after another: the headers of both are counted, those of the second if it takes place. -/
def Tick.andThen {α β : Type} (x : Tick α) (f : α → Tick β) : Tick β :=
  match x with
  | (.error e, n) => (.error e, n)
  | (.ok a, n) => ((f a).1, n + (f a).2)

/-- No header is read. -/
def Tick.free {α : Type} (x : Except PErr α) : Tick α := (x, 0)

/-- One header is read (or cannot be). -/
def Tick.one {α : Type} (x : Except PErr α) : Tick α := (x, 1)

/-- A result with a count (as in Model/Work). -/
def Tick.of {α : Type} (x : Except PErr α × Nat) : Tick α := x

instance : Monad Tick where
  pure a := Tick.free (.ok a)
  bind := Tick.andThen

variable {α β : Type}

/-- A `BerParser` or a `DerParser` (`Parser`) which counts the headers read by `from_ber_content` or
`from_der_content`. -/
structure CParser (α : Type) where
  acceptTag : Nat → Bool
  content : Header → Input → Tick (Input × α)

/-- The parser, without the counts. -/
def CParser.plain (p : CParser α) : Parser α := ⟨p.acceptTag, fun h i => (p.content h i).1⟩

/-- A type whose `from_ber_content` and `from_der_content` read no header. -/
def CParser.leaf (p : Parser α) : CParser α := ⟨p.acceptTag, fun h i => Tick.free (p.content h i)⟩

/-- src/from_ber.rs:98-116 `parse_ber` and src/from_der.rs:140-162 `parse_der` (`Parser.parseBer`,
`Parser.parseDer`). -/
def CParser.parse (m : Rules) (p : CParser α) (input : Input) : Tick (Input × α) :=
  match m with
  | .ber => do
    let (rem, header) ← Tick.one (parseHeader input)
    if !p.acceptTag header.tag then Tick.free (nomErr input (.unexpectedTag none header.tag))
    else do
      let (rem, data) ← Tick.of (berContentCount header rem MAX_RECURSION)
      let (_, obj) ← p.content header data
      pure (rem, obj)
  | .der => do
    let (rem, header) ← Tick.one (parseHeaderDer input)
    let length ← Tick.free (definiteInner header.length input)
    if !p.acceptTag header.tag then Tick.free (nomErr input (.unexpectedTag none header.tag))
    else do
      let (rem, data) ← Tick.free (takeS length rem)
      let (_, obj) ← p.content header data
      pure (rem, obj)

/-! ### Iterators: src/asn1_types/iterator.rs -/

/-- `Any`, for the two sets of rules (`anyBer`, `anyDer`): its `from_ber_content` and `from_der_content` take bytes
and read no header. -/
def Rules.anyC (m : Rules) : CParser Any :=
  match m with
  | .ber => CParser.leaf anyBer
  | .der => CParser.leaf anyDer

/-- `Any::parse_ber` and `Any::parse_der`, as the iterators call them. -/
def Rules.anyParse (m : Rules) : Input → PRes Any :=
  match m with
  | .ber => anyBer.parseBer
  | .der => anyDer.parseDer

/-- src/asn1_types/iterator.rs:177-202 and 204-229 `next` (`AnyIter.next`): an object is read unless there has been
an error or the input is used up. -/
def nextTick (m : Rules) (it : AnyIter) : Tick (Option IterItem × AnyIter) :=
  (it.next m.anyParse, if it.hasError || it.input.isEmpty then 0 else (m.anyC.parse m it.input).2)

/-- A `for` loop over the objects of an iterator (`forIter`). -/
def forIterTick {σ : Type} (m : Rules) (f : σ → Any → Tick (Bool × σ)) : Nat → AnyIter → σ → Tick (AnyIter × σ)
  | 0, _, _ => Tick.free (.error .diverge)
  | fuel + 1, it, s => do
    let (o, it') ← nextTick m it
    match o with
    | none => pure (it', s)
    | some (.err i e) => Tick.free (.error (.error i e))
    | some (.obj _ a) => do
      let (go, s') ← f s a
      if go then forIterTick m f fuel it' s' else pure (it', s')

/-- src/asn1_types/iterator.rs:92-101 and 155-164 (`parseCollectStep`). -/
def collectStepTick (p : CParser α) (l : List α) (a : Any) : Tick (Bool × List α) :=
  if !p.acceptTag a.header.tag then Tick.free (nomErr a.data (.unexpectedTag none a.header.tag))
  else do
    let (_, v) ← p.content a.header a.data
    pure (true, l ++ [v])

/-- src/asn1_types/iterator.rs:85-108 and 146-171 `try_parse_collect` (`AnyIter.tryParseCollect`). -/
def collectTick (m : Rules) (it : AnyIter) (p : CParser α) : Tick (Input × List α) := do
  let (it', l) ← forIterTick m (collectStepTick p) (it.input.len + 1) it []
  pure (it'.input, l)

/-! ### Strings: src/ber/appendable.rs -/

/-- src/ber/appendable.rs:43-60 (`segStep`). -/
def segStepTick (acceptTag : Nat → Bool) (append : α → α → α) (rec : Header → Input → Tick (Input × α))
    (v : α) (a : Any) : Tick (Bool × α) :=
  if a.header.tag = tagEndOfContent then pure (false, v)
  else if !acceptTag a.header.tag then Tick.free (nomErr a.data .invalidTag)
  else if a.data.isEmpty then pure (true, v)
  else do
    let (_, part) ← rec a.header a.data
    pure (true, append v part)

/-- src/ber/appendable.rs:33-38 (`segContent`). -/
def segContentTick (h : Header) (input : Input) : Tick (Input × Input) :=
  if h.length.isDefinite then Tick.of (berContentCount h input MAX_RECURSION)
  else Tick.free (input.takeSplit input.len)

/-- src/ber/appendable.rs:18-67 `parse_ber_segmented` (`parseSegmented`). `leaf` reads no header (the one of
BIT STRING goes through `ber_get_content`, which reads none for a primitive object: `berContentCount_primitive`
in Props/Work). -/
def segmentedTick (acceptTag : Nat → Bool) (empty : α) (append : α → α → α)
    (leaf : Header → Input → PRes α) : Nat → Header → Input → Tick (Input × α)
  | 0, _, input => Tick.free (nomErr input .berMaxDepth)
  | limit + 1, h, input =>
    if input.isEmpty then Tick.free (nomErr input .invalidLength)
    else if h.constructed then do
      let (rem, data) ← segContentTick h input
      let (_, v) ← forIterTick .ber
        (segStepTick acceptTag append (fun h i => segmentedTick acceptTag empty append leaf limit h i))
        (data.len + 1) (AnyIter.new data) empty
      pure (rem, v)
    else do
      let (rem, data) ← Tick.of (berContentCount h input MAX_RECURSION)
      let (_, t) ← Tick.free (leaf h data)
      pure (rem, t)

/-- The segments of OCTET STRING (as in src/asn1_types/octetstring.rs:57-78, strings.rs:113-127,
strings/bmpstring.rs:63-72, strings/universalstring.rs:63-72). -/
def octetsTick : Header → Input → Tick (Input × Bytes) :=
  segmentedTick (tagIs tagOctetString) [] (· ++ ·) octetLeaf OCTETSTRING_MAX_RECURSION

/-- The `from_der_content` of the strings: the object must be primitive (octetstring.rs:80-92, bitstring.rs:129-141,
strings.rs:151-162...), then as for BER. -/
def CParser.primitive (p : CParser α) : CParser α where
  acceptTag := p.acceptTag
  content h input := do
    Tick.free (h.assertPrimitive input)
    p.content h input

/-- The parser of a string, for the two sets of rules. -/
def CParser.strict (m : Rules) (p : CParser α) : CParser α :=
  match m with
  | .ber => p
  | .der => p.primitive

/-- src/asn1_types/octetstring.rs:57-78 (`octetBer`). -/
def CParser.octets : CParser Bytes where
  acceptTag := tagIs tagOctetString
  content h input := if !h.constructed then Tick.free (octetLeaf h input) else octetsTick h input

/-- src/asn1_types/bitstring.rs:87-126 (`bitBer`). -/
def CParser.bits : CParser BitString where
  acceptTag := tagIs tagBitString
  content h input :=
    if !h.constructed then Tick.free (bitLeaf h input)
    else segmentedTick (tagIs tagBitString) BitString.empty BitString.append bitLeaf
      BITSTRING_MAX_RECURSION h input

/-- src/asn1_types/strings.rs:113-127 (`strBytes`). -/
def strBytesTick (h : Header) (input : Input) : Tick (Input × Bytes) :=
  if !h.constructed then Tick.free (do
    let (rem, data) ← input.takeSplit input.len
    pure (rem, data.data))
  else octetsTick h input

/-- src/asn1_types/strings.rs:109-148 (`strBer`), and strings/string.rs:16-28. -/
def CParser.text (k : StrKind) : CParser Text where
  acceptTag := tagIs k.tag
  content h input := do
    let (rem, data) ← strBytesTick h input
    Tick.free (strOfBytes k rem data)

/-- src/asn1_types/strings/bmpstring.rs:63-72, universalstring.rs:63-72 (`wideBytes`). -/
def wideBytesTick (h : Header) (input : Input) : Tick (Input × Bytes) :=
  if h.constructed then Tick.free (do
    let (rem, data) ← input.takeSplit input.len
    pure (rem, data.data))
  else octetsTick h input

/-- src/asn1_types/strings/bmpstring.rs:55-90, universalstring.rs:55-102 (`bmpBer`, `univBer`); `of` is what is made
of the bytes. -/
def CParser.wide (tag : Nat) (of : Input → Bytes → PRes Text) : CParser Text where
  acceptTag := tagIs tag
  content h input := do
    let (rem, data) ← wideBytesTick h input
    Tick.free (of rem data)

/-! ### Containers and tags -/

/-- `Parser.map`. -/
def CParser.map (p : CParser α) (f : α → β) : CParser β where
  acceptTag := p.acceptTag
  content h input := do
    let (rem, x) ← p.content h input
    pure (rem, f x)

/-- src/asn1_types/sequence/vec.rs:63-115 (`vecP`). -/
def CParser.vec (m : Rules) (p : CParser α) : CParser (List α) where
  acceptTag := tagIs 16
  content h input := do
    Tick.free (h.assertConstructed input)
    if input.isEmpty then pure (input, []) else collectTick m (AnyIter.new input) p

/-- src/asn1_types/set/set_of.rs:117-157, and btreeset.rs, hashset.rs (`setItemsP`). -/
def CParser.setItems (m : Rules) (p : CParser α) : CParser (List α) where
  acceptTag := tagIs 17
  content h input := do
    Tick.free (h.assertConstructed input)
    collectTick m (AnyIter.new input) p

/-- src/asn1_types/sequence/array.rs:15-49 (`arrayP`). -/
def CParser.array (N : Nat) (m : Rules) (p : CParser α) : CParser (Arr α N) where
  acceptTag := tagIs 16
  content h input := do
    let (rem, v) ← (CParser.vec m p).content h input
    Tick.free (if hN : v.length = N then .ok (rem, ⟨v, hN⟩) else nomErr input .invalidLength)

/-- src/asn1_types/tagged/explicit.rs:57-131 (`explicitP`). -/
def CParser.explicit (m : Rules) (cls : Class) (tag : Nat) (p : CParser α) : CParser (TaggedValue α) where
  acceptTag := tagIs tag
  content h input := do
    Tick.free (h.assertConstructed input)
    if h.cls ≠ cls then Tick.free (nomErr input (.unexpectedClass (some cls) h.cls))
    else if !tagIs tag h.tag then Tick.free (nomErr input (.unexpectedTag (some tag) h.tag))
    else do
      let (rem, t) ← p.parse m input
      pure (rem, ⟨t⟩)

/-- src/asn1_types/tagged/implicit.rs:81-132 (`implicitP`). -/
def CParser.implicit (cls : Class) (tag : Nat) (p : CParser α) : CParser (TaggedValue α) where
  acceptTag := tagIs tag
  content h input :=
    if h.cls ≠ cls then Tick.free (nomErr input (.unexpectedClass (some cls) h.cls))
    else do
      let (rem, t) ← p.content h input
      pure (rem, ⟨t⟩)

/-- src/asn1_types/optional.rs:64-76 and 106-118 (`optionContent`). -/
def optionContentTick (p : CParser α) (h : Header) (input : Input) : Tick (Input × Option α) :=
  if !p.acceptTag h.tag then pure (input, none)
  else do
    let (rem, data) ← Tick.of (berContentCount h input MAX_RECURSION)
    let (_, obj) ← p.content h data
    pure (rem, some obj)

/-- src/asn1_types/optional.rs:40-62 and 83-104 (`optionParse`). -/
def optionTick (m : Rules) (p : CParser α) (input : Input) : Tick (Input × Option α) :=
  if input.isEmpty then pure (input, none)
  else do
    let (rem, h) ← Tick.one (m.header input)
    if !p.acceptTag h.tag then pure (input, none)
    else do
      let (rem, data) ← Tick.of (berContentCount h rem MAX_RECURSION)
      let (_, obj) ← optionContentTick p h data
      pure (rem, obj)

/-! ### The code generated by the derive macros -/

/-- derive/src/container.rs:999-1009 (`taggedField`). -/
def taggedTick (m : Rules) (p : CParser (TaggedValue α)) (rem : Input) : Tick (Input × α) := do
  let (rem, t) ← p.parse m rem
  pure (rem, t.inner)

/-- derive/src/container.rs:972-993 (`optTaggedField`). -/
def optTaggedTick (m : Rules) (tag : Nat) (p : CParser (TaggedValue α)) (rem : Input) :
    Tick (Input × Option α) :=
  if rem.isEmpty then pure (rem, none)
  else do
    let (_, h) ← Tick.one (m.header rem)
    if h.tag = tag then do
      let (rem, t) ← p.parse m rem
      pure (rem, some t.inner)
    else pure (rem, none)

/-- derive/src/container.rs:972-993 and 1013-1017 (`optionalField`). -/
def optionalTick (m : Rules) (tag : FieldTag) (p : CParser α) : Input → Tick (Input × Option α) :=
  match tag with
  | .untagged => optionTick m p
  | .explicit cls n => optTaggedTick m n (CParser.explicit m cls n p)
  | .implicit cls n => optTaggedTick m n (CParser.implicit cls n p)

/-- derive/src/container.rs:999-1009 and 1013-1017 (`requiredField`). -/
def requiredTick (m : Rules) (tag : FieldTag) (p : CParser α) : Input → Tick (Input × α) :=
  match tag with
  | .untagged => p.parse m
  | .explicit cls n => taggedTick m (CParser.explicit m cls n p)
  | .implicit cls n => taggedTick m (CParser.implicit cls n p)

/-- derive/src/choice.rs:84-114 (`variantAccept`). -/
def acceptTick (k : ChoiceKind) (t : Nat) (p : CParser α) (tag : Nat) : Bool :=
  match k with
  | .untagged => p.acceptTag tag
  | .explicit => tag == t
  | .implicit => tag == t

/-- derive/src/choice.rs:211-232, 265-273, 298-313 and 341-347 (`variantContent`). -/
def variantTick (m : Rules) (k : ChoiceKind) (p : CParser α) (h : Header) (input : Input) : Tick (Input × α) :=
  match k with
  | .explicit => p.parse m input
  | .implicit => p.content h input
  | .untagged => p.content h input

/-! ### EMBEDDED PDV: src/asn1_types/embedded_pdv.rs -/

/-- `contextBer`. -/
def contextTick (tag : Nat) (p : CParser α) (i : Input) : Tick (Input × TaggedValue α) :=
  (CParser.implicit .contextSpecific tag p).parse .ber i

/-- src/asn1_types/embedded_pdv.rs:62-69 and 85-98 (`pdvPair`). -/
def pdvPairTick (p : CParser α) (q : CParser β) (data : Input) : Tick (α × β) := do
  let (rem, x) ← contextTick 0 p data
  let (_, y) ← contextTick 1 q rem
  pure (x.inner, y.inner)

/-- src/asn1_types/embedded_pdv.rs:55-115 (`pdvIdentification`): two fields are read for `syntaxes` and
`context-negotiation`. -/
def pdvIdentificationTick (inner0 : Any) : Tick PdvIdentification :=
  if inner0.header.tag = 0 then do
    let (x, y) ← pdvPairTick (CParser.leaf oidP) (CParser.leaf oidP) inner0.data
    pure (.syntaxes x y)
  else if inner0.header.tag = 3 then do
    let (x, y) ← pdvPairTick (CParser.leaf integerBer) (CParser.leaf oidP) inner0.data
    pure (.contextNegotiation x y)
  else Tick.free (pdvIdentification inner0)

/-- src/asn1_types/embedded_pdv.rs:45-130 (`pdvP`). -/
def CParser.pdv : CParser EmbeddedPdv where
  acceptTag := tagIs 11
  content _ input := do
    let (rem, t0) ← contextTick 0 (CParser.leaf anyBer) input
    let identification ← pdvIdentificationTick t0.inner
    let (rem, t1) ← optionTick .ber (CParser.implicit .contextSpecific 1 (CParser.text objectDescriptorK)) rem
    let (rem, t2) ← contextTick 2 (CParser.leaf sliceBer) rem
    pure (rem, ⟨identification, t1.map (·.inner), t2.inner⟩)

end Asn1

import Verif.Model.Containers
import Verif.Model.Simple
/-!
# The code generated by the derive macros

derive/src/container.rs, derive/src/sequence.rs, derive/src/set.rs (SEQUENCE and SET),
derive/src/choice.rs (CHOICE), derive/src/enumerated.rs (ENUMERATED), derive/src/alias.rs (aliases).

The macros are functions from a type definition to Rust code. Here each one is a function from a
description of the definition (the fields with their attributes and the trait implementations of their
types, the variants) to the behaviour of the generated code. A struct is the tuple of its fields, an
enum the sum of its payloads. The attributes `error` and `map_err` (own error types) are in
Model/CustomError.
-/
namespace Asn1

variable {α : Type}

/-- derive/src/asn1_type.rs `Asn1Type`: for which of the two traits the code is generated. -/
inductive Rules where
  | ber
  | der
  deriving DecidableEq, Repr

/-- `Header::parse_ber` (src/header.rs:331-333) or `Header::parse_der` (351-363). -/
def Rules.header : Rules → Input → PRes Header
  | .ber => parseHeader
  | .der => parseHeaderDer

/-- `T::parse_ber` or `T::parse_der`, from the `BerParser` (`DerParser`) of `T`. -/
def Rules.parse (m : Rules) (p : Parser α) : Input → PRes α :=
  match m with
  | .ber => p.parseBer
  | .der => p.parseDer

/-- `Any::from_ber` or `Any::from_der`. -/
def Rules.any : Rules → Input → PRes Any
  | .ber => parseBerAny
  | .der => parseDerAny

/-! ### SEQUENCE and SET: parsers -/

/-- derive/src/container.rs:702 and 741-754: the attribute `tag_explicit` or `tag_implicit` of a field,
or none. (Tag numbers are `u16` there.) -/
inductive FieldTag where
  | untagged
  | explicit (cls : Class) (tag : Nat)
  | implicit (cls : Class) (tag : Nat)
  deriving DecidableEq, Repr

/-- A field of a struct: its attributes (derive/src/container.rs:697-708) and the parser of its type.
`required` is a field of type `T`; `optional` one of type `Option<T>` (marked `#[optional]`, or not
marked and not tagged); `default` one of type `T` with `#[default(x)]`; `custom` one with
`#[asn1(parse = "f")]`. -/
inductive Field : Type → Type 1
  | required {T : Type} (tag : FieldTag) (p : Parser T) : Field T
  | optional {T : Type} (tag : FieldTag) (p : Parser T) : Field (Option T)
  | default {T : Type} (tag : FieldTag) (p : Parser T) (x : T) : Field T
  | custom {T : Type} (f : Input → PRes T) : Field T

/-- derive/src/container.rs:999-1009: `TaggedValue::<_, _, KIND, CLASS, TAG>::parse_ber(rem)` and
`into_inner`. -/
def taggedField (m : Rules) (p : Parser (TaggedValue α)) (rem : Input) : PRes α := do
  let (rem, t) ← m.parse p rem
  pure (rem, t.inner)

/-- derive/src/container.rs:972-993: a field that is tagged and optional. The tag number of the next
header is compared, the class is not. -/
def optTaggedField (m : Rules) (tag : Nat) (p : Parser (TaggedValue α)) (rem : Input) :
    PRes (Option α) :=
  if rem.isEmpty then .ok (rem, none)
  else do
    let (_, h) ← m.header rem
    if h.tag = tag then do
      let (rem, t) ← m.parse p rem
      pure (rem, some t.inner)
    else pure (rem, none)

/-- The parser of the optional field with the given tag attribute: 972-993 if tagged,
`Option<T>::parse_ber` (1013-1017) if not. -/
def optionalField (m : Rules) (tag : FieldTag) (p : Parser α) : Input → PRes (Option α) :=
  match tag with
  | .untagged => optionParse m.header p
  | .explicit cls n => optTaggedField m n (explicitP cls n (m.parse p))
  | .implicit cls n => optTaggedField m n (implicitP cls n p)

/-- The parser of the field that must be there: 999-1009 if tagged, `T::parse_ber` (1013-1017) if
not. -/
def requiredField (m : Rules) (tag : FieldTag) (p : Parser α) : Input → PRes α :=
  match tag with
  | .untagged => m.parse p
  | .explicit cls n => taggedField m (explicitP cls n (m.parse p))
  | .implicit cls n => taggedField m (implicitP cls n p)

/-- derive/src/container.rs:934-1020 `get_field_berparser`; 952-956 is `unwrap_or`. -/
def Field.parse (m : Rules) : {T : Type} → Field T → Input → PRes T
  | _, .required tag p, rem => requiredField m tag p rem
  | _, .optional tag p, rem => optionalField m tag p rem
  | _, .default tag p x, rem => do
    let (rem, v) ← optionalField m tag p rem
    pure (rem, v.getD x)
  | _, .custom f, rem => f rem

/-- The fields of a struct. -/
inductive Fields : List Type → Type 1
  | nil : Fields []
  | cons {T : Type} {Ts : List Type} (f : Field T) (fs : Fields Ts) : Fields (T :: Ts)

/-- derive/src/container.rs:912-921 `derive_berparser_sequence_content`: the field parsers, to be run
one after the other (`TupFns.run`). -/
def Fields.fns (m : Rules) : {Ts : List Type} → Fields Ts → TupFns Ts
  | _, .nil => .nil
  | _, .cons f fs => .cons (f.parse m) (fs.fns m)

/-- derive/src/container.rs:264-388 `gen_berparser` with 390-404 `gen_assert_constructed` and 214-259
`gen_tagged`, for a SEQUENCE (`tag` 16) or a SET (17). The content left after the last field is not
looked at. -/
def structP (m : Rules) (tag : Nat) {Ts : List Type} (fs : Fields Ts) : Parser (Tup Ts) where
  acceptTag := tagIs tag
  content h input := do
    h.assertConstructed input
    (fs.fns m).run input

/-! ### SEQUENCE and SET: the byte-slice API (`BerSequence`, `DerSequence`, `BerSet`, `DerSet`) -/

/-- What a field type provides to this API: `T::from_ber` (`T::from_der`), `T::try_from`, `T::TAG`,
`T::accept_tag`. -/
structure SliceType (α : Type) where
  from_ : Bytes → Except SErr (Bytes × α)
  tryFrom : Any → Except SErr α
  tag : Nat
  acceptTag : Nat → Bool

/-- A field, as in `Field`. -/
inductive SliceField : Type → Type 1
  | required {T : Type} (tag : FieldTag) (ty : SliceType T) : SliceField T
  | optional {T : Type} (tag : FieldTag) (ty : SliceType T) : SliceField (Option T)
  | default {T : Type} (tag : FieldTag) (ty : SliceType T) (x : T) : SliceField T

/-- `FromBer` (`FromDer`) of `TaggedValue::<_, _, KIND, CLASS, TAG>`, then `into_inner`: the common
part of derive/src/container.rs:884-885 and 897-898; untagged: 906. -/
def SliceType.tagged (m : Rules) (tag : FieldTag) (ty : SliceType α) (i : Bytes) :
    Except SErr (Bytes × α) :=
  match tag, m with
  | .untagged, _ => ty.from_ i
  | .explicit cls n, .ber => do
    let (i, t) ← fromBerWith (explicitTryFrom cls n ty.from_) i
    pure (i, t.inner)
  | .explicit cls n, .der => do
    let (i, t) ← explicitFromDer cls n ty.from_ i
    pure (i, t.inner)
  | .implicit cls n, .ber => do
    let (i, t) ← fromBerWith (implicitTryFrom cls n ty.tag ty.tryFrom) i
    pure (i, t.inner)
  | .implicit cls n, .der => do
    let (i, t) ← implicitFromDer cls n ty.tag ty.tryFrom i
    pure (i, t.inner)

/-- derive/src/container.rs:877-892: a field that is tagged and optional. -/
def SliceType.optTagged (m : Rules) (tag : FieldTag) (n : Nat) (ty : SliceType α) (i : Bytes) :
    Except SErr (Bytes × Option α) :=
  if i.isEmpty then .ok (i, none)
  else do
    let (_, h) ← wrapBerParser m.header i
    if h.tag = n then do
      let (i, t) ← ty.tagged m tag i
      pure (i, some t)
    else pure (i, none)

/-- 877-892 if tagged, `Option<T>::from_ber` (905-907) if not. -/
def SliceType.optional (m : Rules) (tag : FieldTag) (ty : SliceType α) :
    Bytes → Except SErr (Bytes × Option α) :=
  match tag with
  | .untagged => optionFrom ty.acceptTag m.header ty.from_
  | .explicit _ n => ty.optTagged m tag n
  | .implicit _ n => ty.optTagged m tag n

/-- derive/src/container.rs:830-910 `get_field_parser`. -/
def SliceField.parse (m : Rules) : {T : Type} → SliceField T → Bytes → Except SErr (Bytes × T)
  | _, .required tag ty, i => ty.tagged m tag i
  | _, .optional tag ty, i => ty.optional m tag i
  | _, .default tag ty x, i => do
    let (i, v) ← ty.optional m tag i
    pure (i, v.getD x)

/-- The fields of a struct. -/
inductive SliceFields : List Type → Type 1
  | nil : SliceFields []
  | cons {T : Type} {Ts : List Type} (f : SliceField T) (fs : SliceFields Ts) :
      SliceFields (T :: Ts)

/-- derive/src/container.rs:815-828 `derive_ber_sequence_content`. -/
def SliceFields.run (m : Rules) : {Ts : List Type} → SliceFields Ts → Bytes →
    Except SErr (Bytes × Tup Ts)
  | _, .nil, i => .ok (i, ())
  | _, .cons f fs, i => do
    let (i, v) ← f.parse m i
    let (i, vs) ← fs.run m i
    pure (i, (v, vs))

/-- derive/src/container.rs:185-197 and 207 `TryFrom<Any>` (the `?` turns `nom::Err<Error>` into
`Error`, src/error.rs:442-449). `FromBer` is `fromBerWith` of it. -/
def structTryFrom (tag : Nat) {Ts : List Type} (fs : SliceFields Ts) (any : Any) :
    Except SErr (Tup Ts) := do
  assertTagS any.header tag
  match fs.run .ber any.data.data with
  | .ok (_, v) => .ok v
  | .error e => .error e.flatten

/-- derive/src/container.rs:481-490 and 498 `FromDer`. -/
def structFromDer (tag : Nat) {Ts : List Type} (fs : SliceFields Ts) (bytes : Bytes) :
    Except SErr (Bytes × Tup Ts) := do
  let (rem, any) ← wrapBerParser parseDerAny bytes
  assertTagS any.header tag
  let (_, v) ← fs.run .der any.data.data
  pure (rem, v)

/-- derive/src/container.rs:424-432: the checks of the fields, one object for each. -/
def checkFields : List (Any → Except SErr Unit) → Bytes → Except SErr Unit
  | [], _ => .ok ()
  | check :: cs, rem =>
    match wrapBerParser parseDerAny rem with
    | .error e => .error e.flatten
    | .ok (rem, any) => do
      check any
      checkFields cs rem

/-- derive/src/container.rs:433-447 `check_constraints` of a struct, given the `check_constraints` of
the types of its fields. -/
def structCheck (tag : Nat) (checks : List (Any → Except SErr Unit)) (any : Any) :
    Except SErr Unit := do
  assertTagS any.header tag
  checkFields checks any.data.data

/-! ### SEQUENCE and SET: encoders -/

/-- `ber_header_length(..).unwrap_or_default()` (derive/src/container.rs:531 and 542). -/
def headerLengthOr0 (tag : Nat) (l : Length) : Nat :=
  match berHeaderLength tag l with
  | .ok n => n
  | .error _ => 0

/-- derive/src/container.rs:525-549: what one field adds to the content length; `total` and `content`
are `ber_total_len` and `ber_content_len` of the field. -/
def FieldTag.addLen (tag : FieldTag) (total content acc : Length) : Length :=
  match tag with
  | .untagged => acc.add total
  | .explicit _ n => (acc.addNat (headerLengthOr0 n total)).add total
  | .implicit _ n => (acc.addNat (headerLengthOr0 n total)).add content

/-- derive/src/container.rs:616-632: how one field is written. -/
def FieldTag.write (tag : FieldTag) (t : ToBer α) (v : α) : Wr Nat :=
  match tag with
  | .untagged => t.encode v
  | .explicit cls n => t.encodeTaggedExplicit cls n v
  | .implicit cls n => t.encodeTaggedImplicit cls n v

/-- The fields of a struct none of which has the type `Option<T>`, for encoding: the tag attribute and
the `ToBer` (`ToDer`) of the type. The attributes `optional`, `default` and `parse` play no role. -/
inductive EncFields : List Type → Type 1
  | nil : EncFields []
  | cons {T : Type} {Ts : List Type} (tag : FieldTag) (t : ToBer T) (fs : EncFields Ts) :
      EncFields (T :: Ts)

/-- derive/src/container.rs:519-550: the sum over the fields. -/
def EncFields.len : {Ts : List Type} → EncFields Ts → Tup Ts → Length → Length
  | _, .nil, _, acc => acc
  | _, .cons tag t fs, (v, vs), acc => fs.len vs (tag.addLen (t.totalLen v) (t.contentLen v) acc)

/-- derive/src/container.rs:609-642: the fields are written one after the other. -/
def EncFields.write : {Ts : List Type} → EncFields Ts → Tup Ts → Nat → Wr Nat
  | _, .nil, _, numBytes => pure numBytes
  | _, .cons tag t fs, (v, vs), numBytes => do
    let n ← tag.write t v
    fs.write vs (numBytes + n)

/-- derive/src/container.rs:653-693 `gen_tober` with 505-559 (content length), 561-590 (tag info) and
592-651 (content), for a SEQUENCE (`tag` 16) or a SET (17). -/
def structToBer (tag : Nat) {Ts : List Type} (fs : EncFields Ts) : ToBer (Tup Ts) where
  encoder := .generic
  contentLen v := fs.len v (.definite 0)
  tagInfo _ := (.universal, true, tag)
  writeContent v := fs.write v 0

/-! The same with fields of type `Option<T>`. The methods of `Option` that go through
`DynTagged::tag` may not return (`optionTag`), so the results are optional: `none` if the call has not
returned after `fuel` nested calls of `tag`. -/

/-- The type of a field: `T` or `Option<T>`. -/
inductive EncTy : Type → Type 1
  | plain {T : Type} (t : ToBer T) : EncTy T
  | option {T : Type} (t : ToBer T) : EncTy (Option T)

namespace EncTy

/-- `ber_content_len` (for `Option`: src/asn1_types/optional.rs:182-187). -/
def contentLen : {T : Type} → EncTy T → T → Length
  | _, .plain t, v => t.contentLen v
  | _, .option t, v => optionContentLen t v

/-- `ber_tag_info` (for `Option`: src/asn1_types/optional.rs:196-198; `class` and `constructed` are the
default methods of `DynTagged`, src/tag.rs:113-119). -/
def tagInfo (fuel : Nat) : {T : Type} → EncTy T → T → Option (Class × Bool × Nat)
  | _, .plain t, v => some (t.tagInfo v)
  | _, .option _, v => (optionTag fuel v).map fun tag => (.universal, false, tag)

/-- `ber_total_len` (src/to_ber.rs:32-36). -/
def totalLen (fuel : Nat) {T : Type} (e : EncTy T) (v : T) : Option Length :=
  (e.tagInfo fuel v).map fun info => berTotalLength info.2.2 (e.contentLen v)

/-- `ber_write_content`. -/
def writeContent : {T : Type} → EncTy T → T → Wr Nat
  | _, .plain t, v => t.writeContent v
  | _, .option t, v => optionWriteContent t v

/-- The encoder used for the header (for `Option`: `BerGenericEncoder`). -/
def encoder : {T : Type} → EncTy T → EncoderKind
  | _, .plain t => t.encoder
  | _, .option _ => .generic

/-- The `ToBer` of one value, once its tag information is known. -/
def fixed {T : Type} (e : EncTy T) (info : Class × Bool × Nat) : ToBer T where
  encoder := e.encoder
  contentLen := e.contentLen
  tagInfo _ := info
  writeContent := e.writeContent

/-- How a field is written (derive/src/container.rs:616-632): `ber_encode` (overridden by `Option`,
src/asn1_types/optional.rs:200-205), `ber_encode_tagged_explicit` or `ber_encode_tagged_implicit`. -/
def write (fuel : Nat) (tag : FieldTag) : {T : Type} → EncTy T → T → Option (Wr Nat)
  | _, .option t, v =>
    match tag with
    | .untagged => some (optionEncode t v)
    | _ => ((EncTy.option t).tagInfo fuel v).map fun info =>
        tag.write ((EncTy.option t).fixed info) v
  | _, .plain t, v => some (tag.write t v)

end EncTy

/-- The fields of a struct, for encoding. -/
inductive OptFields : List Type → Type 1
  | nil : OptFields []
  | cons {T : Type} {Ts : List Type} (tag : FieldTag) (e : EncTy T) (fs : OptFields Ts) :
      OptFields (T :: Ts)

/-- derive/src/container.rs:519-550. -/
def OptFields.len (fuel : Nat) : {Ts : List Type} → OptFields Ts → Tup Ts → Length → Option Length
  | _, .nil, _, acc => some acc
  | _, .cons tag e fs, (v, vs), acc =>
    match e.totalLen fuel v with
    | none => none
    | some total => fs.len fuel vs (tag.addLen total (e.contentLen v) acc)

/-- derive/src/container.rs:609-642. -/
def OptFields.write (fuel : Nat) : {Ts : List Type} → OptFields Ts → Tup Ts → Nat → Option (Wr Nat)
  | _, .nil, _, numBytes => some (pure numBytes)
  | _, .cons tag e fs, (v, vs), numBytes =>
    match e.write fuel tag v with
    | none => none
    | some w =>
      match fs.write fuel vs 0 with
      | none => none
      | some ws => some (do
          let n ← w
          let k ← ws
          pure (numBytes + n + k))

/-- `ber_encode` (src/to_ber.rs:66-70) of a struct: `none` if it does not return. -/
def structEncode (fuel : Nat) (tag : Nat) {Ts : List Type} (fs : OptFields Ts) (v : Tup Ts) :
    Option (Wr Nat) :=
  match fs.len fuel v (.definite 0), fs.write fuel v 0 with
  | some len, some content => some (do
      let n1 ← writeTagGeneric .universal true tag
      let n2 ← writeLength len
      let n3 ← content
      pure (n1 + n2 + n3))
  | _, _ => none

/-- `to_ber_vec` (src/to_ber.rs:112-116). -/
def structToVec (fuel : Nat) (tag : Nat) {Ts : List Type} (fs : OptFields Ts) (v : Tup Ts) :
    Option (Except SerErr Bytes) :=
  (structEncode fuel tag fs v).map fun w =>
    match w.exec with
    | (bs, .ok _) => .ok bs
    | (_, .error e) => .error e

/-! ### CHOICE -/

/-- A value of an enum with one payload in each variant. -/
def HSum : List Type → Type
  | [] => Empty
  | T :: Ts => T ⊕ HSum Ts

/-- derive/src/options.rs: the attribute `tagged_explicit`, `tagged_implicit`, or none. -/
inductive ChoiceKind where
  | explicit
  | implicit
  | untagged
  deriving DecidableEq, Repr

/-- derive/src/choice.rs:494-539 `parse_tag_variants`: the tags of the variants, `attrs` being their
`#[tag(n)]` attributes. `none`: "duplicate tag found" (the macro refuses the type). -/
def choiceTags : Nat → List (Option Nat) → List Nat → Option (List Nat)
  | _, [], acc => some acc
  | cur, attr :: attrs, acc =>
    let tag := attr.getD cur
    if acc.contains tag then none else choiceTags (tag + 1) attrs (acc ++ [tag])

/-- The variants, for parsing: the tag and the parser of the payload. -/
inductive Variants : List Type → Type 1
  | nil : Variants []
  | cons {T : Type} {Ts : List Type} (tag : Nat) (p : Parser T) (vs : Variants Ts) :
      Variants (T :: Ts)

/-- derive/src/choice.rs:84-114: the tags of one variant (`#tag => true`, or `accept_tag` of its type). -/
def variantAccept {T : Type} (k : ChoiceKind) (t : Nat) (p : Parser T) (tag : Nat) : Bool :=
  match k with
  | .untagged => p.acceptTag tag
  | .explicit => tag == t
  | .implicit => tag == t

/-- derive/src/choice.rs:211-232 and 265-273 (tagged), 298-313 and 341-347 (untagged): how one branch parses
its payload. -/
def variantContent {T : Type} (m : Rules) (k : ChoiceKind) (p : Parser T) (h : Header) (input : Input) :
    PRes T :=
  match k with
  | .explicit => m.parse p input
  | .implicit => p.content h input
  | .untagged => p.content h input

/-- derive/src/choice.rs:84-114: `accept_tag`. -/
def Variants.accept (k : ChoiceKind) : {Ts : List Type} → Variants Ts → Nat → Bool
  | _, .nil, _ => false
  | _, .cons t p vs, tag => variantAccept k t p tag || vs.accept k tag

/-- derive/src/choice.rs:211-232 and 265-273 (tagged), 298-313 and 341-347 (untagged): the branches. -/
def Variants.content (m : Rules) (k : ChoiceKind) :
    {Ts : List Type} → Variants Ts → Header → Input → PRes (HSum Ts)
  | _, .nil, h, input => nomErr input (.unexpectedTag none h.tag)
  | _, .cons t p vs, h, input =>
    if variantAccept k t p h.tag = true then do
      let (rem, x) ← variantContent m k p h input
      pure (rem, .inl x)
    else do
      let (rem, x) ← vs.content m k h input
      pure (rem, .inr x)

/-- derive/src/choice.rs:188-278 (tagged) and 280-350 (untagged): `from_ber_content` and
`from_der_content`. The class of the object is not looked at. -/
def choiceP (m : Rules) (k : ChoiceKind) {Ts : List Type} (vs : Variants Ts) : Parser (HSum Ts) where
  acceptTag := vs.accept k
  content h input :=
    match k with
    | .explicit => do
      h.assertConstructed input
      vs.content m k h input
    | _ => vs.content m k h input

/-- The variants, for encoding: the tag; `class`, `constructed` and `tag` of `DynTagged`; the `ToBer`
(`ToDer`) of the payload. -/
inductive EncVariants : List Type → Type 1
  | nil : EncVariants []
  | cons {T : Type} {Ts : List Type} (tag : Nat) (dyn : T → Class × Bool × Nat) (t : ToBer T)
      (vs : EncVariants Ts) : EncVariants (T :: Ts)

namespace EncVariants

/-- derive/src/choice.rs:380-400 `ber_content_len`. -/
def len (k : ChoiceKind) : {Ts : List Type} → EncVariants Ts → HSum Ts → Length
  | _, .cons _ _ t _, .inl x =>
    match k with
    | .explicit => t.totalLen x
    | _ => t.contentLen x
  | _, .cons _ _ _ vs, .inr x => vs.len k x

/-- derive/src/choice.rs:115-166 `class`, `constructed`, `tag`, with 402-412 `ber_tag_info`. -/
def info (k : ChoiceKind) : {Ts : List Type} → EncVariants Ts → HSum Ts → Class × Bool × Nat
  | _, .cons tag dyn _ _, .inl x =>
    match k with
    | .explicit => (.contextSpecific, true, tag)
    | .implicit => (.contextSpecific, (dyn x).2.1, tag)
    | .untagged => dyn x
  | _, .cons _ _ _ vs, .inr x => vs.info k x

/-- derive/src/choice.rs:414-449 `ber_write_content`. -/
def write (k : ChoiceKind) : {Ts : List Type} → EncVariants Ts → HSum Ts → Wr Nat
  | _, .cons _ _ t _, .inl x =>
    match k with
    | .explicit => t.encode x
    | _ => t.writeContent x
  | _, .cons _ _ _ vs, .inr x => vs.write k x

end EncVariants

/-- derive/src/choice.rs:352-378 `ToBer` and `ToDer`. -/
def choiceToBer (k : ChoiceKind) {Ts : List Type} (vs : EncVariants Ts) : ToBer (HSum Ts) where
  encoder := .generic
  contentLen := vs.len k
  tagInfo := vs.info k
  writeContent := vs.write k

/-! ### ENUMERATED -/

/-- derive/src/enumerated.rs:227-264 `parse_enum_variants`: the discriminants of the variants; `attrs`
are the explicit ones. (rustc numbers the variants in the same way, and refuses duplicates; it is
rustc's numbers that `*self as u32` gives.) -/
def discriminants : Nat → List (Option Nat) → List Nat
  | _, [] => []
  | cur, attr :: attrs => attr.getD cur :: discriminants (attr.getD cur + 1) attrs

/-- derive/src/enumerated.rs:89-100 and 103-160: `p` is the `BerParser` (`DerParser`) of `Enumerated`, `ds` are
the discriminants; a value is the number of its variant. -/
def enumP (p : Parser Nat) (ds : List Nat) : Parser (Fin ds.length) where
  acceptTag := tagIs 10
  content h input := do
    h.assertPrimitive input
    let (rem, n) ← p.content h input
    match ds.finIdxOf? n with
    | some k => .ok (rem, k)
    | none => nomErr input (.unexpectedTag none h.tag)

/-- derive/src/enumerated.rs:162-224 `ToBer` and `ToDer`. -/
def enumToBer (ds : List Nat) : ToBer (Fin ds.length) where
  encoder := .generic
  contentLen k := enumeratedToBer.contentLen ds[k]
  tagInfo _ := (.universal, false, 10)
  writeContent k := enumeratedToBer.writeContent ds[k]

/-! ### Aliases -/

/-- A struct `struct A(T)`. -/
structure Alias (α : Type) where
  inner : α
  deriving DecidableEq, Repr

/-- derive/src/alias.rs:112-210: `accept_tag`, `from_ber_content` and `from_der_content`. -/
def aliasP (p : Parser α) : Parser (Alias α) where
  acceptTag := p.acceptTag
  content h input := do
    let (rem, obj) ← p.content h input
    pure (rem, ⟨obj⟩)

/-- derive/src/alias.rs:212-257 `ToBer` and `ToDer`. -/
def aliasToBer (t : ToBer α) : ToBer (Alias α) where
  encoder := .generic
  contentLen v := t.contentLen v.inner
  tagInfo v := t.tagInfo v.inner
  writeContent v := t.writeContent v.inner

/-- derive/src/container.rs:178-183 `TryFrom<Any>` (`BerAlias`, `DerAlias`); `tryFrom` is the one of the inner
type. For `struct A(Any)` (176-177) it is `.ok`. `FromBer` is `fromBerWith` of it. -/
def aliasTryFrom (tryFrom : Any → Except SErr α) (any : Any) : Except SErr (Alias α) := do
  let res ← tryFrom any
  pure ⟨res⟩

/-- derive/src/container.rs:473-478 `FromDer` (`DerAlias`); `tag` is `TAG` of the inner type. -/
def aliasFromDer (tag : Nat) (tryFrom : Any → Except SErr α) (bytes : Bytes) :
    Except SErr (Bytes × Alias α) := do
  let (rem, any) ← wrapBerParser parseDerAny bytes
  assertTagS any.header tag
  let res ← tryFrom any
  pure (rem, ⟨res⟩)

/-- derive/src/container.rs:468-471 `FromDer` (`DerAlias`) of `struct A(Any)`. -/
def aliasAnyFromDer (bytes : Bytes) : Except SErr (Bytes × Alias Any) := do
  let (rem, any) ← wrapBerParser parseDerAny bytes
  pure (rem, ⟨any⟩)

/-- derive/src/container.rs:417-420 `check_constraints` (`DerAlias`), given the one of the inner type. -/
def aliasCheck (tag : Nat) (check : Any → Except SErr Unit) (any : Any) : Except SErr Unit := do
  assertTagS any.header tag
  check any

end Asn1

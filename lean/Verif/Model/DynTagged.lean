import Verif.Model.Derive
import Verif.Model.AnySet
import Verif.Model.Builders
import Verif.Model.CharStrings
import Verif.Model.Float32
import Verif.Model.Oid
import Verif.Model.Time
import Verif.Model.Strings
import Verif.Model.Integer
/-!
# `Tagged` and `DynTagged`: what a type says about the header of its values

`class`, `constructed` and `tag` of `DynTagged` (src/tag.rs:107-129) are asked for by the encoders of types
that change the header of another type: `TaggedValue` with an IMPLICIT tag
(src/asn1_types/tagged/implicit.rs:13-17), and a derived CHOICE (derive/src/choice.rs:115-166). The encoder of
the type itself (`ber_tag_info`) does not use them, so that the two can differ.

The tables list, for each type with an encoder, its `ToBer` and its `DynTagged`.
-/
namespace Asn1

/-- `class`, `constructed` and `tag` of a value. -/
abbrev Dyn (α : Type) : Type := α → Class × Bool × Nat

/-- src/tag.rs:131-148: `DynTagged` for a type that is `Tagged` (91-97: `CLASS` is UNIVERSAL unless the type
says otherwise), given `CONSTRUCTED` and `TAG`. -/
def universalDyn (α : Type) (constructed : Bool) (tag : Nat) : Dyn α := fun _ => (.universal, constructed, tag)

/-- src/asn1_types/tagged/explicit.rs:5-9 `Tagged for TaggedValue<.., Explicit, ..>`. -/
def explicitDyn (α : Type) (cls : Class) (tag : Nat) : Dyn (TaggedValue α) := fun _ => (cls, true, tag)

/-- src/asn1_types/tagged/implicit.rs:5-26 `DynTagged for TaggedValue<.., Implicit, ..>`. -/
def implicitDyn {α : Type} (cls : Class) (tag : Nat) (dyn : Dyn α) : Dyn (TaggedValue α) :=
  fun v => (cls, (dyn v.inner).2.1, tag)

/-- derive/src/alias.rs:112-130 `DynTagged` for a type made with `Alias`. -/
def aliasDyn {α : Type} (dyn : Dyn α) : Dyn (Alias α) := fun v => dyn v.inner

/-- derive/src/container.rs:214-259 `gen_tagged` for a type made with `BerAlias`, `DerAlias`, `BerParserAlias` or
`DerParserAlias`: `CLASS` and `TAG` of the inner type, which is `Tagged`; `CONSTRUCTED` is false. -/
def oldAliasDyn {α : Type} (dyn : Dyn α) : Dyn (Alias α) := fun v => ((dyn v.inner).1, false, (dyn v.inner).2.2)

/-- src/asn1_types/oid.rs:88-95 (`class` and `constructed` are the default methods). -/
def oidDyn : Dyn Oid := fun v => (.universal, false, if v.relative then 13 else 6)

/-- src/asn1_types/any.rs:553-564. -/
def anyDyn : Dyn Any := fun a => (a.header.cls, a.header.constructed, a.header.tag)

/-- src/header.rs:391-403. -/
def headerDyn : Dyn Header := fun h => (h.cls, h.constructed, h.tag)

/-- src/asn1_types/tagged/parser.rs:14-43 and 74-83: `class` and `tag` are those of the header (inherent methods);
`constructed` is the default method. -/
def taggedParserDyn (α : Type) : Dyn (TaggedParser α) := fun v => (v.header.cls, false, v.header.tag)

/-- The types whose encoder and `DynTagged` are written with the same constants. -/
inductive DynTagged : {α : Type} → ToBer α → Dyn α → Prop
  /-- src/asn1_types/boolean.rs:88-90 and 171-173. -/
  | booleanBer : DynTagged booleanToBer (universalDyn _ false 1)
  | booleanDer : DynTagged booleanToDer (universalDyn _ false 1)
  | bool : DynTagged boolToBer (universalDyn _ false 1)
  /-- src/asn1_types/integer.rs:141-143, 239-241 and 638-640. -/
  | uint (N : Nat) : DynTagged (uintToBer N) (universalDyn _ false 2)
  | int (N : Nat) : DynTagged (intToBer N) (universalDyn _ false 2)
  | integer : DynTagged integerToBer (universalDyn _ false 2)
  /-- src/asn1_types/bitstring.rs:174-176. -/
  | bitString : DynTagged bitToBer (universalDyn _ false 3)
  /-- src/asn1_types/octetstring.rs:103-105 and 190-192. -/
  | octetString : DynTagged octetToBer (universalDyn _ false 4)
  /-- src/asn1_types/null.rs:60-62 and 121-123. -/
  | null : DynTagged nullToBer (universalDyn _ false 5)
  | oid : DynTagged oidToBer oidDyn
  /-- src/asn1_types/real.rs:200-202, real/f64.rs:46-48 and real/f32.rs:46-48. -/
  | real (lib : FloatLib) : DynTagged (realToBer lib) (universalDyn _ false 9)
  | f64 (lib : FloatLib) : DynTagged (f64ToBer lib) (universalDyn _ false 9)
  | f32 (lib : FloatLib) : DynTagged (f32ToBer lib) (universalDyn _ false 9)
  /-- src/asn1_types/enumerated.rs:58-60. -/
  | enumerated : DynTagged enumeratedToBer (universalDyn _ false 10)
  /-- derive/src/enumerated.rs:89-100. -/
  | enum (ds : List Nat) : DynTagged (enumToBer ds) (universalDyn _ false 10)
  /-- src/asn1_types/strings.rs:172-174, strings/str.rs:64-66 and string.rs:54-56 (`tag` is that of the type). -/
  | string (tag : Nat) : DynTagged (strToBer tag) (universalDyn _ false tag)
  /-- src/asn1_types/strings/bmpstring.rs:115-117. -/
  | bmpString : DynTagged bmpToBer (universalDyn _ false 30)
  /-- src/asn1_types/strings/universalstring.rs:127-129. -/
  | universalString : DynTagged univToBer (universalDyn _ false 28)
  /-- src/asn1_types/utctime.rs:222-224. -/
  | utcTime : DynTagged utcToBer (universalDyn _ false 23)
  /-- src/asn1_types/generalizedtime.rs:299-301. -/
  | generalizedTime : DynTagged genToBer (universalDyn _ false 24)
  /-- src/asn1_types/sequence/vec.rs:132-135 and sequence_of.rs:198-201. -/
  | vec {α : Type} (t : ToBer α) : DynTagged (listToBer 16 t) (universalDyn _ true 16)
  /-- src/asn1_types/sequence/array.rs:10-13. -/
  | array {α : Type} (N : Nat) (t : ToBer α) : DynTagged (arrayToBer N t) (universalDyn _ true 16)
  /-- src/to_ber/constructed_indefinite.rs:44-56. -/
  | indefiniteVec {α : Type} (t : ToBer α) : DynTagged (indefToBer t) (universalDyn _ true 16)
  /-- src/asn1_types/set/btreeset.rs:7-10 and hashset.rs:12-15. -/
  | set {α σ : Type} (S : SetImpl α σ) (t : ToBer α) : DynTagged (setToBer S t) (universalDyn _ true 17)
  /-- src/asn1_types/sequence.rs:457-460 (tag 16) and set.rs:438-441 (tag 17). -/
  | raw (tag : Nat) : DynTagged (rawToBer tag) (universalDyn _ true tag)
  | any : DynTagged anyToBer anyDyn
  | header : DynTagged headerToBer headerDyn
  /-- derive/src/container.rs:214-259 (`tag` is 16 or 17). -/
  | struct {Ts : List Type} (tag : Nat) (fs : EncFields Ts) :
      DynTagged (structToBer tag fs) (universalDyn _ true tag)
  /-- derive/src/choice.rs:115-186. -/
  | choice {Ts : List Type} (k : ChoiceKind) (vs : EncVariants Ts) : DynTagged (choiceToBer k vs) (vs.info k)
  | explicit {α : Type} (cls : Class) (tag : Nat) (dynTag : α → Nat) (t : ToBer α) :
      DynTagged (explicitToBer cls tag dynTag t) (explicitDyn α cls tag)
  | implicit {α : Type} (cls : Class) (tag : Nat) (dyn : Dyn α) (t : ToBer α) :
      DynTagged (implicitToBer cls tag (fun v => (dyn v).2.1) t) (implicitDyn cls tag dyn)
  | taggedParserImplicit {α : Type} (t : ToBer α) :
      DynTagged (taggedParserImplicitToBer t) (taggedParserDyn α)
  /-- src/tag.rs:99-106: a reference. -/
  | ref {α : Type} {t : ToBer α} {dyn : Dyn α} (h : DynTagged t dyn) : DynTagged (refToBer t) dyn
  | alias {α : Type} {t : ToBer α} {dyn : Dyn α} (h : DynTagged t dyn) : DynTagged (aliasToBer t) (aliasDyn dyn)

/-- The types that leave `CONSTRUCTED` (`constructed`) at its default value, false (src/tag.rs:94 and 117-119),
while their encoder writes constructed objects. -/
inductive DynTaggedDefault : {α : Type} → ToBer α → Dyn α → Prop
  /-- src/asn1_types/set/set_of.rs:200-202. -/
  | setOf {α : Type} (t : ToBer α) : DynTaggedDefault (listToBer 17 t) (universalDyn _ false 17)
  /-- src/asn1_types/sequence/any_sequence.rs:56-58. -/
  | anySequence : DynTaggedDefault (listToBer 16 anyToBer) (universalDyn _ false 16)
  /-- src/asn1_types/set/any_set.rs:61-63. -/
  | anySet (H : HashImpl) : DynTaggedDefault (anySetToBer H) (universalDyn _ false 17)
  | taggedParserExplicit {α : Type} (t : ToBer α) :
      DynTaggedDefault (taggedParserExplicitToBer t) (taggedParserDyn α)
  /-- src/tag.rs:99-106: a reference. -/
  | ref {α : Type} {t : ToBer α} {dyn : Dyn α} (h : DynTaggedDefault t dyn) : DynTaggedDefault (refToBer t) dyn
  | alias {α : Type} {t : ToBer α} {dyn : Dyn α} (h : DynTaggedDefault t dyn) :
      DynTaggedDefault (aliasToBer t) (aliasDyn dyn)

end Asn1

import Verif.Model.WorkTyped
import Verif.Spec.Built
/-!
# Specification: the types of C115, their parsers, and the parsers that count

`Ty α`: a description of a type with values `α`, made of the universal types by the type constructors of the
crate, nested in any way (those of Spec/Built). `parser m` is the `BerParser` or the `DerParser` of the type,
`counter m` is the one that counts the headers it reads, `layers` bounds how many times a byte is gone over,
`objects v` is the number of objects the value `v` consists of.
-/
namespace Asn1.Spec
open Asn1

/-- The types whose `from_ber_content` and `from_der_content` read no header (they take bytes of the content). -/
inductive HeaderFree : {α : Type} → Parser α → Parser α → Prop
  | uint (N : Nat) (hN : 1 ≤ N ∧ N ≤ 16) : HeaderFree (uintBer N) (uintDer N)
  | int (N : Nat) (hN : 1 ≤ N ∧ N ≤ 16) : HeaderFree (intBer N) (intDer N)
  | integer : HeaderFree integerBer integerDer
  | bool : HeaderFree boolBer boolDer
  | boolean : HeaderFree booleanBer booleanDer
  | null : HeaderFree nullP nullP
  | enumerated : HeaderFree enumeratedBer enumeratedDer
  | enum (ds : List Nat) : HeaderFree (enumP enumeratedBer ds) (enumP enumeratedDer ds)
  | oid : HeaderFree oidP oidP
  | utcTime : HeaderFree utcBer utcDer
  | generalizedTime : HeaderFree genBer genDer
  | real (lib : FloatLib) : HeaderFree (realP lib) (realP lib)
  | f64 (lib : FloatLib) : HeaderFree (f64P lib) (f64P lib)
  | f32 (lib : FloatLib) : HeaderFree (f32P lib) (f32P lib)
  | refStr : HeaderFree refStrBer refStrDer
  | slice : HeaderFree sliceBer sliceDer
  | any : HeaderFree (anyBer.map anyParts) (anyDer.map anyParts)
  | raw (tag : Nat) : HeaderFree (rawP tag) (rawP tag)

mutual

/-- The types. -/
inductive Ty : Type → Type 1
  | leaf {α : Type} (pb pd : Parser α) (h : HeaderFree pb pd) : Ty α
  | octetString : Ty Bytes
  | bitString : Ty BitString
  | text (k : StrKind) : Ty Text
  | string : Ty Text
  | bmpString : Ty Text
  | universalString : Ty Text
  | embeddedPdv : Ty EmbeddedPdv
  | vec {α : Type} (t : Ty α) : Ty (List α)
  | sequenceOf {α : Type} (t : Ty α) : Ty (SequenceOf α)
  | setOf {α : Type} (t : Ty α) : Ty (SetOf α)
  | set {α σ : Type} (S : SetImpl α σ) (t : Ty α) : Ty σ
  | array {α : Type} (N : Nat) (t : Ty α) : Ty (Arr α N)
  | tuple {Ts : List Type} (ts : Tys Ts) : Ty (Tup Ts)
  | explicit {α : Type} (cls : Class) (tag : Nat) (t : Ty α) : Ty (TaggedValue α)
  | implicit {α : Type} (cls : Class) (tag : Nat) (t : Ty α) : Ty (TaggedValue α)
  | struct {Ts : List Type} (tag : Nat) (fs : FieldTys Ts) : Ty (Tup Ts)
  | choice {Ts : List Type} (k : ChoiceKind) (vs : VariantTys Ts) : Ty (HSum Ts)
  | alias {α : Type} (t : Ty α) : Ty (Alias α)

/-- The components of a tuple. -/
inductive Tys : List Type → Type 1
  | nil : Tys []
  | cons {T : Type} {Ts : List Type} (t : Ty T) (ts : Tys Ts) : Tys (T :: Ts)

/-- The fields of a struct. -/
inductive FieldTys : List Type → Type 1
  | nil : FieldTys []
  | required {T : Type} {Ts : List Type} (tag : FieldTag) (t : Ty T) (fs : FieldTys Ts) : FieldTys (T :: Ts)
  | optional {T : Type} {Ts : List Type} (tag : FieldTag) (t : Ty T) (fs : FieldTys Ts) :
      FieldTys (Option T :: Ts)
  | default {T : Type} {Ts : List Type} (tag : FieldTag) (x : T) (t : Ty T) (fs : FieldTys Ts) :
      FieldTys (T :: Ts)

/-- The variants of a CHOICE. -/
inductive VariantTys : List Type → Type 1
  | nil : VariantTys []
  | cons {T : Type} {Ts : List Type} (tag : Nat) (t : Ty T) (vs : VariantTys Ts) : VariantTys (T :: Ts)

end

/-! ### The parsers -/

mutual

/-- The `BerParser` or the `DerParser` of a type (`ULift`: the four functions have to be in the same universe). -/
def Ty.parserUp (m : Rules) : {α : Type} → Ty α → ULift.{1} (Parser α)
  | _, .leaf pb pd _ => ⟨match m with | .ber => pb | .der => pd⟩
  | _, .octetString => ⟨match m with | .ber => octetBer | .der => octetDer⟩
  | _, .bitString => ⟨match m with | .ber => bitBer | .der => bitDer⟩
  | _, .text k => ⟨match m with | .ber => strBer k | .der => strDer k⟩
  | _, .string => ⟨match m with | .ber => stringBer | .der => refStrDer⟩
  | _, .bmpString => ⟨match m with | .ber => bmpBer | .der => bmpDer⟩
  | _, .universalString => ⟨match m with | .ber => univBer | .der => univDer⟩
  | _, .embeddedPdv => ⟨pdvP⟩
  | _, .vec t => ⟨vecP m.anyParse (t.parserUp m).down⟩
  | _, .sequenceOf t => ⟨sequenceOfP m.anyParse (t.parserUp m).down⟩
  | _, .setOf t => ⟨setOfP m.anyParse (t.parserUp m).down⟩
  | _, .set S t => ⟨setP S m.anyParse (t.parserUp m).down⟩
  | _, .array N t => ⟨arrayP N m.anyParse (t.parserUp m).down⟩
  | _, .tuple ts => ⟨tupleP (ts.fns m)⟩
  | _, .explicit cls tag t => ⟨explicitP cls tag (m.parse (t.parserUp m).down)⟩
  | _, .implicit cls tag t => ⟨implicitP cls tag (t.parserUp m).down⟩
  | _, .struct tag fs => ⟨structP m tag (fs.fields m)⟩
  | _, .choice k vs => ⟨choiceP m k (vs.variants m)⟩
  | _, .alias t => ⟨aliasP (t.parserUp m).down⟩

/-- The functions of the components of a tuple. -/
def Tys.fns (m : Rules) : {Ts : List Type} → Tys Ts → TupFns Ts
  | _, .nil => .nil
  | _, .cons t ts => .cons (m.parse (t.parserUp m).down) (ts.fns m)

/-- The fields of a struct. -/
def FieldTys.fields (m : Rules) : {Ts : List Type} → FieldTys Ts → Fields Ts
  | _, .nil => .nil
  | _, .required tag t fs => .cons (.required tag (t.parserUp m).down) (fs.fields m)
  | _, .optional tag t fs => .cons (.optional tag (t.parserUp m).down) (fs.fields m)
  | _, .default tag x t fs => .cons (.default tag (t.parserUp m).down x) (fs.fields m)

/-- The variants of a CHOICE. -/
def VariantTys.variants (m : Rules) : {Ts : List Type} → VariantTys Ts → Variants Ts
  | _, .nil => .nil
  | _, .cons tag t vs => .cons tag (t.parserUp m).down (vs.variants m)

end

/-- The `BerParser` or the `DerParser` of a type. -/
def Ty.parser (m : Rules) {α : Type} (t : Ty α) : Parser α := (t.parserUp m).down

/-! ### The parsers that count -/

mutual

/-- The parser that counts: the functions of Model/WorkTyped. -/
def Ty.counter (m : Rules) : {α : Type} → Ty α → CParser α
  | _, .leaf pb pd _ => match m with | .ber => CParser.leaf pb | .der => CParser.leaf pd
  | _, .octetString => CParser.octets.strict m
  | _, .bitString => CParser.bits.strict m
  | _, .text k => (CParser.text k).strict m
  | _, .string => match m with | .ber => CParser.text utf8StringK | .der => CParser.leaf refStrDer
  | _, .bmpString => (CParser.wide 30 bmpOfBytes).strict m
  | _, .universalString => (CParser.wide 28 univOfBytes).strict m
  | _, .embeddedPdv => CParser.pdv
  | _, .vec t => CParser.vec m (t.counter m)
  | _, .sequenceOf t => (CParser.vec m (t.counter m)).map SequenceOf.mk
  | _, .setOf t => (CParser.setItems m (t.counter m)).map SetOf.mk
  | _, .set S t => (CParser.setItems m (t.counter m)).map S.ofList
  | _, .array N t => CParser.array N m (t.counter m)
  | _, .tuple ts => ⟨tagIs 16, fun _ input => ts.run m input⟩
  | _, .explicit cls tag t => CParser.explicit m cls tag (t.counter m)
  | _, .implicit cls tag t => CParser.implicit cls tag (t.counter m)
  | _, .struct tag fs => ⟨tagIs tag, fun h input => do
      Tick.free (h.assertConstructed input)
      fs.run m input⟩
  | _, .choice k vs => ⟨vs.accept m k, fun h input =>
      match k with
      | .explicit => do
        Tick.free (h.assertConstructed input)
        vs.content m k h input
      | _ => vs.content m k h input⟩
  | _, .alias t => (t.counter m).map Alias.mk

/-- The components of a tuple, one after the other (src/asn1_types/sequence/tuple.rs:22-24 and 40-42). -/
def Tys.run (m : Rules) : {Ts : List Type} → Tys Ts → Input → Tick (Input × Tup Ts)
  | _, .nil, input => pure (input, ())
  | _, .cons t ts, input => do
    let (rem, v) ← (t.counter m).parse m input
    let (rem, vs) ← ts.run m rem
    pure (rem, (v, vs))

/-- The fields of a struct, one after the other (derive/src/container.rs:912-1020). -/
def FieldTys.run (m : Rules) : {Ts : List Type} → FieldTys Ts → Input → Tick (Input × Tup Ts)
  | _, .nil, input => pure (input, ())
  | _, .required tag t fs, input => do
    let (rem, v) ← requiredTick m tag (t.counter m) input
    let (rem, vs) ← fs.run m rem
    pure (rem, (v, vs))
  | _, .optional tag t fs, input => do
    let (rem, v) ← optionalTick m tag (t.counter m) input
    let (rem, vs) ← fs.run m rem
    pure (rem, (v, vs))
  | _, .default tag x t fs, input => do
    let (rem, v) ← optionalTick m tag (t.counter m) input
    let (rem, vs) ← fs.run m rem
    pure (rem, (v.getD x, vs))

/-- The tags of the variants (derive/src/choice.rs:84-114). -/
def VariantTys.accept (m : Rules) (k : ChoiceKind) : {Ts : List Type} → VariantTys Ts → Nat → Bool
  | _, .nil, _ => false
  | _, .cons tag t vs, n => acceptTick k tag (t.counter m) n || vs.accept m k n

/-- The branches (derive/src/choice.rs:211-232, 265-273, 298-313 and 341-347). -/
def VariantTys.content (m : Rules) (k : ChoiceKind) :
    {Ts : List Type} → VariantTys Ts → Header → Input → Tick (Input × HSum Ts)
  | _, .nil, h, input => Tick.free (nomErr input (.unexpectedTag none h.tag))
  | _, .cons tag t vs, h, input =>
    if acceptTick k tag (t.counter m) h.tag = true then do
      let (rem, x) ← variantTick m k (t.counter m) h input
      pure (rem, .inl x)
    else do
      let (rem, x) ← vs.content m k h input
      pure (rem, .inr x)

end

/-! ### How often a byte is gone over -/

/-- What a tag attribute adds. -/
def tagLayers : FieldTag → Nat
  | .explicit _ _ => 1
  | _ => 0

mutual

/-- Strings five times (the levels of segmentation the crate accepts), and once more for each list, set, tuple,
EXPLICIT tag or CHOICE around; for a struct, see `FieldTys.layers`. -/
def Ty.layers : {α : Type} → Ty α → Nat
  | _, .leaf _ _ _ => 0
  | _, .octetString => 5
  | _, .bitString => 5
  | _, .text _ => 5
  | _, .string => 5
  | _, .bmpString => 5
  | _, .universalString => 5
  | _, .embeddedPdv => 8
  | _, .vec t => t.layers + 1
  | _, .sequenceOf t => t.layers + 1
  | _, .setOf t => t.layers + 1
  | _, .set _ t => t.layers + 1
  | _, .array _ t => t.layers + 1
  | _, .tuple ts => ts.layers
  | _, .explicit _ _ t => t.layers + 1
  | _, .implicit _ _ t => t.layers
  | _, .struct _ fs => fs.layers + fs.options
  | _, .choice _ vs => vs.layers
  | _, .alias t => t.layers

/-- The components of a tuple. -/
def Tys.layers : {Ts : List Type} → Tys Ts → Nat
  | _, .nil => 0
  | _, .cons t ts => max (t.layers + 1) ts.layers

/-- The fields of a struct: the header of an optional field is read twice. -/
def FieldTys.layers : {Ts : List Type} → FieldTys Ts → Nat
  | _, .nil => 0
  | _, .required tag t fs => max (t.layers + 1 + tagLayers tag) fs.layers
  | _, .optional tag t fs => max (t.layers + 2 + tagLayers tag) fs.layers
  | _, .default tag _ t fs => max (t.layers + 2 + tagLayers tag) fs.layers

/-- The number of fields that may be missing: of each a header may be read in vain. -/
def FieldTys.options : {Ts : List Type} → FieldTys Ts → Nat
  | _, .nil => 0
  | _, .required _ _ fs => fs.options
  | _, .optional _ _ fs => fs.options + 1
  | _, .default _ _ _ fs => fs.options + 1

/-- The variants of a CHOICE. -/
def VariantTys.layers : {Ts : List Type} → VariantTys Ts → Nat
  | _, .nil => 0
  | _, .cons _ t vs => max (t.layers + 1) vs.layers

end

/-! ### The objects a value consists of -/

/-- The fields within the identification of an EMBEDDED PDV. -/
def pdvFields : PdvIdentification → Nat
  | .syntaxes _ _ => 2
  | .contextNegotiation _ _ => 2
  | _ => 0

open Classical in
mutual

/-- The number of objects within the content of a value, at any depth (the segments of a string apart: a value
does not show them). -/
noncomputable def Ty.within : {α : Type} → Ty α → α → Nat
  | _, .leaf _ _ _, _ => 0
  | _, .octetString, _ => 0
  | _, .bitString, _ => 0
  | _, .text _, _ => 0
  | _, .string, _ => 0
  | _, .bmpString, _ => 0
  | _, .universalString, _ => 0
  | _, .embeddedPdv, v =>
    1 + pdvFields v.identification + (if v.dataValueDescriptor.isSome then 1 else 0) + 1
  | _, .vec t, v => (v.map fun x => 1 + t.within x).sum
  | _, .sequenceOf t, v => (v.items.map fun x => 1 + t.within x).sum
  | _, .setOf t, v => (v.items.map fun x => 1 + t.within x).sum
  | _, .set S t, v => ((S.toList v).map fun x => 1 + t.within x).sum
  | _, .array _ t, v => (v.1.map fun x => 1 + t.within x).sum
  | _, .tuple ts, v => ts.within v
  | _, .explicit _ _ t, v => 1 + t.within v.inner
  | _, .implicit _ _ t, v => t.within v.inner
  | _, .struct _ fs, v => fs.within v
  | _, .choice k vs, v => vs.within k v
  | _, .alias t, v => t.within v.inner

/-- The components of a tuple. -/
noncomputable def Tys.within : {Ts : List Type} → Tys Ts → Tup Ts → Nat
  | _, .nil, _ => 0
  | _, .cons t ts, v => 1 + t.within v.1 + ts.within v.2

/-- The fields of a struct that are present: an EXPLICIT tag is one more object, a DEFAULT field with the value it
has by default may be missing. -/
noncomputable def FieldTys.within : {Ts : List Type} → FieldTys Ts → Tup Ts → Nat
  | _, .nil, _ => 0
  | _, .required tag t fs, v => 1 + tagLayers tag + t.within v.1 + fs.within v.2
  | _, .optional tag t fs, v =>
    (match v.1 with
      | some x => 1 + tagLayers tag + t.within x
      | none => 0) + fs.within v.2
  | _, .default tag x t fs, v => (if v.1 = x then 0 else 1 + tagLayers tag + t.within v.1) + fs.within v.2

/-- The variant of a CHOICE: an EXPLICIT tag is one more object. -/
noncomputable def VariantTys.within (k : ChoiceKind) : {Ts : List Type} → VariantTys Ts → HSum Ts → Nat
  | _, .nil, _ => 0
  | _, .cons _ t vs, v =>
    match v with
    | .inl x => (if k = .explicit then 1 else 0) + t.within x
    | .inr y => vs.within k y

end

/-- The number of objects a value consists of. -/
noncomputable def Ty.objects {α : Type} (t : Ty α) (v : α) : Nat := 1 + t.within v

end Asn1.Spec

import Verif.Model.CustomError
/-!
# Types with their own error type: specification
-/
namespace Asn1.Spec
open Asn1

variable {α ε ε' : Type}

/-- The same outcome, up to the error: the same value and the same rest of the input, the same
`Incomplete`, or an error in both cases, related by `R`. -/
def SameOutcome {β : Type} (R : BerErr → ε → Prop) : Except PErr β → Except (NErr ε) β → Prop
  | .ok a, .ok b => a = b
  | .error (.incomplete n), .error (.incomplete k) => n = k
  | .error (.error i e), .error (.error e') => R ⟨i, e⟩ e'
  | .error .panic, .error .panic => True
  | .error .diverge, .error .diverge => True
  | _, _ => False

mutual
/-- `Retyped m R p g`: `p` and `g` are the parsers of the same type definition, `p` without the
attributes `error` and `map_err` (every error is a `BerError`) and `g` with them; `R` relates the errors
of the one to those of the other: it is preserved by every function given as `map_err` and by every
conversion. -/
inductive Retyped (m : Rules) : {ε α : Type} → (BerErr → ε → Prop) → Parser α → GParser ε α → Prop
  | plain {α : Type} {R : BerErr → BerErr → Prop} (p : Parser α) (hR : ∀ b, R b b) :
      Retyped m R p p.plain
  | explicit {ε α : Type} {R : BerErr → ε → Prop} {p : Parser α} {g : GParser ε α} (cls : Class)
      (tag : Nat) : Retyped m R p g →
      Retyped m R (explicitP cls tag (m.parse p)) (explicitG m cls tag g)
  | implicit {ε α : Type} {R : BerErr → ε → Prop} {p : Parser α} {g : GParser ε α} (cls : Class)
      (tag : Nat) : Retyped m R p g → Retyped m R (implicitP cls tag p) (implicitG cls tag g)
  | vec {ε α : Type} {R : BerErr → ε → Prop} {p : Parser α} {g : GParser ε α} :
      Retyped m R p g → Retyped m R (match m with | .ber => vecBer p | .der => vecDer p) (vecG m g)
  | sequenceOf {ε α : Type} {R : BerErr → ε → Prop} {p : Parser α} {g : GParser ε α} :
      Retyped m R p g →
      Retyped m R (match m with | .ber => sequenceOfP anyBer.parseBer p | .der => sequenceOfP anyDer.parseDer p)
        (sequenceOfG m g)
  | array {ε α : Type} {R : BerErr → ε → Prop} {p : Parser α} {g : GParser ε α} (N : Nat) :
      Retyped m R p g →
      Retyped m R (match m with | .ber => arrayP N anyBer.parseBer p | .der => arrayP N anyDer.parseDer p)
        (arrayG N m g)
  | setOf {ε α : Type} {R : BerErr → ε → Prop} {p : Parser α} {g : GParser ε α} :
      Retyped m R p g →
      Retyped m R (match m with | .ber => setOfP anyBer.parseBer p | .der => setOfP anyDer.parseDer p)
        (setG m SetOf.mk g)
  | set {ε α σ : Type} {R : BerErr → ε → Prop} {p : Parser α} {g : GParser ε α} (S : SetImpl α σ) :
      Retyped m R p g →
      Retyped m R (match m with | .ber => setP S anyBer.parseBer p | .der => setP S anyDer.parseDer p)
        (setG m S.ofList g)
  | tuple {R : BerErr → BerErr → Prop} {Ts : List Type} {fs : Fields Ts} {gs : GFields BerErr Ts}
      (hR : ∀ b, R b b) : RetypedFields m R fs gs → Retyped m R (tupleP (fs.fns m)) (tupleG m gs)
  | struct {ε : Type} {R : BerErr → ε → Prop} (tag : Nat) (conv : BerErr → ε) {Ts : List Type}
      {fs : Fields Ts} {gs : GFields ε Ts} (hR : ∀ b, R b (conv b)) :
      RetypedFields m R fs gs → Retyped m R (structP m tag fs) (structG m tag conv gs)
  | choice {ε : Type} {R : BerErr → ε → Prop} (k : ChoiceKind) (conv : BerErr → ε) {Ts : List Type}
      {vs : Variants Ts} {ws : GVariants ε Ts} (hR : ∀ b, R b (conv b)) :
      RetypedVariants m R vs ws → Retyped m R (choiceP m k vs) (choiceG m k conv ws)
  | enum {ε : Type} {R : BerErr → ε → Prop} (conv : BerErr → ε) (p : Parser Nat) (ds : List Nat)
      (hR : ∀ b, R b (conv b)) : Retyped m R (enumP p ds) (enumG conv p ds)
  | alias {ε ε' α : Type} {R : BerErr → ε → Prop} {R' : BerErr → ε' → Prop} {p : Parser α}
      {g : GParser ε' α} (f : ε' → ε) (conv : BerErr → ε) (hR : ∀ b, R b (conv b))
      (hf : ∀ b e, R' b e → R b (f e)) :
      Retyped m R' p g → Retyped m R (aliasP p) (aliasG f conv g)

/-- The same for the fields of a struct. -/
inductive RetypedFields (m : Rules) : {ε : Type} → (BerErr → ε → Prop) → {Ts : List Type} →
    Fields Ts → GFields ε Ts → Prop
  | nil {ε : Type} {R : BerErr → ε → Prop} : RetypedFields m R .nil .nil
  | required {ε ε' T : Type} {R : BerErr → ε → Prop} {R' : BerErr → ε' → Prop} {Ts : List Type}
      {p : Parser T} {g : GParser ε' T} {fs : Fields Ts} {gs : GFields ε Ts} (tag : FieldTag)
      (f : ε' → ε) (hf : ∀ b e, R' b e → R b (f e)) :
      Retyped m R' p g → RetypedFields m R fs gs →
      RetypedFields m R (.cons (.required tag p) fs) (.cons (.required f tag g) gs)
  | optional {ε ε' T : Type} {R : BerErr → ε → Prop} {R' : BerErr → ε' → Prop} {Ts : List Type}
      {p : Parser T} {g : GParser ε' T} {fs : Fields Ts} {gs : GFields ε Ts} (tag : FieldTag)
      (f : ε' → ε) (fh : BerErr → ε) (hf : ∀ b e, R' b e → R b (f e)) (hh : ∀ b, R b (fh b)) :
      Retyped m R' p g → RetypedFields m R fs gs →
      RetypedFields m R (.cons (.optional tag p) fs) (.cons (.optional f fh tag g) gs)
  | default {ε ε' T : Type} {R : BerErr → ε → Prop} {R' : BerErr → ε' → Prop} {Ts : List Type}
      {p : Parser T} {g : GParser ε' T} {fs : Fields Ts} {gs : GFields ε Ts} (tag : FieldTag)
      (f : ε' → ε) (fh : BerErr → ε) (x : T) (hf : ∀ b e, R' b e → R b (f e))
      (hh : ∀ b, R b (fh b)) :
      Retyped m R' p g → RetypedFields m R fs gs →
      RetypedFields m R (.cons (.default tag p x) fs) (.cons (.default f fh tag g x) gs)
  | custom {ε T : Type} {R : BerErr → ε → Prop} {Ts : List Type} {fs : Fields Ts}
      {gs : GFields ε Ts} (parse : Input → PRes T) (parse' : Header → Input → Input → GRes ε T)
      (hp : ∀ h orig i, SameOutcome R (parse i) (parse' h orig i)) :
      RetypedFields m R fs gs →
      RetypedFields m R (.cons (.custom parse) fs) (.cons (.custom parse') gs)

/-- The same for the variants of a CHOICE. -/
inductive RetypedVariants (m : Rules) : {ε : Type} → (BerErr → ε → Prop) → {Ts : List Type} →
    Variants Ts → GVariants ε Ts → Prop
  | nil {ε : Type} {R : BerErr → ε → Prop} : RetypedVariants m R .nil .nil
  | cons {ε ε' T : Type} {R : BerErr → ε → Prop} {R' : BerErr → ε' → Prop} {Ts : List Type}
      {p : Parser T} {g : GParser ε' T} {vs : Variants Ts} {ws : GVariants ε Ts} (tag : Nat)
      (f : ε' → ε) (hf : ∀ b e, R' b e → R b (f e)) :
      Retyped m R' p g → RetypedVariants m R vs ws →
      RetypedVariants m R (.cons tag p vs) (.cons f tag g ws)
end

/-! ### The byte-slice API -/

/-- The same outcome, up to the error, in the byte-slice API. -/
def SameOutcomeS {β : Type} (R : Error → ε → Prop) : Except SErr β → Except (NErr ε) β → Prop
  | .ok a, .ok b => a = b
  | .error (.incomplete n), .error (.incomplete k) => n = k
  | .error (.error e), .error (.error e') => R e e'
  | .error .panic, .error .panic => True
  | .error .diverge, .error .diverge => True
  | _, _ => False

/-- A derived struct as a field type: with `BerSequence` (`BerSet`), -/
def structBerType (tag : Nat) {Ts : List Type} (fs : SliceFields Ts) : SliceType (Tup Ts) :=
  ⟨fromBerWith (structTryFrom tag fs), structTryFrom tag fs, tag, tagIs tag⟩

/-- and with `DerSequence` (`DerSet`); `fs` are the fields under BER (for `TryFrom<Any>`), `ds` under
DER. -/
def structDerType (tag : Nat) {Ts : List Type} (fs ds : SliceFields Ts) : SliceType (Tup Ts) :=
  ⟨structFromDer tag ds, structTryFrom tag fs, tag, tagIs tag⟩

/-- The same with the attribute `error`. -/
def structBerTypeG (tag : Nat) (conv : Error → ε) {Ts : List Type} (gs : GSliceFields ε Ts) :
    GSlice ε (Tup Ts) :=
  ⟨conv, fromBerG conv (structTryFromG tag conv gs), structTryFromG tag conv gs, tag, tagIs tag⟩

/-- The same with the attribute `error`. -/
def structDerTypeG (tag : Nat) (conv : Error → ε) {Ts : List Type} (gs ds : GSliceFields ε Ts) :
    GSlice ε (Tup Ts) :=
  ⟨conv, structFromDerG tag conv ds, structTryFromG tag conv gs, tag, tagIs tag⟩

/-- A list (`Vec`, `SequenceOf`: tag 16, `SetOf`: tag 17) as a field type of a struct with `DerSequence`. `tf` is its
`TryFrom<Any>`. -/
def listDerType {α : Type} (tag : Nat) (tf : Any → Except SErr (List α)) (ty : SliceType α) : SliceType (List α) :=
  ⟨seqFromDer tag ty.from_, tf, tag, tagIs tag⟩

/-- The same, of items with their own error type. (The code has `TryFrom<Any>` for lists of items with the error type
`Error` only, so nothing is claimed of it by saying that its errors are converted; with another error type an IMPLICIT
tag on a list does not compile.) -/
def listDerTypeG {α : Type} (tag : Nat) (tf : Any → Except SErr (List α)) (g : GSlice ε α) : GSlice ε (List α) :=
  ⟨g.conv, seqFromDerG tag g.conv g.from_, fun a => convertS g.conv (tf a), tag, tagIs tag⟩

/-- A set (`BTreeSet`, `HashSet`) as a field type. -/
def setDerType {α σ : Type} (S : SetImpl α σ) (tf : Any → Except SErr σ) (ty : SliceType α) : SliceType σ :=
  ⟨setFromDer S ty.from_, tf, 17, tagIs 17⟩

/-- The same, of items with their own error type (for `tf` see `listDerTypeG`). -/
def setDerTypeG {α σ : Type} (S : SetImpl α σ) (tf : Any → Except SErr σ) (g : GSlice ε α) : GSlice ε σ :=
  ⟨g.conv, setFromDerG S g.conv g.from_, fun a => convertS g.conv (tf a), 17, tagIs 17⟩

mutual
/-- `RetypedS m R ty g`: `ty` and `g` are the same type, without and with the attributes `error` and
`map_err`, as in `Retyped`. -/
inductive RetypedS : Rules → {ε α : Type} → (Error → ε → Prop) → SliceType α → GSlice ε α → Prop
  | plain {m : Rules} {α : Type} {R : Error → Error → Prop} (ty : SliceType α) (hR : ∀ e, R e e) :
      RetypedS m R ty ty.plain
  | structBer {ε : Type} {R : Error → ε → Prop} (tag : Nat) (conv : Error → ε) {Ts : List Type}
      {fs : SliceFields Ts} {gs : GSliceFields ε Ts} (hR : ∀ e, R e (conv e)) :
      RetypedSFields .ber R fs gs →
      RetypedS .ber R (structBerType tag fs) (structBerTypeG tag conv gs)
  | structDer {ε : Type} {R : Error → ε → Prop} (tag : Nat) (conv : Error → ε) {Ts : List Type}
      {fs ds : SliceFields Ts} {gs dgs : GSliceFields ε Ts} (hR : ∀ e, R e (conv e)) :
      RetypedSFields .ber R fs gs → RetypedSFields .der R ds dgs →
      RetypedS .der R (structDerType tag fs ds) (structDerTypeG tag conv gs dgs)
  | list {ε α : Type} {R : Error → ε → Prop} {ty : SliceType α} {g : GSlice ε α} (tag : Nat)
      (tf : Any → Except SErr (List α)) :
      RetypedS .der R ty g → RetypedS .der R (listDerType tag tf ty) (listDerTypeG tag tf g)
  | set {ε α σ : Type} {R : Error → ε → Prop} {ty : SliceType α} {g : GSlice ε α} (S : SetImpl α σ)
      (tf : Any → Except SErr σ) :
      RetypedS .der R ty g → RetypedS .der R (setDerType S tf ty) (setDerTypeG S tf g)

/-- The same for the fields of a struct. -/
inductive RetypedSFields : Rules → {ε : Type} → (Error → ε → Prop) → {Ts : List Type} →
    SliceFields Ts → GSliceFields ε Ts → Prop
  | nil {m : Rules} {ε : Type} {R : Error → ε → Prop} : RetypedSFields m R .nil .nil
  | required {m : Rules} {ε ε' T : Type} {R : Error → ε → Prop} {R' : Error → ε' → Prop}
      {Ts : List Type} {ty : SliceType T} {g : GSlice ε' T} {fs : SliceFields Ts}
      {gs : GSliceFields ε Ts} (tag : FieldTag) (f : ε' → ε) (hf : ∀ b e, R' b e → R b (f e)) :
      RetypedS m R' ty g → RetypedSFields m R fs gs →
      RetypedSFields m R (.cons (.required tag ty) fs) (.cons (.required f tag g) gs)
  | optional {m : Rules} {ε ε' T : Type} {R : Error → ε → Prop} {R' : Error → ε' → Prop}
      {Ts : List Type} {ty : SliceType T} {g : GSlice ε' T} {fs : SliceFields Ts}
      {gs : GSliceFields ε Ts} (tag : FieldTag) (f : ε' → ε) (fh : Error → ε)
      (hf : ∀ b e, R' b e → R b (f e)) (hh : ∀ e, R e (fh e)) :
      RetypedS m R' ty g → RetypedSFields m R fs gs →
      RetypedSFields m R (.cons (.optional tag ty) fs) (.cons (.optional f fh tag g) gs)
  | default {m : Rules} {ε ε' T : Type} {R : Error → ε → Prop} {R' : Error → ε' → Prop}
      {Ts : List Type} {ty : SliceType T} {g : GSlice ε' T} {fs : SliceFields Ts}
      {gs : GSliceFields ε Ts} (tag : FieldTag) (f : ε' → ε) (fh : Error → ε) (x : T)
      (hf : ∀ b e, R' b e → R b (f e)) (hh : ∀ e, R e (fh e)) :
      RetypedS m R' ty g → RetypedSFields m R fs gs →
      RetypedSFields m R (.cons (.default tag ty x) fs) (.cons (.default f fh tag g x) gs)
end

end Asn1.Spec

namespace Asn1.Spec
open Asn1
variable {ε : Type}

/-- `FieldError fld … rem e`: the field fails at `rem`, and `e` is the error of its type (or of the
header in front of it, if it is tagged and optional) passed through the function of the field. -/
def FieldError (m : Rules) (h : Header) (orig : Input) :
    {T : Type} → GField ε T → Input → ε → Prop
  | _, .required f tag p, rem, e =>
    ∃ e0, requiredFieldG m tag p rem = .error (.error e0) ∧ e = f e0
  | _, .optional f fh tag p, rem, e => OptError m f fh tag p rem e
  | _, .default f fh tag p _, rem, e => OptError m f fh tag p rem e
  | _, .custom parse, rem, e => parse h orig rem = .error (.error e)
where
  /-- The same for a field that is optional. -/
  OptError {ε' α : Type} (m : Rules) (f : ε' → ε) (fh : BerErr → ε) (tag : FieldTag)
      (p : GParser ε' α) (rem : Input) (e : ε) : Prop :=
    match tag with
    | .untagged => ∃ e0, optionParseG m p rem = .error (.error e0) ∧ e = f e0
    | .explicit _ n | .implicit _ n => rem.isEmpty = false ∧
      ((∃ i e0, m.header rem = .error (.error i e0) ∧ e = fh ⟨i, e0⟩) ∨
        ∃ r hd e0, m.header rem = .ok (r, hd) ∧ hd.tag = n ∧
          requiredFieldG m tag p rem = .error (.error e0) ∧ e = f e0)

/-- `FirstError gs … rem e`: the fields before some field are read, one after the other, and that field
fails with the error `e`. -/
def FirstError (m : Rules) (h : Header) (orig : Input) :
    {Ts : List Type} → GFields ε Ts → Input → ε → Prop
  | _, .nil, _, _ => False
  | _, .cons fld gs, rem, e => FieldError m h orig fld rem e ∨
    ∃ r v, fld.parse m h orig rem = .ok (r, v) ∧ FirstError m h orig gs r e

end Asn1.Spec

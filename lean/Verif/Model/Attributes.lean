import Verif.Model.Derive
/-!
# The attributes of the derive macros

`derive/src/container.rs`, `derive/src/options.rs`, `derive/src/asn1_type.rs`, `derive/src/choice.rs`: how the
attributes written on a struct and on its fields are read.

`syn`'s own parsers are not modelled. An attribute is described by what they make of its tokens: the tokens
themselves (as far as tags need them), the expression in the parentheses, the list of nested items. Expressions
are left abstract (`E`). Identifiers are taken to be ASCII (`to_uppercase`).
-/
namespace Asn1

/-- Why a derive macro generates nothing: `syn::Error` (reported as a compile error) or a panic of the macro.
The compilation fails in both cases. -/
inductive DeriveErr where
  | refused
  | panic
  deriving DecidableEq, Repr

/-- The tokens in the parentheses of `tag_explicit(…)`, `tag_implicit(…)` and `tag(…)`: identifiers that are
not keywords, integer literals (by value; the suffix is not looked at by `base10_parse`), others. -/
inductive Tok where
  | ident (s : String)
  | int (n : Nat)
  | other
  deriving DecidableEq, Repr

/-- What stands after `=` in an item of `asn1(…)`. For a string literal: the identifiers, if its text is a
comma-separated list of identifiers (a final comma is allowed), and the expression, if it is one. -/
inductive ItemValue (E : Type) where
  | str (idents : Option (List String)) (expr : Option E)
  | other

/-- An item of `asn1(…)`: its path, if it is a single identifier, and its value, if it has one. -/
structure Item (E : Type) where
  path : Option String
  value : Option (ItemValue E)

/-- An attribute: its path, if it is a single identifier; the tokens in its parentheses, if it has any;
what `parse_args::<Expr>` gives; what `parse_nested_meta` visits (none if the tokens have another shape). -/
structure Attr (E : Type) where
  path : Option String
  toks : Option (List Tok) := none
  expr : Option E := none
  items : Option (List (Item E)) := none

/-- derive/src/container.rs:33-37 `Asn1TagKind`. -/
inductive TagKind where
  | explicit
  | implicit
  deriving DecidableEq, Repr

/-- derive/src/container.rs:797-806: the class named by the identifier, in any case. -/
def tagClass (s : String) : Except DeriveErr Class :=
  let s := s.toList.map Char.toUpper
  if s = "UNIVERSAL".toList then .ok .universal
  else if s = "CONTEXT-SPECIFIC".toList then .ok .contextSpecific
  else if s = "APPLICATION".toList then .ok .application
  else if s = "PRIVATE".toList then .ok .priv
  else .error .refused

/-- derive/src/container.rs:810-812: the number, a `u16`, and the end of the tokens (`parse_args_with`). -/
def tagNumber (cls : Class) : List Tok → Except DeriveErr (Class × Nat)
  | [.int n] => if n < 2 ^ 16 then .ok (cls, n) else .error .refused
  | _ => .error .refused

/-- derive/src/container.rs:794-813 `parse_tag_args`. -/
def parseTagArgs : List Tok → Except DeriveErr (Class × Nat)
  | .ident s :: rest => tagClass s >>= fun cls => tagNumber cls rest
  | toks => tagNumber .contextSpecific toks

/-- derive/src/container.rs:697-708 `FieldInfo` (without the name and the type of the field; `encode` is never
set, see `fieldItem`). -/
structure FieldInfo (E : Type) where
  default : Option E := none
  optional : Bool := false
  tag : Option (TagKind × Class × Nat) := none
  mapErr : Option E := none
  parse : Option E := none

namespace FieldInfo
variable {E : Type}

/-- derive/src/container.rs:741-754: `tag_explicit` and `tag_implicit`. Both the second tag and arguments that
cannot be read are panics. -/
def setTag (info : FieldInfo E) (k : TagKind) (toks : Option (List Tok)) : Except DeriveErr (FieldInfo E) :=
  if info.tag.isSome then .error .panic
  else match toks.map parseTagArgs with
    | some (.ok (cls, n)) => .ok { info with tag := some (k, cls, n) }
    | _ => .error .panic

/-- derive/src/container.rs:757-774: an item of `asn1(…)` on a field. `encode` is refused whatever its
value. -/
def item (info : FieldInfo E) (it : Item E) : Except DeriveErr (FieldInfo E) :=
  if it.path = some "parse" then
    match it.value with
    | some (.str _ (some e)) => .ok { info with parse := some e }
    | _ => .error .refused
  else .error .refused

/-- derive/src/container.rs:725-779: the body of the loop over the attributes of a field. -/
def step (info : FieldInfo E) (a : Attr E) : Except DeriveErr (FieldInfo E) :=
  if a.path = some "map_err" then
    match a.expr with
    | some e => .ok { info with mapErr := some e }
    | none => .error .refused
  else if a.path = some "default" then
    match a.expr with
    | some e => .ok { info with default := some e, optional := true }
    | none => .error .refused
  else if a.path = some "optional" then .ok { info with optional := true }
  else if a.path = some "tag_explicit" then info.setTag .explicit a.toks
  else if a.path = some "tag_implicit" then info.setTag .implicit a.toks
  else if a.path = some "asn1" then
    match a.items with
    | some items => items.foldlM item info
    | none => .error .refused
  else .ok info

/-- derive/src/container.rs:711-791 `TryFrom<&Field> for FieldInfo`. -/
def ofAttrs (attrs : List (Attr E)) : Except DeriveErr (FieldInfo E) := attrs.foldlM step {}

/-- The tag of the field in the generated code: derive/src/container.rs:965-966 for the parsers, 521-547 and
612-633 for the encoders. -/
def fieldTag (info : FieldInfo E) : FieldTag :=
  match info.tag with
  | none => .untagged
  | some (.explicit, cls, n) => .explicit cls n
  | some (.implicit, cls, n) => .implicit cls n

end FieldInfo

/-- The type of a field: `Option<T>` or another one, and the parser of `T`. -/
inductive FieldTy : Type → Type 1
  | plain {T : Type} (p : Parser T) : FieldTy T
  | option {T : Type} (p : Parser T) : FieldTy (Option T)

/-- derive/src/container.rs:934-1020 `get_field_berparser`: which parser is generated for a field with these
attributes and this type. `value` and `fn` say what the expressions mean. `none`: the generated code has a type
error, or the field is a tagged `Option` that is not marked optional, or a default for an `Option`, which are
not modelled. -/
def FieldInfo.field {E T : Type} (value : E → T) (fn : E → Input → PRes T) (info : FieldInfo E) (ty : FieldTy T) :
    Option (Field T) :=
  match info.parse with
  | some e => some (.custom (fn e))
  | none =>
    match info.default, ty with
    | some x, .plain p => some (.default info.fieldTag p (value x))
    | some _, .option _ => none
    | none, .plain p =>
      if info.tag.isSome && info.optional then none else some (.required info.fieldTag p)
    | none, .option p =>
      if info.tag.isSome && !info.optional then none else some (.optional info.fieldTag p)

/-- derive/src/asn1_type.rs:93-107 `Parse for Asn1Type`. -/
def asn1Type (s : String) : Except DeriveErr Rules :=
  if s = "BER" then .ok .ber else if s = "DER" then .ok .der else .error .refused

/-- derive/src/asn1_type.rs:87-90 `parse_multi`. -/
def parseMulti {E : Type} : Option (ItemValue E) → Except DeriveErr (List Rules)
  | some (.str (some idents) _) => idents.mapM asn1Type
  | _ => .error .refused

/-- derive/src/options.rs:4-13 `Options`. `error` is the attribute itself. -/
structure Options (E : Type) where
  debug : Bool := false
  error : Option (Attr E) := none
  tagKind : Option TagKind := none
  origInput : Bool := false
  parsers : List Rules := [.ber, .der]
  encoders : List Rules := [.ber, .der]

namespace Options
variable {E : Type}

/-- derive/src/options.rs:36-51: an item of `asn1(…)` on a struct or enum. A value after `orig_input` is not
consumed, which `parse_nested_meta` reports. -/
def item (o : Options E) (it : Item E) : Except DeriveErr (Options E) :=
  if it.path = some "parse" then (parseMulti it.value).map fun ts => { o with parsers := ts }
  else if it.path = some "encode" then (parseMulti it.value).map fun ts => { o with encoders := ts }
  else if it.path = some "orig_input" then
    match it.value with
    | none => .ok { o with origInput := true }
    | some _ => .error .refused
  else .error .refused

/-- derive/src/options.rs:24-53: the body of the loop over the attributes of a struct or enum. -/
def step (o : Options E) (a : Attr E) : Except DeriveErr (Options E) :=
  if a.path = some "debug_derive" then .ok { o with debug := true }
  else if a.path = some "tagged_explicit" then .ok { o with tagKind := some .explicit }
  else if a.path = some "tagged_implicit" then .ok { o with tagKind := some .implicit }
  else if a.path = some "error" then .ok { o with error := some a }
  else if a.path = some "asn1" then
    match a.items with
    | some items => items.foldlM item o
    | none => .error .refused
  else .ok o

/-- derive/src/options.rs:16-56 `Options::from_struct`. -/
def ofAttrs (attrs : List (Attr E)) : Except DeriveErr (Options E) := attrs.foldlM step {}

end Options

/-- The trait implementations a derive macro generates (the tag of the type apart, which is always there). -/
inductive Impl where
  | parser (m : Rules)
  | encoder (m : Rules)
  deriving DecidableEq

/-- derive/src/sequence.rs:49-75, derive/src/alias.rs:90-110, derive/src/choice.rs:61-81,
derive/src/enumerated.rs:67-87: the implementations generated by `Sequence`, `Set`, `Alias`, `Choice` and
`Enumerated`. derive/src/container.rs:268-273 and 646-651 (and the same lines of the others): nothing for a type
that is not listed. -/
def Options.impls {E : Type} (o : Options E) : List Impl :=
  ([.ber, .der].filter (o.parsers.contains ·)).map .parser ++
    ([.ber, .der].filter (o.encoders.contains ·)).map .encoder

/-- derive/src/choice.rs:542-553 `get_variant_tag`: the first attribute `tag` of a variant. -/
def variantTag {E : Type} : List (Attr E) → Except DeriveErr (Option Nat)
  | [] => .ok none
  | a :: rest =>
    if a.path = some "tag" then
      match a.toks with
      | some [.int n] => if n < 2 ^ 32 then .ok (some n) else .error .refused
      | _ => .error .refused
    else variantTag rest

/-- derive/src/choice.rs:494-539 `parse_tag_variants`, with the attributes of the variants: the tag numbers. The
attributes are read one variant at a time; a refusal of either kind ends the derive. -/
def variantTags {E : Type} (variants : List (List (Attr E))) : Except DeriveErr (List Nat) := do
  let given ← variants.mapM variantTag
  match choiceTags 0 given [] with
  | some tags => .ok tags
  | none => .error .refused

end Asn1

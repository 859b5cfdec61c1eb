import Verif.Model.Attributes
/-!
# Several derive macros on one type

`derive/src/check_derive.rs` and the macros that call it: `derive/src/sequence.rs`, `derive/src/set.rs`,
`derive/src/alias.rs`, `derive/src/choice.rs`, and the names in `derive/src/lib.rs`.

What the compiler does is taken from the comment of derive/src/check_derive.rs:9-14: a macro named in one
`#[derive(…)]` sees, of the attributes of the type, only those below its own. Each macro is taken to have read
the type without an error (C111, C112 are about that). An alias of `Any` gets `DynTagged` instead of `Tagged`
(derive/src/container.rs:218-240); this is not distinguished here.
-/
namespace Asn1

/-- derive/src/lib.rs:19-201: the derive macros of the crate. -/
inductive Macro where
  | berAlias | derAlias
  | berSequence | derSequence | berSet | derSet
  | toStatic
  | toBerSequence | toDerSequence | toDerSet | toBerSet
  | berParserSequence | derParserSequence | berParserSet | derParserSet
  | berParserChoice | derParserChoice | berParserAlias | derParserAlias
  | sequence | set | choice | enumerated | alias
  deriving DecidableEq, Repr

/-- derive/src/lib.rs:19-201: the name a macro is exported with. -/
def Macro.name : Macro → String
  | .berAlias => "BerAlias" | .derAlias => "DerAlias"
  | .berSequence => "BerSequence" | .derSequence => "DerSequence"
  | .berSet => "BerSet" | .derSet => "DerSet"
  | .toStatic => "ToStatic"
  | .toBerSequence => "ToBerSequence" | .toDerSequence => "ToDerSequence"
  | .toDerSet => "ToDerSet" | .toBerSet => "ToBerSet"
  | .berParserSequence => "BerParserSequence" | .derParserSequence => "DerParserSequence"
  | .berParserSet => "BerParserSet" | .derParserSet => "DerParserSet"
  | .berParserChoice => "BerParserChoice" | .derParserChoice => "DerParserChoice"
  | .berParserAlias => "BerParserAlias" | .derParserAlias => "DerParserAlias"
  | .sequence => "Sequence" | .set => "Set" | .choice => "Choice"
  | .enumerated => "Enumerated" | .alias => "Alias"

/-- What a macro implements: the tag of the type (`Tagged` or `DynTagged`), `TryFrom<Any>`,
`CheckDerConstraints`, `FromDer`, a parser, an encoder, `ToStatic`. -/
inductive Gen where
  | tag
  | tryFrom
  | checkDer
  | fromDer
  | impl (i : Impl)
  | toStatic
  deriving DecidableEq

/-- What stands in `#[derive(…)]`: its path, if it is a single identifier, and the macro of this crate it
names, if it is one. -/
structure Derived where
  ident : Option String
  mac : Option Macro := none
  deriving DecidableEq

/-- An attribute of a type: a `derive`, with its items, or another one. -/
inductive TypeAttr where
  | derive (items : List Derived)
  | other
  deriving DecidableEq

/-- derive/src/check_derive.rs:44-57 `PATTERNS`. -/
def patterns : List String :=
  ["BerSequence", "DerSequence", "BerParserSequence", "DerParserSequence",
   "BerSet", "DerSet", "BerParserSet", "DerParserSet",
   "BerParserAlias", "DerParserAlias", "BerParserChoice", "DerParserChoice"]

/-- derive/src/check_derive.rs:59-64: the comparison of an identifier, and 25-31: of a path. -/
def Derived.matched (d : Derived) : Bool :=
  match d.ident with
  | some s => patterns.any fun p => p.toList.isPrefixOf s.toList
  | none => false

/-- derive/src/check_derive.rs:17-37: the body of the closure. -/
def TypeAttr.matched : TypeAttr → Bool
  | .derive items => items.any Derived.matched
  | .other => false

/-- derive/src/check_derive.rs:15-38 `check_lastderive_fromber`, on the attributes the macro sees. -/
def checkLast (visible : List TypeAttr) : Bool :=
  !visible.any TypeAttr.matched

/-- `impl_tagged` and `dyntagged` in derive/src/sequence.rs:126-132, 161-167, 209-215, derive/src/alias.rs:303-310,
370-377, derive/src/choice.rs:473-479. -/
def tagIf (visible : List TypeAttr) : List Gen :=
  if checkLast visible then [.tag] else []

/-- derive/src/container.rs:268-273 and 658-663: nothing for rules that are not listed. -/
def implIf (i : Impl) (wanted : Bool) : List Gen :=
  if wanted then [.impl i] else []

/-- What a macro generates for a type with the options `o`, seeing the attributes `visible`:
derive/src/sequence.rs:49-78, 112-142, 144-184, 186-227, 229-254, derive/src/set.rs:8-39,
derive/src/alias.rs:90-110, 261-287, 289-322, 324-354, 356-389, derive/src/choice.rs:61-81, 465-489,
derive/src/enumerated.rs:67-87, derive/src/tostatic.rs:5-15. -/
def Macro.generates {E : Type} (o : Options E) (visible : List TypeAttr) : Macro → List Gen
  | .berAlias => [.tryFrom, .tag]
  | .derAlias => [.tryFrom, .tag, .checkDer, .fromDer]
  | .berSequence | .berSet => .tryFrom :: tagIf visible
  | .derSequence | .derSet => .tryFrom :: tagIf visible ++ [.checkDer, .fromDer]
  | .toStatic => [.toStatic]
  | .toBerSequence | .toBerSet => implIf (.encoder .ber) (o.encoders.contains .ber)
  | .toDerSequence | .toDerSet => implIf (.encoder .der) (o.encoders.contains .der)
  | .berParserSequence | .berParserSet | .berParserChoice | .berParserAlias =>
    tagIf visible ++ implIf (.parser .ber) (o.parsers.contains .ber)
  | .derParserSequence | .derParserSet | .derParserChoice | .derParserAlias =>
    tagIf visible ++ implIf (.parser .der) (o.parsers.contains .der)
  | .sequence | .set | .choice | .enumerated | .alias => .tag :: o.impls.map .impl

/-- What an item of a `#[derive(…)]` generates for this crate's traits. -/
def Derived.generates {E : Type} (o : Options E) (visible : List TypeAttr) (d : Derived) : List Gen :=
  match d.mac with
  | some m => m.generates o visible
  | none => []

/-- Everything that is generated for a type with these attributes, from the first to the last: the macros of
an attribute see the attributes below it. -/
def generated {E : Type} (o : Options E) : List TypeAttr → List Gen
  | [] => []
  | .derive items :: below => items.flatMap (Derived.generates o below) ++ generated o below
  | .other :: below => generated o below

end Asn1

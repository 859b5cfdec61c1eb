import Verif.Model.CheckDerive
/-!
# Specification: several derive macros on one type (C117)
-/
namespace Asn1.Spec

/-- The macros that can be combined on one type, each in a `#[derive(…)]` of its own. -/
def sharing : List Macro :=
  [.berSequence, .derSequence, .berSet, .derSet, .berParserSequence, .derParserSequence, .berParserSet,
   .derParserSet, .berParserChoice, .derParserChoice, .berParserAlias, .derParserAlias]

/-- The macros that are complete on their own. -/
def complete : List Macro :=
  [.berAlias, .derAlias, .sequence, .set, .choice, .enumerated, .alias]

/-- The item is a macro of one of these. -/
def Derived.isOneOf (ms : List Macro) (d : Derived) : Bool :=
  ms.any fun m => d.mac = some m

/-- The item is a macro of this crate written by its name, without a path and not renamed, or it is a macro
of somewhere else and its name does not start with the name of one of the macros that can be combined. -/
def Derived.plain (d : Derived) : Prop :=
  match d.mac with
  | some m => d.ident = some m.name
  | none => ∀ s, d.ident = some s → ∀ m ∈ sharing, ¬ m.name.toList <+: s.toList

/-- The lists in the `#[derive(…)]` attributes of a type, from the first to the last. -/
def derives : List TypeAttr → List (List Derived)
  | [] => []
  | .derive items :: rest => items :: derives rest
  | .other :: rest => derives rest

/-- Everything that is derived for a type. -/
def derivedItems (attrs : List TypeAttr) : List Derived := (derives attrs).flatten

/-- How many of the items are macros of one of these. -/
def howMany (ms : List Macro) (items : List Derived) : Nat := items.countP (Derived.isOneOf ms)

/-- The last `#[derive(…)]` with a macro that can be combined with others (nothing if there is none). -/
def lastShared (attrs : List TypeAttr) : List Derived :=
  (((derives attrs).filter fun items => items.any (Derived.isOneOf sharing)).getLast?).getD []

/-- The macros an implementation (other than the tag) can come from. -/
def sources : Gen → List Macro
  | .tag => []
  | .tryFrom => [.berAlias, .derAlias, .berSequence, .derSequence, .berSet, .derSet]
  | .checkDer => [.derAlias, .derSequence, .derSet]
  | .fromDer => [.derAlias, .derSequence, .derSet]
  | .impl (.parser .ber) => [.berParserSequence, .berParserSet, .berParserChoice, .berParserAlias,
      .sequence, .set, .choice, .enumerated, .alias]
  | .impl (.parser .der) => [.derParserSequence, .derParserSet, .derParserChoice, .derParserAlias,
      .sequence, .set, .choice, .enumerated, .alias]
  | .impl (.encoder .ber) => [.toBerSequence, .toBerSet, .sequence, .set, .choice, .enumerated, .alias]
  | .impl (.encoder .der) => [.toDerSequence, .toDerSet, .sequence, .set, .choice, .enumerated, .alias]
  | .toStatic => [.toStatic]

/-- The options of the type ask for this implementation (only parsers and encoders can be left out). -/
def wanted {E : Type} (o : Options E) : Gen → Bool
  | .impl (.parser r) => o.parsers.contains r
  | .impl (.encoder r) => o.encoders.contains r
  | _ => true

end Asn1.Spec

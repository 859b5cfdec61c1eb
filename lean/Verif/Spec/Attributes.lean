import Verif.Model.Attributes
import Verif.Spec.BuiltValue
/-!
# What the attributes of the derive macros mean

doc/DERIVE.md, in terms of the attributes written, without the loop that reads them.
-/
namespace Asn1.Spec
open Asn1
variable {E : Type}

/-- The word for a class. -/
def classWord : Class → String
  | .universal => "UNIVERSAL"
  | .application => "APPLICATION"
  | .contextSpecific => "CONTEXT-SPECIFIC"
  | .priv => "PRIVATE"

/-- `s` is the word for the class, in upper or lower case. -/
def NamesClass (s : String) (c : Class) : Prop := s.toList.map Char.toUpper = (classWord c).toList

/-- The arguments of `tag_explicit` and `tag_implicit`: a number that fits 16 bits, with a class before it or
not. -/
def TagArgs (toks : List Tok) (c : Class) (n : Nat) : Prop :=
  n < 2 ^ 16 ∧ (toks = [.int n] ∧ c = .contextSpecific ∨ ∃ s, toks = [.ident s, .int n] ∧ NamesClass s c)

/-- The name of the attribute that gives a tag of this kind. -/
def tagAttr : TagKind → String
  | .explicit => "tag_explicit"
  | .implicit => "tag_implicit"

/-- The attribute gives a tag. -/
def GivesTag (a : Attr E) : Prop := ∃ k, a.path = some (tagAttr k)

/-- An item that can be given in `asn1(…)` on a field: `parse = "<expression>"`. -/
def ParseItem (it : Item E) (e : E) : Prop := ∃ ids, it = ⟨some "parse", some (.str ids (some e))⟩

/-- The attributes are admissible on a field: those the macros know have the right arguments, and there is at
most one tag. -/
structure Admissible (attrs : List (Attr E)) : Prop where
  mapErr : ∀ a ∈ attrs, a.path = some "map_err" → a.expr ≠ none
  default : ∀ a ∈ attrs, a.path = some "default" → a.expr ≠ none
  tag : ∀ a ∈ attrs, GivesTag a → ∃ toks c n, a.toks = some toks ∧ TagArgs toks c n
  oneTag : attrs.Pairwise fun a b => ¬ (GivesTag a ∧ GivesTag b)
  asn1 : ∀ a ∈ attrs, a.path = some "asn1" → ∃ items, a.items = some items ∧ ∀ it ∈ items, ∃ e, ParseItem it e

/-- `e` is the argument of the last of the attributes of this name. -/
def LastArg (name : String) (attrs : List (Attr E)) (e : E) : Prop :=
  ∃ pre a post, attrs = pre ++ a :: post ∧ a.path = some name ∧ a.expr = some e ∧
    ∀ b ∈ post, b.path ≠ some name

/-- `e` is the parser given by the last `parse` item. -/
def LastParse (attrs : List (Attr E)) (e : E) : Prop :=
  ∃ pre a post ipre it, attrs = pre ++ a :: post ∧ a.path = some "asn1" ∧ a.items = some (ipre ++ [it]) ∧
    ParseItem it e ∧ ∀ b ∈ post, b.path = some "asn1" → b.items = some []

/-- What admissible attributes say about a field. -/
structure Says (attrs : List (Attr E)) (info : FieldInfo E) : Prop where
  default : ∀ e, info.default = some e ↔ LastArg "default" attrs e
  mapErr : ∀ e, info.mapErr = some e ↔ LastArg "map_err" attrs e
  optional : info.optional = true ↔ ∃ a ∈ attrs, a.path = some "optional" ∨ a.path = some "default"
  tag : ∀ k c n, info.tag = some (k, c, n) ↔
    ∃ a ∈ attrs, a.path = some (tagAttr k) ∧ ∃ toks, a.toks = some toks ∧ TagArgs toks c n
  parse : ∀ e, info.parse = some e ↔ LastParse attrs e

/-- The attributes the macros look at on a field. -/
def fieldAttrs : List String := ["map_err", "default", "optional", "tag_explicit", "tag_implicit", "asn1"]

/-- No attribute that the macros look at is written twice. -/
def NoRepeat (attrs : List (Attr E)) : Prop :=
  attrs.Pairwise fun a b => a.path = b.path → ∀ s ∈ fieldAttrs, a.path ≠ some s

/-- The tag that the attributes give to a field. -/
def TagOf (attrs : List (Attr E)) : FieldTag → Prop
  | .untagged => ∀ a ∈ attrs, ¬ GivesTag a
  | .explicit c n => ∃ a ∈ attrs, a.path = some "tag_explicit" ∧ ∃ toks, a.toks = some toks ∧ TagArgs toks c n
  | .implicit c n => ∃ a ∈ attrs, a.path = some "tag_implicit" ∧ ∃ toks, a.toks = some toks ∧ TagArgs toks c n

/-- The fields of a struct with their attributes, and a value for each. `es`, `fb` and `fd` are what the macro
generates from the attributes: the encoders of the fields and their parsers. No field has the type `Option` or
a parser of its own. The conditions on the values are those of `FieldValues`. -/
inductive Declared :
    {Ts Us : List Type} → EncFields Ts → Fields Us → Fields Us → Tup Ts → Tup Us → Prop
  | nil : Declared .nil .nil .nil () ()
  | cons {r : Bool} {E T U : Type} {Ts Us : List Type} {t : ToBer T} {pb pd : Parser U} {v w}
      {es : EncFields Ts} {fb fd : Fields Us} {vs ws} (attrs : List (Attr E)) {info : FieldInfo E}
      (ha : FieldInfo.ofAttrs attrs = .ok info) (hp : ∀ a ∈ attrs, a.path ≠ some "asn1")
      {value : E → U} {fn : E → Input → PRes U} {f g : Field U}
      (hf : info.field value fn (.plain pb) = some f) (hg : info.field value fn (.plain pd) = some g)
      (h : Value r t pb pd v w) (hr : (∃ a ∈ attrs, a.path = some "tag_implicit") → r = true)
      (hs : (∃ a ∈ attrs, GivesTag a) → ∀ n, t.totalLen v = .definite n → n < 2 ^ 24)
      (ht : Declared es fb fd vs ws) :
      Declared (.cons info.fieldTag t es) (.cons f fb) (.cons g fd) (v, vs) (w, ws)

/-- The item is one that can be given in `asn1(…)` on a struct or enum. -/
def OptionItem (it : Item E) : Prop :=
  (it.path = some "parse" ∨ it.path = some "encode") ∧
      (∃ ids e, it.value = some (.str (some ids) e) ∧ ∀ s ∈ ids, s = "BER" ∨ s = "DER") ∨
    it.path = some "orig_input" ∧ it.value = none

/-- All items of the `asn1(…)` attributes, in order. -/
def asn1Items (attrs : List (Attr E)) : List (Item E) :=
  attrs.flatMap fun a => if a.path = some "asn1" then a.items.getD [] else []

/-- The word for the rules. -/
def rulesWord : Rules → String
  | .ber => "BER"
  | .der => "DER"

/-- The list given by the last item of this name contains the word for `m`; or there is no such item. -/
def Wanted (name : String) (items : List (Item E)) (m : Rules) : Prop :=
  (∀ it ∈ items, it.path ≠ some name) ∨
  ∃ pre it post ids e, items = pre ++ it :: post ∧ it.path = some name ∧
    it.value = some (.str (some ids) e) ∧ rulesWord m ∈ ids ∧ ∀ j ∈ post, j.path ≠ some name

/-- The name of the attribute that makes a CHOICE tagged. -/
def choiceAttr : TagKind → String
  | .explicit => "tagged_explicit"
  | .implicit => "tagged_implicit"

/-- The last of the attributes `tagged_explicit` and `tagged_implicit` is the one for `k`. -/
def LastTagged (attrs : List (Attr E)) (k : TagKind) : Prop :=
  ∃ pre a post, attrs = pre ++ a :: post ∧ a.path = some (choiceAttr k) ∧
    ∀ b ∈ post, ∀ k', b.path ≠ some (choiceAttr k')

/-- The tag number given to a variant of a CHOICE by its first `tag` attribute, if it has one. -/
def TagGiven (attrs : List (Attr E)) (g : Option Nat) : Prop :=
  (g = none ∧ ∀ a ∈ attrs, a.path ≠ some "tag") ∨
  ∃ pre a post n, attrs = pre ++ a :: post ∧ a.path = some "tag" ∧ (∀ b ∈ pre, b.path ≠ some "tag") ∧
    a.toks = some [.int n] ∧ n < 2 ^ 32 ∧ g = some n

/-- The same for all variants. -/
inductive TagsGiven : List (List (Attr E)) → List (Option Nat) → Prop
  | nil : TagsGiven [] []
  | cons {attrs g variants gs} (h : TagGiven attrs g) (ht : TagsGiven variants gs) :
      TagsGiven (attrs :: variants) (g :: gs)

end Asn1.Spec

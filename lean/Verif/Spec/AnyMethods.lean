import Verif.Model.AnyMethods
import Verif.Spec.Built
/-!
# What the methods of `Any` are about
-/
namespace Asn1.Spec
open Asn1

/-- The types with a conversion method on `Any` (`any.u8()` and `any.as_u8()`, and so on), with the
tag number of the type. -/
inductive Convertible : {α : Type} → Parser α → Nat → Prop
  | universal {α : Type} {c : Codec α} (h : UniversalType c) : Convertible c.ber c.tag
  | boolean : Convertible booleanBer 1
  | real (lib : FloatLib) : Convertible (realP lib) 9
  | sequence : Convertible (rawP 16) 16
  | set : Convertible (rawP 17) 17
  | anySequence : Convertible (anySeqP 16 anyBer.parseBer) 16
  | endOfContent : Convertible endOfContentBer 0
  | embeddedPdv : Convertible pdvP 11

/-- The types whose content is not made of further typed objects: the universal types, REAL, raw SEQUENCE and
SET, and end-of-contents. -/
inductive Leaf : {α : Type} → Parser α → Prop
  | universal {α : Type} {c : Codec α} (h : UniversalType c) : Leaf c.ber
  | boolean : Leaf booleanBer
  | real (lib : FloatLib) : Leaf (realP lib)
  | f64 (lib : FloatLib) : Leaf (f64P lib)
  | f32 (lib : FloatLib) : Leaf (f32P lib)
  | sequence : Leaf (rawP 16)
  | set : Leaf (rawP 17)
  | endOfContent : Leaf endOfContentBer

/-- The object with another tag number. -/
def retag (a : Any) (tag : Nat) : Any := ⟨{ a.header with tag := tag }, a.data⟩

/-- An object with this context-specific tag number. -/
def Context (n : Nat) (a : Any) : Prop := a.header.cls = .contextSpecific ∧ a.header.tag = n

/-- A primitive object with this context-specific tag number holding an OBJECT IDENTIFIER with the
octets `bs`. -/
def ContextOid (n : Nat) (a : Any) (bs : Bytes) : Prop :=
  Context n a ∧ a.header.constructed = false ∧ a.data.data = bs ∧ bs ≠ []

/-- What EMBEDDED PDV is read from: the content starts with an object `[0]`, whose content starts
with two OBJECT IDENTIFIERs `[0]` and `[1]`; then comes, or not, an ASCII text `[1]`
of definite length; then the data
value, a primitive object `[2]`. -/
def PdvRead (i r : Input) (v : EmbeddedPdv) : Prop :=
  ∃ r0 a0 o0 r0' o1 r1' r1 a2 x y,
    parseBerAny i = .ok (r0, a0) ∧ Context 0 a0 ∧
    parseBerAny a0.data = .ok (r0', o0) ∧ ContextOid 0 o0 x ∧
    parseBerAny r0' = .ok (r1', o1) ∧ ContextOid 1 o1 y ∧
    v.identification = .syntaxes ⟨x, false⟩ ⟨y, false⟩ ∧
    ((v.dataValueDescriptor = none ∧ r1 = r0) ∨
      ∃ a1 s, v.dataValueDescriptor = some s ∧ parseBerAny r0 = .ok (r1, a1) ∧ Context 1 a1 ∧
        a1.header.length ≠ .indefinite ∧
        StringBytes a1.header.constructed a1.data.data (Text.utf8 s) ∧
        ∀ c ∈ s, asciiChar c = true) ∧
    parseBerAny r1 = .ok (r, a2) ∧ Context 2 a2 ∧ a2.header.constructed = false ∧
    v.dataValue = a2.data.data

/-- The content of an object of indefinite length, for objects nested at most `n + 1` deep. -/
def IndefiniteContent (n : Nat) (i r data : Input) : Prop :=
  ∃ items eoc, Items LaxEoc (Elem LaxEoc n) items eoc ∧ i.data = items.flatten ++ eoc ++ r.data ∧
    r = after i (items.flatten.length + eoc.length) ∧
    data = first i (items.flatten.length + eoc.length - 2)

/-- The components of EMBEDDED PDV in X.680 36.5, with automatic tags: as `identification` is a CHOICE its
tag `[0]` is explicit (X.680 31.2.7), so the object `[0]` holds one object, the alternative. -/
def ExplicitIdentification (i : Input) : Prop :=
  ∃ r a e o, parseBerAny i = .ok (r, a) ∧ Context 0 a ∧ parseBerAny a.data = .ok (e, o) ∧ e.data = []

end Asn1.Spec

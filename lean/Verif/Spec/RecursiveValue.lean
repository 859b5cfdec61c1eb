import Verif.Spec.Recursive
import Verif.Spec.BuiltValue
/-!
# Encoders of types that contain themselves

As the parsers (`Spec/Recursive`), the encoder of such a type is a `t` with `t = E t`.
-/
namespace Asn1.Spec
open Asn1
variable {ρ : Type}

/-- Two encoders do the same with `v`. -/
def SameAt (v : ρ) (t t' : ToBer ρ) : Prop :=
  t.encoder = t'.encoder ∧ t.contentLen v = t'.contentLen v ∧ t.tagInfo v = t'.tagInfo v ∧
    t.writeContent v = t'.writeContent v

/-- What the text of an encoder does with a value depends on what the encoder does with smaller values only. -/
def Descends (size : ρ → Nat) (E : ToBer ρ → ToBer ρ) : Prop :=
  (∀ t t', (E t).encoder = (E t').encoder) ∧
  ∀ t t' v, (∀ u, size u < size v → SameAt u t t') → SameAt v (E t) (E t')

/-- `#[derive(BerParserSequence, DerParserSequence, ToBerSequence, ToDerSequence)]
struct Twig { label: u32, twigs: Vec<Twig> }`. -/
inductive Twig where
  | mk (label : Nat) (twigs : List Twig)

/-- The fields. -/
def Twig.fields : Twig → Tup [Nat, List Twig]
  | .mk l ts => (l, ts, ())

/-- All labels are values of `u32`. -/
inductive Twig.Valid : Twig → Prop
  | mk {l : Nat} {ts : List Twig} (hl : l < 2 ^ 32) (ht : ∀ t ∈ ts, Valid t) : Valid (.mk l ts)

/-- The text of the parsers. -/
def twigF (m : Rules) (p : Parser Twig) : Parser Twig :=
  (structP m 16 (.cons (.required .untagged (match m with | .ber => (uintC 4).ber | .der => (uintC 4).der))
    (.cons (.required .untagged (match m with | .ber => vecBer p | .der => vecDer p)) .nil))).map
      fun v => .mk v.1 v.2.1

/-- The text of the encoder. -/
def twigE (t : ToBer Twig) : ToBer Twig :=
  named (structToBer 16 (.cons .untagged (uintToBer 4) (.cons .untagged (listToBer 16 t) .nil))) Twig.fields

/-- `#[derive(BerParserChoice, DerParserChoice, ToBerChoice, ToDerChoice)] #[tagged_implicit]
enum Query { #[tag(0)] All(Vec<Query>), #[tag(1)] Some(Vec<Query>), #[tag(7)] Present(OctetString) }`: as the filters of
LDAP, with lists in the place of sets (a `SetOf` does not come back from such a CHOICE, see C105). -/
inductive Query where
  | all (qs : List Query)
  | some (qs : List Query)
  | present (name : Bytes)

/-- The variant and its payload. -/
def Query.variant : Query → HSum [List Query, List Query, Bytes]
  | .all qs => .inl qs
  | .some qs => .inr (.inl qs)
  | .present b => .inr (.inr (.inl b))

/-- The value with this variant and payload. -/
def Query.ofVariant : HSum [List Query, List Query, Bytes] → Query
  | .inl qs => .all qs
  | .inr (.inl qs) => .some qs
  | .inr (.inr (.inl b)) => .present b

/-- The text of the parsers. -/
def queryF (m : Rules) (p : Parser Query) : Parser Query :=
  (choiceP m .implicit
    (.cons 0 (match m with | .ber => vecBer p | .der => vecDer p)
    (.cons 1 (match m with | .ber => vecBer p | .der => vecDer p)
    (.cons 7 (match m with | .ber => octetC.ber | .der => octetC.der) .nil)))).map Query.ofVariant

/-- The text of the encoder. -/
def queryE (t : ToBer Query) : ToBer Query :=
  named (choiceToBer .implicit
    (.cons 0 (fun _ => (.universal, true, 16)) (listToBer 16 t)
    (.cons 1 (fun _ => (.universal, true, 16)) (listToBer 16 t)
    (.cons 7 (fun _ => (.universal, false, 4)) octetC.enc .nil)))) Query.variant

end Asn1.Spec

import Verif.Model.Messages
/-!
# What a text says

Written without the functions that make texts.
-/
namespace Asn1.Spec

/-- The text is a number in decimal: digits only, at least one, with this value. -/
def Number (n : Nat) (t : Text) : Prop :=
  t ≠ [] ∧ (∀ c ∈ t, '0' ≤ c ∧ c ≤ '9') ∧ t.foldl (fun a c => 10 * a + (c.toNat - '0'.toNat)) 0 = n

/-- `words` occurs in the text `t`. -/
def Mentions (t words : Text) : Prop := ∃ before after, t = before ++ words ++ after

/-- Different values have different texts. -/
def TellsApart {α β : Type} (f : α → β) : Prop := ∀ a b, f a = f b → a = b

/-- The texts of the libraries tell values apart: kinds of nom errors by their names, strings by their
quoted forms. -/
structure Distinct (lib : TextLib) : Prop where
  kind : TellsApart lib.kind
  quote : TellsApart lib.quote

end Asn1.Spec

import Verif.Spec.SelfSlice
/-!
# Types that contain each other: the byte-slice API
-/
namespace Asn1.Spec
open Asn1

/-- The text of `TryFrom<Any>` of a type in which the types `ρ` and `σ` occur, each time within another object: whatever
function is put for one of them, it is a text in which the other one occurs. -/
def TwoFrom (safe : Bool) (ρ σ : Type) {α : Type}
    (F : (Any → Except SErr ρ) → (Any → Except SErr σ) → Any → Except SErr α) : Prop :=
  (∀ q, (safe = true → ∀ a, NoPanicS (q a)) → SelfFrom safe ρ true fun p => F p q) ∧
  (∀ p, (safe = true → ∀ a, NoPanicS (p a)) → SelfFrom safe σ true (F p))

/-- The text of `FromDer` of such a type. It consumes something of what it accepts, as every derived `FromDer` does. -/
def TwoFromDer (safe : Bool) (ρ σ : Type) {α : Type}
    (D : (Bytes → Except SErr (Bytes × ρ)) → (Bytes → Except SErr (Bytes × σ)) → Bytes → Except SErr (Bytes × α)) : Prop :=
  (∀ p q b r v, D p q b = .ok (r, v) → r.length < b.length) ∧
  (∀ q, (∀ b r v, q b = .ok (r, v) → r.length < b.length) → (safe = true → ∀ b, NoPanicS (q b)) →
    SelfFromDer safe ρ true fun p => D p q) ∧
  (∀ p, (∀ b r v, p b = .ok (r, v) → r.length < b.length) → (safe = true → ∀ b, NoPanicS (p b)) →
    SelfFromDer safe σ true (D p))

/-- Two functions defined by `F` and `G` in terms of each other, `n` calls one within the other, with `b` and `c` in the
place of the next ones. -/
def twoCalls {φ ψ : Type} (F : φ → ψ → φ) (G : φ → ψ → ψ) (b : φ) (c : ψ) : Nat → φ × ψ
  | 0 => (b, c)
  | n + 1 => (F (twoCalls F G b c n).1 (twoCalls F G b c n).2, G (twoCalls F G b c n).1 (twoCalls F G b c n).2)

end Asn1.Spec

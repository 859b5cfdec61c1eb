import Verif.Spec.Built
/-!
# Types that contain themselves

`struct Branch { label: u32, children: Vec<Branch> }`, or a CHOICE one variant of which is a set of the CHOICE. The
derived `from_ber_content` of such a type calls the one of its components, which calls it again: it is a function
`p` that satisfies an equation `p = F p`, where `F` is the text of the type with `p` in the place of the type
itself. `SelfType real g Fb Fd`: `Fb` and `Fd` are such texts, for `BerParser` and for `DerParser`. `g` says
whether every occurrence of the type in itself is within another object; `ρ` is the type.
-/
namespace Asn1.Spec
open Asn1

mutual

/-- The text of a type in which the type `ρ` occurs. -/
inductive SelfType (real : Bool) (ρ : Type) : Bool → {α : Type} → (Parser ρ → Parser α) →
    (Parser ρ → Parser α) → Prop
  /-- The type itself. -/
  | self : SelfType real ρ false (fun p => p) (fun p => p)
  /-- A type in which it does not occur. -/
  | built {α : Type} {pb pd : Parser α} (h : Built real pb pd) : SelfType real ρ true (fun _ => pb) (fun _ => pd)
  /-- To know more than needed. -/
  | weaken {α : Type} {fb fd : Parser ρ → Parser α} (h : SelfType real ρ true fb fd) :
      SelfType real ρ false fb fd
  /-- The name given to what was read: the constructor of a struct or an enum. -/
  | named {g : Bool} {α β : Type} {fb fd : Parser ρ → Parser α} (f : α → β) (h : SelfType real ρ g fb fd) :
      SelfType real ρ g (fun p => (fb p).map f) (fun p => (fd p).map f)
  | vec {g : Bool} {α : Type} {fb fd : Parser ρ → Parser α} (h : SelfType real ρ g fb fd) :
      SelfType real ρ true (fun p => vecBer (fb p)) (fun p => vecDer (fd p))
  | sequenceOf {g : Bool} {α : Type} {fb fd : Parser ρ → Parser α} (h : SelfType real ρ g fb fd) :
      SelfType real ρ true (fun p => sequenceOfP anyBer.parseBer (fb p))
        (fun p => sequenceOfP anyDer.parseDer (fd p))
  | setOf {g : Bool} {α : Type} {fb fd : Parser ρ → Parser α} (h : SelfType real ρ g fb fd) :
      SelfType real ρ true (fun p => setOfP anyBer.parseBer (fb p)) (fun p => setOfP anyDer.parseDer (fd p))
  | set {g : Bool} {α σ : Type} {fb fd : Parser ρ → Parser α} (S : SetImpl α σ) (h : SelfType real ρ g fb fd) :
      SelfType real ρ true (fun p => setP S anyBer.parseBer (fb p)) (fun p => setP S anyDer.parseDer (fd p))
  | array {g : Bool} {α : Type} {fb fd : Parser ρ → Parser α} (N : Nat) (h : SelfType real ρ g fb fd) :
      SelfType real ρ true (fun p => arrayP N anyBer.parseBer (fb p)) (fun p => arrayP N anyDer.parseDer (fd p))
  | tuple {Ts : List Type} {fb fd : Parser ρ → TupFns Ts} (h : SelfTuple real ρ fb fd) :
      SelfType real ρ true (fun p => tupleP (fb p)) (fun p => tupleP (fd p))
  | explicit {g : Bool} {α : Type} {fb fd : Parser ρ → Parser α} (cls : Class) (tag : Nat)
      (h : SelfType real ρ g fb fd) :
      SelfType real ρ true (fun p => explicitP cls tag (fb p).parseBer)
        (fun p => explicitP cls tag (fd p).parseDer)
  | implicit {g : Bool} {α : Type} {fb fd : Parser ρ → Parser α} (cls : Class) (tag : Nat)
      (h : SelfType real ρ g fb fd) :
      SelfType real ρ g (fun p => implicitP cls tag (fb p)) (fun p => implicitP cls tag (fd p))
  | struct {Ts : List Type} {fb fd : Parser ρ → Fields Ts} (tag : Nat) (h : SelfFields real ρ fb fd) :
      SelfType real ρ true (fun p => structP .ber tag (fb p)) (fun p => structP .der tag (fd p))
  | choice {g : Bool} {Ts : List Type} {vb vd : Parser ρ → Variants Ts} (k : ChoiceKind)
      (h : SelfVariants real ρ g vb vd) :
      SelfType real ρ (g || k == .explicit) (fun p => choiceP .ber k (vb p)) (fun p => choiceP .der k (vd p))
  | alias {g : Bool} {α : Type} {fb fd : Parser ρ → Parser α} (h : SelfType real ρ g fb fd) :
      SelfType real ρ g (fun p => aliasP (fb p)) (fun p => aliasP (fd p))

/-- The components of a tuple. -/
inductive SelfTuple (real : Bool) (ρ : Type) : {Ts : List Type} → (Parser ρ → TupFns Ts) →
    (Parser ρ → TupFns Ts) → Prop
  | nil : SelfTuple real ρ (fun _ => .nil) (fun _ => .nil)
  | cons {g : Bool} {T : Type} {Ts : List Type} {fb fd : Parser ρ → Parser T} {gb gd : Parser ρ → TupFns Ts}
      (h : SelfType real ρ g fb fd) (ht : SelfTuple real ρ gb gd) :
      SelfTuple real ρ (fun p => .cons (fb p).parseBer (gb p)) (fun p => .cons (fd p).parseDer (gd p))

/-- The fields of a struct. -/
inductive SelfFields (real : Bool) (ρ : Type) : {Ts : List Type} → (Parser ρ → Fields Ts) →
    (Parser ρ → Fields Ts) → Prop
  | nil : SelfFields real ρ (fun _ => .nil) (fun _ => .nil)
  | required {g : Bool} {T : Type} {Ts : List Type} {fb fd : Parser ρ → Parser T} {gb gd : Parser ρ → Fields Ts}
      (tag : FieldTag) (h : SelfType real ρ g fb fd) (ht : SelfFields real ρ gb gd) :
      SelfFields real ρ (fun p => .cons (.required tag (fb p)) (gb p)) (fun p => .cons (.required tag (fd p)) (gd p))
  | optional {g : Bool} {T : Type} {Ts : List Type} {fb fd : Parser ρ → Parser T} {gb gd : Parser ρ → Fields Ts}
      (tag : FieldTag) (h : SelfType real ρ g fb fd) (ht : SelfFields real ρ gb gd) :
      SelfFields real ρ (fun p => .cons (.optional tag (fb p)) (gb p)) (fun p => .cons (.optional tag (fd p)) (gd p))
  | default {g : Bool} {T : Type} {Ts : List Type} {fb fd : Parser ρ → Parser T} {gb gd : Parser ρ → Fields Ts}
      (tag : FieldTag) (x : T) (h : SelfType real ρ g fb fd) (ht : SelfFields real ρ gb gd) :
      SelfFields real ρ (fun p => .cons (.default tag (fb p) x) (gb p))
        (fun p => .cons (.default tag (fd p) x) (gd p))

/-- The variants of a CHOICE. -/
inductive SelfVariants (real : Bool) (ρ : Type) : Bool → {Ts : List Type} → (Parser ρ → Variants Ts) →
    (Parser ρ → Variants Ts) → Prop
  | nil {g : Bool} : SelfVariants real ρ g (fun _ => .nil) (fun _ => .nil)
  | cons {g : Bool} {T : Type} {Ts : List Type} {fb fd : Parser ρ → Parser T} {gb gd : Parser ρ → Variants Ts}
      (tag : Nat) (h : SelfType real ρ g fb fd) (ht : SelfVariants real ρ g gb gd) :
      SelfVariants real ρ g (fun p => .cons tag (fb p) (gb p)) (fun p => .cons tag (fd p) (gd p))

end

/-- The parser that makes `n` calls of itself, one within the other, and at the next one is `base`. -/
def selfCalls {α : Type} (F : Parser α → Parser α) (base : Parser α) : Nat → Parser α
  | 0 => base
  | n + 1 => F (selfCalls F base n)

end Asn1.Spec

import Verif.Spec.Built
import Verif.Spec.Derive
import Verif.Spec.Bits
/-!
# The values of the types a user can build from the crate

`Value retag t pb pd v w`: `v` is a value of a type built from the universal types with the type constructors
of the crate, nested in any way; `t`, `pb` and `pd` are its encoder, its BER parser and its DER parser. `w` is
the same value as the decoders represent it (the `SequenceOf` with these items, the set with these members).
`retag`: whether the type may be given an IMPLICIT tag, which is not so for a tagged type nor for a CHOICE
(see C29 for what happens to them).
Bit strings may have anything in their unused bits: `parse_ber` and `parse_der` keep them.

The conditions are those under which encoding works: every part has fewer than `2^24` content bytes (C18),
tag numbers fit 32 bits, the variant of a CHOICE is the first with its tag (C55), and the struct has no
IMPLICIT field as in C54 and no field of type `Option` (C78). Tuples cannot be encoded.
-/
namespace Asn1.Spec
open Asn1

/-- The encoder of a named type: a struct or an enum, or a type that contains itself, written as the value that its
constructor `f` is applied to (`un`). -/
def named {α α' : Type} (t : ToBer α) (un : α' → α) : ToBer α' where
  encoder := t.encoder
  contentLen x := t.contentLen (un x)
  tagInfo x := t.tagInfo (un x)
  writeContent x := t.writeContent (un x)

mutual

/-- A value of a built type. -/
inductive Value : Bool → {α β : Type} → ToBer α → Parser β → Parser β → α → β → Prop
  | universal {α : Type} {c : Codec α} {v : α} (h : UniversalValue c v) (hs : SmallContent c.enc v) :
      Value true c.enc c.ber c.der v v
  | bits {v : BitString} (hv : v.WF) (hs : SmallContent bitToBer v) : Value true bitToBer bitBer bitDer v v
  | vec {α β : Type} {t : ToBer α} {pb pd : Parser β} {vs ws} (h : Values t pb pd vs ws)
      (hs : SmallContent (listToBer 16 t) vs) : Value true (listToBer 16 t) (vecBer pb) (vecDer pd) vs ws
  | sequenceOf {α β : Type} {t : ToBer α} {pb pd : Parser β} {vs ws} (h : Values t pb pd vs ws)
      (hs : SmallContent (listToBer 16 t) vs) :
      Value true (listToBer 16 t) (sequenceOfP anyBer.parseBer pb) (sequenceOfP anyDer.parseDer pd) vs
        (SequenceOf.mk ws)
  | setOf {α β : Type} {t : ToBer α} {pb pd : Parser β} {vs ws} (h : Values t pb pd vs ws)
      (hs : SmallContent (listToBer 17 t) vs) :
      Value true (listToBer 17 t) (setOfP anyBer.parseBer pb) (setOfP anyDer.parseDer pd) vs (SetOf.mk ws)
  | set {α β σ τ : Type} {t : ToBer α} {pb pd : Parser β} (S : SetImpl α σ) (S' : SetImpl β τ) {s : σ} {ws}
      (h : Values t pb pd (S.toList s) ws) (hs : SmallContent (setToBer S t) s) :
      Value true (setToBer S t) (setP S' anyBer.parseBer pb) (setP S' anyDer.parseDer pd) s (S'.ofList ws)
  | array {α β : Type} {t : ToBer α} {pb pd : Parser β} (N : Nat) {v : Arr α N} {w : Arr β N}
      (h : Values t pb pd v.val w.val) (hs : SmallContent (arrayToBer N t) v) :
      Value true (arrayToBer N t) (arrayP N anyBer.parseBer pb) (arrayP N anyDer.parseDer pd) v w
  | raw (tag : Nat) (htag : tag < 2 ^ 32) {s : RawSeq} (hs : SmallContent (rawToBer tag) s) :
      Value true (rawToBer tag) (rawP tag) (rawP tag) s ⟨s.content, false⟩
  | explicit {r : Bool} {α β : Type} {t : ToBer α} {pb pd : Parser β} {v w} (cls : Class) (tag : Nat)
      (htag : tag < 2 ^ 32) {dynTag : α → Nat} (hdyn : dynTag v = (t.tagInfo v).2.2)
      (h : Value r t pb pd v w) (hs : SmallContent (explicitToBer cls tag dynTag t) ⟨v⟩) :
      Value false (explicitToBer cls tag dynTag t) (explicitP cls tag pb.parseBer)
        (explicitP cls tag pd.parseDer) ⟨v⟩ ⟨w⟩
  | implicit {α β : Type} {t : ToBer α} {pb pd : Parser β} {v w} (cls : Class) (tag : Nat)
      (htag : tag < 2 ^ 32) {dynConstructed : α → Bool} (hdyn : dynConstructed v = (t.tagInfo v).2.1)
      (h : Value true t pb pd v w) :
      Value false (implicitToBer cls tag dynConstructed t) (implicitP cls tag pb) (implicitP cls tag pd)
        ⟨v⟩ ⟨w⟩
  | struct {Ts Us : List Type} {es : EncFields Ts} {fb fd : Fields Us} {vs ws} (tag : Nat) (htag : tag < 2 ^ 32)
      (h : FieldValues es fb fd vs ws) (h0 : overcount es vs = 0) (hs : SmallContent (structToBer tag es) vs) :
      Value true (structToBer tag es) (structP .ber tag fb) (structP .der tag fd) vs ws
  | choice {Ts Us : List Type} {es : EncVariants Ts} {vb vd : Variants Us} {x y g} (k : ChoiceKind)
      (h : VariantValue k es vb vd x y g) (hs : SmallContent (choiceToBer k es) x) :
      Value false (choiceToBer k es) (choiceP .ber k vb) (choiceP .der k vd) x y
  | enum (ds : List Nat) (hn : ds.Nodup) (hds : ∀ d ∈ ds, d < 2 ^ 32) (k : Fin ds.length) :
      Value true (enumToBer ds) (enumP enumeratedBer ds) (enumP enumeratedDer ds) k k
  | alias {r : Bool} {α β : Type} {t : ToBer α} {pb pd : Parser β} {v w} (h : Value r t pb pd v w) :
      Value r (aliasToBer t) (aliasP pb) (aliasP pd) ⟨v⟩ ⟨w⟩
  | named {r : Bool} {α β α' β' : Type} {t : ToBer α} {pb pd : Parser β} {w} (un : α' → α) (f : β → β') (x : α')
      (h : Value r t pb pd (un x) w) : Value r (named t un) (pb.map f) (pd.map f) x (f w)

/-- A list of values. -/
inductive Values : {α β : Type} → ToBer α → Parser β → Parser β → List α → List β → Prop
  | nil {α β : Type} {t : ToBer α} {pb pd : Parser β} : Values t pb pd [] []
  | cons {r : Bool} {α β : Type} {t : ToBer α} {pb pd : Parser β} {v w vs ws} (h : Value r t pb pd v w)
      (ht : Values t pb pd vs ws) : Values t pb pd (v :: vs) (w :: ws)

/-- The values of the fields of a struct. The announced length of a tagged field is below `2^24`. -/
inductive FieldValues :
    {Ts Us : List Type} → EncFields Ts → Fields Us → Fields Us → Tup Ts → Tup Us → Prop
  | nil : FieldValues .nil .nil .nil () ()
  | required {r : Bool} {T U : Type} {Ts Us : List Type} {t : ToBer T} {pb pd : Parser U} {v w}
      {es : EncFields Ts} {fb fd : Fields Us} {vs ws} (tag : FieldTag) (hv : FieldTag.Valid tag)
      (h : Value r t pb pd v w) (hr : (∃ cls n, tag = .implicit cls n) → r = true)
      (hs : tag ≠ .untagged → ∀ n, t.totalLen v = .definite n → n < 2 ^ 24)
      (ht : FieldValues es fb fd vs ws) :
      FieldValues (.cons tag t es) (.cons (.required tag pb) fb) (.cons (.required tag pd) fd) (v, vs) (w, ws)
  | default {r : Bool} {T U : Type} {Ts Us : List Type} {t : ToBer T} {pb pd : Parser U} {v w}
      {es : EncFields Ts} {fb fd : Fields Us} {vs ws} (tag : FieldTag) (x : U) (hv : FieldTag.Valid tag)
      (h : Value r t pb pd v w) (hr : (∃ cls n, tag = .implicit cls n) → r = true)
      (hs : tag ≠ .untagged → ∀ n, t.totalLen v = .definite n → n < 2 ^ 24)
      (ht : FieldValues es fb fd vs ws) :
      FieldValues (.cons tag t es) (.cons (.default tag pb x) fb) (.cons (.default tag pd x) fd) (v, vs)
        (w, ws)

/-- A variant of a CHOICE with its payload; `g` is the tag number of the object. No earlier variant is
selected by it. -/
inductive VariantValue :
    ChoiceKind → {Ts Us : List Type} → EncVariants Ts → Variants Us → Variants Us → HSum Ts → HSum Us → Nat → Prop
  | here {k : ChoiceKind} {r : Bool} {T U : Type} {Ts Us : List Type} {t : ToBer T} {pb pd : Parser U} {v : T}
      {w : U} {es : EncVariants Ts} {vb vd : Variants Us} {n : Nat} (hn : n < 2 ^ 32)
      {dyn : T → Class × Bool × Nat} (hdyn : dyn v = t.tagInfo v) (h : Value r t pb pd v w)
      (hr : k = .implicit → r = true) :
      VariantValue k (.cons n dyn t es) (.cons n pb vb) (.cons n pd vd) (.inl v : T ⊕ HSum Ts)
        (.inl w : U ⊕ HSum Us) (if k = .untagged then (t.tagInfo v).2.2 else n)
  | there {k : ChoiceKind} {T U : Type} {Ts Us : List Type} {t : ToBer T} {pb pd : Parser U}
      {es : EncVariants Ts} {vb vd : Variants Us} {x : HSum Ts} {y : HSum Us} {n g : Nat}
      {dyn : T → Class × Bool × Nat} (hb : ¬ Selects k n pb g) (hd : ¬ Selects k n pd g)
      (h : VariantValue k es vb vd x y g) :
      VariantValue k (.cons n dyn t es) (.cons n pb vb) (.cons n pd vd) (.inr x : T ⊕ HSum Ts)
        (.inr y : U ⊕ HSum Us) g

end

end Asn1.Spec

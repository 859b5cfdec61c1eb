import Verif.Spec.BuiltValue
/-!
# Types that can be decoded and encoded

`TwoWay m retag t pb pd rep Ok`: a type built from the universal types with the type constructors of the crate,
nested in any way, that has an encoder `t` and the parsers `pb` (BER) and `pd` (DER). `rep` gives a decoded
value to the encoder (the items of a decoded `SequenceOf`, say). `Ok w` are the conditions on a value that was
decoded with the rules `m`, and on each of its parts: fewer than `2^24` content bytes (C18), no struct with an
IMPLICIT field as in C54. For the types listed in `Restorable` this is all. For the other universal types the
value must be one of those that come back when they are encoded (`UniversalValue`), which is not so of every
decoded one: a time with an offset, the empty BMPString, a UniversalString that is not ASCII, an `Integer` with
redundant bytes read with BER rules.
-/
namespace Asn1.Spec
open Asn1

/-- The parser for the rules `m`. -/
def _root_.Asn1.Rules.pick {α : Type} (m : Rules) (pb pd : Parser α) : Parser α :=
  match m with
  | .ber => pb
  | .der => pd

/-- The universal types any decoded value of which can be encoded; `Integer` and BMPString if decoded with DER
rules. -/
inductive Restorable (m : Rules) : {α : Type} → Codec α → Prop
  | uint (N : Nat) (hN : 1 ≤ N ∧ N ≤ 16) : Restorable m (uintC N)
  | int (N : Nat) (hN : 1 ≤ N ∧ N ≤ 16) : Restorable m (intC N)
  | integer (hm : m = .der) : Restorable m integerC
  | bool : Restorable m boolC
  | null : Restorable m nullC
  | enumerated : Restorable m enumC
  | octetString : Restorable m octetC
  | bitString : Restorable m bitC
  | oid : Restorable m oidC
  | text {k : StrKind} {tag : Nat} {A : Char → Bool} (hk : StringType k tag A) : Restorable m (strC k)
  | refStr : Restorable m refStrC
  | string : Restorable m stringC
  | bmpString (hm : m = .der) : Restorable m bmpC

mutual

/-- A type that can be decoded and encoded. -/
inductive TwoWay (m : Rules) : Bool → {α β : Type} → ToBer α → Parser β → Parser β → (β → α) → (β → Prop) → Prop
  | restorable {α : Type} {c : Codec α} (h : Restorable m c) :
      TwoWay m true c.enc c.ber c.der id (SmallContent c.enc)
  | universal {α : Type} {c : Codec α} (h : UniversalType c) :
      TwoWay m true c.enc c.ber c.der id fun v => UniversalValue c v ∧ SmallContent c.enc v
  | vec {r : Bool} {α β : Type} {t : ToBer α} {pb pd : Parser β} {rep Ok} (h : TwoWay m r t pb pd rep Ok) :
      TwoWay m true (listToBer 16 t) (vecBer pb) (vecDer pd) (List.map rep) fun ws =>
        (∀ w ∈ ws, Ok w) ∧ SmallContent (listToBer 16 t) (ws.map rep)
  | sequenceOf {r : Bool} {α β : Type} {t : ToBer α} {pb pd : Parser β} {rep Ok}
      (h : TwoWay m r t pb pd rep Ok) :
      TwoWay m true (listToBer 16 t) (sequenceOfP anyBer.parseBer pb) (sequenceOfP anyDer.parseDer pd)
        (fun s => s.items.map rep) fun s =>
        (∀ w ∈ s.items, Ok w) ∧ SmallContent (listToBer 16 t) (s.items.map rep)
  | setOf {r : Bool} {α β : Type} {t : ToBer α} {pb pd : Parser β} {rep Ok} (h : TwoWay m r t pb pd rep Ok) :
      TwoWay m true (listToBer 17 t) (setOfP anyBer.parseBer pb) (setOfP anyDer.parseDer pd)
        (fun s => s.items.map rep) fun s =>
        (∀ w ∈ s.items, Ok w) ∧ SmallContent (listToBer 17 t) (s.items.map rep)
  /-- A set of values that the encoder takes as they are; putting the members of a set one by one into a new set
  gives the same set (as for `BTreeSet`). -/
  | set {r : Bool} {α σ : Type} {t : ToBer α} {pb pd : Parser α} {Ok} (S : SetImpl α σ)
      (hS : ∀ l, S.ofList (S.toList (S.ofList l)) = S.ofList l) (h : TwoWay m r t pb pd id Ok) :
      TwoWay m true (setToBer S t) (setP S anyBer.parseBer pb) (setP S anyDer.parseDer pd) id fun s =>
        (∀ w ∈ S.toList s, Ok w) ∧ SmallContent (setToBer S t) s
  | array {r : Bool} {α β : Type} {t : ToBer α} {pb pd : Parser β} {rep Ok} (N : Nat)
      (h : TwoWay m r t pb pd rep Ok) :
      TwoWay m true (arrayToBer N t) (arrayP N anyBer.parseBer pb) (arrayP N anyDer.parseDer pd)
        (fun w => ⟨w.val.map rep, by rw [List.length_map, w.property]⟩) fun w =>
        (∀ x ∈ w.val, Ok x) ∧ SmallContent (arrayToBer N t) ⟨w.val.map rep, by rw [List.length_map, w.property]⟩
  | raw (tag : Nat) (htag : tag < 2 ^ 32) :
      TwoWay m true (rawToBer tag) (rawP tag) (rawP tag) id (SmallContent (rawToBer tag))
  | explicit {r : Bool} {α β : Type} {t : ToBer α} {pb pd : Parser β} {rep Ok} (cls : Class) (tag : Nat)
      (htag : tag < 2 ^ 32) {dynTag : α → Nat} (hdyn : ∀ v, dynTag v = (t.tagInfo v).2.2)
      (h : TwoWay m r t pb pd rep Ok) :
      TwoWay m false (explicitToBer cls tag dynTag t) (explicitP cls tag pb.parseBer)
        (explicitP cls tag pd.parseDer) (fun w => ⟨rep w.inner⟩) fun w =>
        Ok w.inner ∧ SmallContent (explicitToBer cls tag dynTag t) ⟨rep w.inner⟩
  | implicit {α β : Type} {t : ToBer α} {pb pd : Parser β} {rep Ok} (cls : Class) (tag : Nat)
      (htag : tag < 2 ^ 32) {dynC : α → Bool} (hdyn : ∀ v, dynC v = (t.tagInfo v).2.1)
      (h : TwoWay m true t pb pd rep Ok) :
      TwoWay m false (implicitToBer cls tag dynC t) (implicitP cls tag pb) (implicitP cls tag pd)
        (fun w => ⟨rep w.inner⟩) fun w => Ok w.inner
  | struct {Ts Us : List Type} {es : EncFields Ts} {fb fd : Fields Us} {rep Ok} (tag : Nat) (htag : tag < 2 ^ 32)
      (h : TwoWayFields m es fb fd rep Ok) :
      TwoWay m true (structToBer tag es) (structP .ber tag fb) (structP .der tag fd) rep fun ws =>
        Ok ws ∧ overcount es (rep ws) = 0 ∧ SmallContent (structToBer tag es) (rep ws)
  | choice {Ts Us : List Type} {es : EncVariants Ts} {vb vd : Variants Us} {rep Ok} (k : ChoiceKind)
      (h : TwoWayVariants m k es vb vd rep Ok) :
      TwoWay m false (choiceToBer k es) (choiceP .ber k vb) (choiceP .der k vd) rep fun y =>
        Ok y ∧ SmallContent (choiceToBer k es) (rep y)
  | enum (ds : List Nat) (hn : ds.Nodup) (hds : ∀ d ∈ ds, d < 2 ^ 32) :
      TwoWay m true (enumToBer ds) (enumP enumeratedBer ds) (enumP enumeratedDer ds) id fun _ => True
  | alias {r : Bool} {α β : Type} {t : ToBer α} {pb pd : Parser β} {rep Ok} (h : TwoWay m r t pb pd rep Ok) :
      TwoWay m r (aliasToBer t) (aliasP pb) (aliasP pd) (fun w => ⟨rep w.inner⟩) fun w => Ok w.inner

/-- The fields of a struct, required or with a default, none of type `Option` (C78). A default is a value that
can be encoded. The announced length of a tagged field is below `2^24`. -/
inductive TwoWayFields (m : Rules) :
    {Ts Us : List Type} → EncFields Ts → Fields Us → Fields Us → (Tup Us → Tup Ts) → (Tup Us → Prop) → Prop
  | nil : TwoWayFields m .nil .nil .nil (fun _ => ()) fun _ => True
  | required {r : Bool} {T U : Type} {Ts Us : List Type} {t : ToBer T} {pb pd : Parser U} {rep Ok}
      {es : EncFields Ts} {fb fd : Fields Us} {reps Oks} (tag : FieldTag) (hv : FieldTag.Valid tag)
      (h : TwoWay m r t pb pd rep Ok) (hr : (∃ cls n, tag = .implicit cls n) → r = true)
      (ht : TwoWayFields m es fb fd reps Oks) :
      TwoWayFields m (.cons tag t es) (.cons (.required tag pb) fb) (.cons (.required tag pd) fd)
        (fun w => (rep w.1, reps w.2)) fun w => (Ok w.1 ∧ (tag ≠ .untagged →
          ∀ n, t.totalLen (rep w.1) = .definite n → n < 2 ^ 24)) ∧ Oks w.2
  | default {r : Bool} {T U : Type} {Ts Us : List Type} {t : ToBer T} {pb pd : Parser U} {rep Ok}
      {es : EncFields Ts} {fb fd : Fields Us} {reps Oks} (tag : FieldTag) (x : U) (hv : FieldTag.Valid tag)
      (h : TwoWay m r t pb pd rep Ok) (hr : (∃ cls n, tag = .implicit cls n) → r = true)
      (hx : Value r t pb pd (rep x) x) (ht : TwoWayFields m es fb fd reps Oks) :
      TwoWayFields m (.cons tag t es) (.cons (.default tag pb x) fb) (.cons (.default tag pd x) fd)
        (fun w => (rep w.1, reps w.2)) fun w => (Ok w.1 ∧ (tag ≠ .untagged →
          ∀ n, t.totalLen (rep w.1) = .definite n → n < 2 ^ 24)) ∧ Oks w.2

/-- The variants of a CHOICE. A type in an untagged CHOICE that takes the tag of an OID (6) also takes that of a
relative OID (13), since what was decoded under the latter is encoded under the former (C26). -/
inductive TwoWayVariants (m : Rules) : ChoiceKind → {Ts Us : List Type} → EncVariants Ts → Variants Us →
    Variants Us → (HSum Us → HSum Ts) → (HSum Us → Prop) → Prop
  | nil {k : ChoiceKind} {rep Ok} : TwoWayVariants m k .nil .nil .nil rep Ok
  | cons {k : ChoiceKind} {r : Bool} {T U : Type} {Ts Us : List Type} {t : ToBer T} {pb pd : Parser U} {rep Ok}
      {es : EncVariants Ts} {vb vd : Variants Us} {reps Oks} {n : Nat} (hn : n < 2 ^ 32)
      {dyn : T → Class × Bool × Nat} (hdyn : ∀ v, dyn v = t.tagInfo v) (h : TwoWay m r t pb pd rep Ok)
      (hr : k = .implicit → r = true)
      (ho : k = .untagged → pb.acceptTag 6 = true → pb.acceptTag 13 = true)
      (ht : TwoWayVariants m k es vb vd reps Oks) :
      TwoWayVariants m k (.cons n dyn t es) (.cons n pb vb) (.cons n pd vd)
        (Sum.map rep reps : U ⊕ HSum Us → T ⊕ HSum Ts) (Sum.elim Ok Oks : U ⊕ HSum Us → Prop)

end

end Asn1.Spec

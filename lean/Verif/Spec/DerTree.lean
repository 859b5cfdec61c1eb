import Verif.Spec.BuiltValue
import Verif.Spec.Ber
import Verif.Model.Iterator
/-!
# Objects that are well-formed DER at every level, and the values that are built from parts
-/
namespace Asn1.Spec
open Asn1

/-- One complete object: shortest identifier octets (X.690 8.1.2) with a tag number of at most 32 bits,
shortest length octets of the definite form (10.1), then the content. The content of a constructed object
consists of objects of this kind, and of nothing else. -/
inductive DerTree : Bytes → Prop
  | primitive {c : Class} {tag : Nat} {id len content : Bytes} (htag : tag < 2 ^ 32)
      (hi : X690Ident c false tag id) (hl : DerLen content.length len) : DerTree (id ++ len ++ content)
  | constructed {c : Class} {tag : Nat} {id len : Bytes} {items : List Bytes} (htag : tag < 2 ^ 32)
      (hi : X690Ident c true tag id) (hl : DerLen items.flatten.length len)
      (h : ∀ x ∈ items, DerTree x) : DerTree (id ++ len ++ items.flatten)

/-- Such objects, one after the other. -/
def DerForest (bs : Bytes) : Prop := ∃ items : List Bytes, bs = items.flatten ∧ ∀ x ∈ items, DerTree x

mutual

/-- `v` is a value of a type made with the type constructors of the crate, nested in any way, and `t` is its
`ToBer` (`ToDer`). Every part has fewer than `2^24` content bytes (C18) and no struct has an IMPLICIT field as
in C54 or a field of type `Option` (C78). What the user gives as encoded already (the content of an `Any` with
the constructed flag, of a `Sequence` or of a `Set`) consists of well-formed objects. -/
inductive Composed : {α : Type} → ToBer α → α → Prop
  | universal {α : Type} {c : Codec α} {v : α} (h : UniversalValue c v) (hs : SmallContent c.enc v) :
      Composed c.enc v
  | bits {v : BitString} (hv : v.WF) (hs : SmallContent bitToBer v) : Composed bitToBer v
  | boolean (v : UInt8) : Composed booleanToBer v
  | any {a : Any} (htag : a.header.tag < 2 ^ 32) (hc : a.header.constructed = true → DerForest a.data.data)
      (hs : SmallContent anyToBer a) : Composed anyToBer a
  | list {α : Type} {t : ToBer α} {vs : List α} (tag : Nat) (htag : tag < 2 ^ 32) (h : ∀ v ∈ vs, Composed t v)
      (hs : SmallContent (listToBer tag t) vs) : Composed (listToBer tag t) vs
  | set {α σ : Type} {t : ToBer α} (S : SetImpl α σ) {s : σ} (h : ∀ v ∈ S.toList s, Composed t v)
      (hs : SmallContent (setToBer S t) s) : Composed (setToBer S t) s
  | array {α : Type} {t : ToBer α} (N : Nat) {v : Arr α N} (h : ∀ x ∈ v.val, Composed t x)
      (hs : SmallContent (arrayToBer N t) v) : Composed (arrayToBer N t) v
  | raw (tag : Nat) (htag : tag < 2 ^ 32) {s : RawSeq} (hc : DerForest s.content)
      (hs : SmallContent (rawToBer tag) s) : Composed (rawToBer tag) s
  | explicit {α : Type} {t : ToBer α} {v : α} (cls : Class) (tag : Nat) (htag : tag < 2 ^ 32)
      {dynTag : α → Nat} (hdyn : dynTag v = (t.tagInfo v).2.2) (h : Composed t v)
      (hs : SmallContent (explicitToBer cls tag dynTag t) ⟨v⟩) : Composed (explicitToBer cls tag dynTag t) ⟨v⟩
  | implicit {α : Type} {t : ToBer α} {v : α} (cls : Class) (tag : Nat) (htag : tag < 2 ^ 32)
      {dynConstructed : α → Bool} (hdyn : dynConstructed v = (t.tagInfo v).2.1) (h : Composed t v) :
      Composed (implicitToBer cls tag dynConstructed t) ⟨v⟩
  | taggedExplicit {α : Type} {t : ToBer α} {v : α} (hd : Header) (htag : hd.tag < 2 ^ 32) (h : Composed t v)
      (hs : SmallContent (taggedParserExplicitToBer t) ⟨hd, v⟩) : Composed (taggedParserExplicitToBer t) ⟨hd, v⟩
  /-- (The flag of a constructed value is lost, C63.) -/
  | taggedImplicit {α : Type} {t : ToBer α} {v : α} (hd : Header) (htag : hd.tag < 2 ^ 32) (h : Composed t v)
      (hp : (t.tagInfo v).2.1 = false) : Composed (taggedParserImplicitToBer t) ⟨hd, v⟩
  | struct {Ts : List Type} {es : EncFields Ts} {vs : Tup Ts} (tag : Nat) (htag : tag < 2 ^ 32)
      (h : ComposedFields es vs) (h0 : overcount es vs = 0) (hs : SmallContent (structToBer tag es) vs) :
      Composed (structToBer tag es) vs
  | choice {Ts : List Type} {es : EncVariants Ts} {x : HSum Ts} (k : ChoiceKind) (h : ComposedVariant k es x)
      (hs : SmallContent (choiceToBer k es) x) : Composed (choiceToBer k es) x
  | enum (ds : List Nat) (hds : ∀ d ∈ ds, d < 2 ^ 32) (k : Fin ds.length) : Composed (enumToBer ds) k
  | alias {α : Type} {t : ToBer α} {v : α} (h : Composed t v) : Composed (aliasToBer t) ⟨v⟩

/-- The values of the fields of a struct. The announced length of a tagged field is below `2^24`. -/
inductive ComposedFields : {Ts : List Type} → EncFields Ts → Tup Ts → Prop
  | nil : ComposedFields .nil ()
  | cons {T : Type} {Ts : List Type} {t : ToBer T} {v : T} {es : EncFields Ts} {vs : Tup Ts} (tag : FieldTag)
      (hv : FieldTag.Valid tag) (h : Composed t v)
      (hs : tag ≠ .untagged → ∀ n, t.totalLen v = .definite n → n < 2 ^ 24) (ht : ComposedFields es vs) :
      ComposedFields (.cons tag t es) (v, vs)

/-- A variant of a CHOICE with its payload. -/
inductive ComposedVariant : ChoiceKind → {Ts : List Type} → EncVariants Ts → HSum Ts → Prop
  | here {k : ChoiceKind} {T : Type} {Ts : List Type} {t : ToBer T} {v : T} {n : Nat} (hn : n < 2 ^ 32)
      {dyn : T → Class × Bool × Nat} (hdyn : dyn v = t.tagInfo v) (es : EncVariants Ts) (h : Composed t v) :
      ComposedVariant k (.cons n dyn t es) (.inl v : T ⊕ HSum Ts)
  | there {k : ChoiceKind} {T : Type} {Ts : List Type} {t : ToBer T} {es : EncVariants Ts} {x : HSum Ts} (n : Nat)
      (dyn : T → Class × Bool × Nat) (h : ComposedVariant k es x) :
      ComposedVariant k (.cons n dyn t es) (.inr x : T ⊕ HSum Ts)

end

/-- `b` is met on the way down from the object `a`: it is `a`, or one of the objects that iterating over the
content of a constructed object on the way gives (`AnyIterator` in DER mode). -/
inductive Met (a : Any) : Any → Prop
  | self : Met a a
  | inside {b c : Any} {rem : Input} {items : List Any} (h : Met a b) (hc : b.header.constructed = true)
      (hi : (AnyIter.new b.data).tryCollect anyDer.parseDer = .ok (rem, items)) (hm : c ∈ items) : Met a c

end Asn1.Spec

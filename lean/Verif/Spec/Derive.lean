import Verif.Spec.Containers
import Verif.Model.Derive
import Verif.Spec.Universal
/-!
# Derived types: what their decoders read, and what their encoders write
-/
namespace Asn1.Spec
open Asn1

/-! ### Reading a struct -/

/-- From `i` up to `r`, `v` is read as a field of the type with parser `p` and the given tag: as the type
itself; as an object with the EXPLICIT tag around it; or as an object with the IMPLICIT tag instead of its
own. -/
inductive ReadsAs {T : Type} (m : Rules) (p : Parser T) : FieldTag → Input → T → Input → Prop
  | untagged {i r v} (h : m.parse p i = .ok (r, v)) : ReadsAs m p .untagged i v r
  | explicit {cls n i r v a x} (h : m.any i = .ok (r, a)) (hcls : a.header.cls = cls)
      (htag : a.header.tag = n) (hc : a.header.constructed = true) (hi : m.parse p a.data = .ok (x, v)) :
      ReadsAs m p (.explicit cls n) i v r
  | implicit {cls n i r v a x} (h : m.any i = .ok (r, a)) (hcls : a.header.cls = cls)
      (htag : a.header.tag = n) (hi : p.content a.header a.data = .ok (x, v)) :
      ReadsAs m p (.implicit cls n) i v r

/-- The tag numbers that announce a field. -/
def Announces {T : Type} (p : Parser T) : FieldTag → Nat → Prop
  | .untagged, tag => p.acceptTag tag = true
  | .explicit _ n, tag => tag = n
  | .implicit _ n, tag => tag = n

/-- An optional field is not at `i`: nothing is left, or the next object has another tag number. -/
inductive Missing {T : Type} (m : Rules) (p : Parser T) (tag : FieldTag) (i : Input) : Prop
  | done (h : i.data = [])
  | other {r h} (hh : m.header i = .ok (r, h)) (ht : ¬ Announces p tag h.tag)

/-- The header at `i` has a definite length. -/
def DefiniteAt (i : Input) : Prop := ∀ r h, parseHeader i = .ok (r, h) → h.length ≠ .indefinite

/-- From `i` up to `r`, the field `f` is read as `v`. A field that is missing consumes nothing; one that is
announced must be there. (An optional field without a tag is refused if it has an indefinite length.) -/
def ReadsField (m : Rules) : {T : Type} → Field T → Input → T → Input → Prop
  | _, .required tag p, i, v, r => ReadsAs m p tag i v r
  | _, .optional tag p, i, v, r =>
    (∃ x, v = some x ∧ ReadsAs m p tag i x r ∧ (tag = .untagged → DefiniteAt i)) ∨
    (v = none ∧ r = i ∧ Missing m p tag i)
  | _, .default tag p x, i, v, r =>
    (ReadsAs m p tag i v r ∧ (tag = .untagged → DefiniteAt i)) ∨
    (v = x ∧ r = i ∧ Missing m p tag i)
  | _, .custom f, i, v, r => f i = .ok (r, v)

/-- The fields are read one after the other from `i`, up to `e`. -/
inductive ReadsFields (m : Rules) : {Ts : List Type} → Fields Ts → Input → Tup Ts → Input → Prop
  | nil {i} : ReadsFields m .nil i () i
  | cons {T : Type} {Ts : List Type} {f : Field T} {fs : Fields Ts} {i r e v vs}
      (h : ReadsField m f i v r) (ht : ReadsFields m fs r vs e) : ReadsFields m (.cons f fs) i (v, vs) e

/-! ### Writing a struct -/

/-- The lengths `n < m` are not written with the same number of octets (below `2^24`). -/
def Straddles (n m : Nat) : Prop :=
  (n < 0x80 ∧ 0x80 ≤ m) ∨ (n < 0x100 ∧ 0x100 ≤ m) ∨ (n < 0x10000 ∧ 0x10000 ≤ m)

instance (n m : Nat) : Decidable (Straddles n m) := inferInstanceAs (Decidable (_ ∨ _ ∨ _))

/-- 1 for an IMPLICIT field whose content length is not written with as many octets as the length of its
untagged encoding, 0 for any other field. -/
def fieldOvercount {T : Type} (tag : FieldTag) (t : ToBer T) (v : T) : Nat :=
  match tag, t.contentLen v, t.totalLen v with
  | .implicit _ _, .definite n, .definite m => if Straddles n m then 1 else 0
  | _, _, _ => 0

/-- The number of such fields. -/
def overcount : {Ts : List Type} → EncFields Ts → Tup Ts → Nat
  | _, .nil, _ => 0
  | _, .cons tag t fs, (v, vs) => fieldOvercount tag t v + overcount fs vs

/-- The tag number of a field fits 32 bits. -/
def FieldTag.Valid : FieldTag → Prop
  | .untagged => True
  | .explicit _ n => n < 2 ^ 32
  | .implicit _ n => n < 2 ^ 32

/-- The encoders of the fields announce and return the lengths they write, and these are below `2^24`. -/
inductive FieldsFit : {Ts : List Type} → EncFields Ts → Tup Ts → Prop
  | nil : FieldsFit .nil ()
  | cons {T : Type} {Ts : List Type} {tag : FieldTag} {t : ToBer T} {fs : EncFields Ts} {v : T} {vs : Tup Ts}
      (h : Fits t v) (htag : FieldTag.Valid tag)
      (hs : tag ≠ .untagged → ∀ n, t.totalLen v = .definite n → n < 2 ^ 24) (ht : FieldsFit fs vs) :
      FieldsFit (.cons tag t fs) (v, vs)

/-! ### Writing a struct and reading it again -/

/-- The header written for `v` is that of the announced class, flag, tag and length. -/
def OwnHeader {T : Type} (t : ToBer T) (v : T) : Prop :=
  (t.writeHeader v).exec =
    (headerToBer.writeHeader (Header.new (t.tagInfo v).1 (t.tagInfo v).2.1 (t.tagInfo v).2.2
      (t.contentLen v))).exec

/-- What the encoder of the type of a field writes is read as `w` by its decoder: its encoding, or for an
IMPLICIT field its content (under another tag). -/
inductive ComesBack {T U : Type} (m : Rules) (t : ToBer T) (p : Parser U) (v : T) (w : U) : FieldTag → Prop
  | untagged (h : InputBack t (m.parse p) v w) : ComesBack m t p v w .untagged
  | explicit {cls n} (h : InputBack t (m.parse p) v w) : ComesBack m t p v w (.explicit cls n)
  | implicit {cls n cs} (hw : (t.writeContent v).exec = (cs, .ok cs.length))
      (h : Decodes p (t.tagInfo v).2.1 cs w) : ComesBack m t p v w (.implicit cls n)

/-- The fields of an encoder and those of a decoder have the same tags, and each field comes back. -/
inductive StructBack (m : Rules) :
    {Ts Us : List Type} → EncFields Ts → Fields Us → Tup Ts → Tup Us → Prop
  | nil : StructBack m .nil .nil () ()
  | required {T U : Type} {Ts Us : List Type} {tag : FieldTag} {t : ToBer T} {p : Parser U}
      {es : EncFields Ts} {fs : Fields Us} {v : T} {w : U} {vs : Tup Ts} {ws : Tup Us}
      (h : ComesBack m t p v w tag) (ht : StructBack m es fs vs ws) :
      StructBack m (.cons tag t es) (.cons (.required tag p) fs) (v, vs) (w, ws)
  | default {T U : Type} {Ts Us : List Type} {tag : FieldTag} {t : ToBer T} {p : Parser U} {x : U}
      {es : EncFields Ts} {fs : Fields Us} {v : T} {w : U} {vs : Tup Ts} {ws : Tup Us}
      (h : ComesBack m t p v w tag) (hh : tag = .untagged → OwnHeader t v)
      (ht : StructBack m es fs vs ws) :
      StructBack m (.cons tag t es) (.cons (.default tag p x) fs) (v, vs) (w, ws)

/-- Fields with values of universal types, required or with a default, plain or tagged; the fields as the
encoder, the BER decoder and the DER decoder see them. -/
inductive UniversalFields :
    {Ts : List Type} → EncFields Ts → Fields Ts → Fields Ts → Tup Ts → Prop
  | nil : UniversalFields .nil .nil .nil ()
  | required {T : Type} {Ts : List Type} {tag : FieldTag} {c : Codec T} {v : T} {es : EncFields Ts}
      {fb fd : Fields Ts} {vs : Tup Ts} (hu : UniversalValue c v) (hs : SmallContent c.enc v)
      (hv : FieldTag.Valid tag) (ht : tag ≠ .untagged → ∀ n, c.enc.totalLen v = .definite n → n < 2 ^ 24)
      (h : UniversalFields es fb fd vs) :
      UniversalFields (.cons tag c.enc es) (.cons (.required tag c.ber) fb)
        (.cons (.required tag c.der) fd) (v, vs)
  | default {T : Type} {Ts : List Type} {tag : FieldTag} {c : Codec T} {v x y : T} {es : EncFields Ts}
      {fb fd : Fields Ts} {vs : Tup Ts} (hu : UniversalValue c v) (hs : SmallContent c.enc v)
      (hv : FieldTag.Valid tag) (ht : tag ≠ .untagged → ∀ n, c.enc.totalLen v = .definite n → n < 2 ^ 24)
      (h : UniversalFields es fb fd vs) :
      UniversalFields (.cons tag c.enc es) (.cons (.default tag c.ber x) fb)
        (.cons (.default tag c.der y) fd) (v, vs)

/-! ### Writing a struct with fields of type `Option` -/

/-- A field of type `Option` is present. -/
inductive HoldsSome : {Ts : List Type} → OptFields Ts → Tup Ts → Prop
  | here {T : Type} {Ts : List Type} {tag : FieldTag} {t : ToBer T} {fs : OptFields Ts} {x : T}
      {vs : Tup Ts} : HoldsSome (.cons tag (.option t) fs) (some x, vs)
  | there {T : Type} {Ts : List Type} {tag : FieldTag} {e : EncTy T} {fs : OptFields Ts} {v : T}
      {vs : Tup Ts} (h : HoldsSome fs vs) : HoldsSome (.cons tag e fs) (v, vs)

/-- The same fields, none of which has the type `Option`. -/
def allPlain : {Ts : List Type} → EncFields Ts → OptFields Ts
  | _, .nil => .nil
  | _, .cons tag t fs => .cons tag (.plain t) (allPlain fs)

/-- No field of type `Option` is present, and the others fit. -/
inductive NoneFit : {Ts : List Type} → OptFields Ts → Tup Ts → Prop
  | nil : NoneFit .nil ()
  | plain {T : Type} {Ts : List Type} {tag : FieldTag} {t : ToBer T} {fs : OptFields Ts} {v : T}
      {vs : Tup Ts} (h : Fits t v) (htag : FieldTag.Valid tag)
      (hs : tag ≠ .untagged → ∀ n, t.totalLen v = .definite n → n < 2 ^ 24) (ht : NoneFit fs vs) :
      NoneFit (.cons tag (.plain t) fs) (v, vs)
  | none {T : Type} {Ts : List Type} {tag : FieldTag} {t : ToBer T} {fs : OptFields Ts} {vs : Tup Ts}
      (htag : FieldTag.Valid tag) (ht : NoneFit fs vs) : NoneFit (.cons tag (.option t) fs) (none, vs)

/-- By how much the announced content length of a struct with absent optional fields is too large: 2 for
each optional field without a tag, and `overcount` for the fields of other types. -/
def noneOvercount : {Ts : List Type} → OptFields Ts → Tup Ts → Nat
  | _, .nil, _ => 0
  | _, .cons .untagged (.option _) fs, (_, vs) => 2 + noneOvercount fs vs
  | _, .cons _ (.option _) fs, (_, vs) => noneOvercount fs vs
  | _, .cons tag (.plain t) fs, (v, vs) => fieldOvercount tag t v + noneOvercount fs vs

/-! ### CHOICE -/

/-- The tag number of an object selects a variant: it is a tag of the payload type (untagged CHOICE), or the
tag of the variant. -/
def Selects {T : Type} (k : ChoiceKind) (t : Nat) (p : Parser T) (tag : Nat) : Prop :=
  match k with
  | .untagged => p.acceptTag tag = true
  | _ => tag = t

/-- The payload of a variant is read from an object: from its content, which is an encoding (EXPLICIT) or
the content of one (IMPLICIT, or untagged). -/
def ReadsPayload {T : Type} (m : Rules) (k : ChoiceKind) (p : Parser T) (a : Any) (x : T) : Prop :=
  match k with
  | .explicit => a.header.constructed = true ∧ ∃ r, m.parse p a.data = .ok (r, x)
  | _ => ∃ r, p.content a.header a.data = .ok (r, x)

/-- The object is read as the first variant that its tag number selects. -/
def ReadsChoice (m : Rules) (k : ChoiceKind) : {Ts : List Type} → Variants Ts → Any → HSum Ts → Prop
  | _, .nil, _, _ => False
  | _, .cons t p _, a, .inl x => Selects k t p a.header.tag ∧ ReadsPayload m k p a x
  | _, .cons t p vs, a, .inr y => ¬ Selects k t p a.header.tag ∧ ReadsChoice m k vs a y

/-- What is written for a payload comes back, and so does the variant: its tag number is that of its
position, or that of its own type. `g` is the tag number of the object. -/
inductive PayloadBack {T U : Type} (m : Rules) (n : Nat) (dyn : T → Class × Bool × Nat) (t : ToBer T)
    (p : Parser U) (x : T) (y : U) : ChoiceKind → Nat → Prop
  | explicit (hn : n < 2 ^ 32) (hf : Fits t x) (h : InputBack t (m.parse p) x y) :
      PayloadBack m n dyn t p x y .explicit n
  | implicit {cs} (hn : n < 2 ^ 32) (hw : (t.writeContent x).exec = (cs, .ok cs.length))
      (hl : t.contentLen x = .definite cs.length) (hs : cs.length < 2 ^ 64)
      (h : Decodes p (dyn x).2.1 cs y) : PayloadBack m n dyn t p x y .implicit n
  | untagged {cs} (hn : (dyn x).2.2 < 2 ^ 32) (hw : (t.writeContent x).exec = (cs, .ok cs.length))
      (hl : t.contentLen x = .definite cs.length) (hs : cs.length < 2 ^ 64)
      (hacc : p.acceptTag (dyn x).2.2 = true) (h : Decodes p (dyn x).2.1 cs y) :
      PayloadBack m n dyn t p x y .untagged (dyn x).2.2

/-- A variant with its payload comes back: no earlier variant is selected by its tag number. -/
inductive ChoiceBack (m : Rules) (k : ChoiceKind) :
    {Ts Us : List Type} → EncVariants Ts → Variants Us → HSum Ts → HSum Us → Nat → Prop
  | here {T U : Type} {Ts Us : List Type} {n dyn} {t : ToBer T} {p : Parser U} {es : EncVariants Ts}
      {vs : Variants Us} {x y g} (h : PayloadBack m n dyn t p x y k g) :
      ChoiceBack m k (.cons n dyn t es) (.cons n p vs) (.inl x) (.inl y) g
  | there {T U : Type} {Ts Us : List Type} {n dyn} {t : ToBer T} {p : Parser U} {es : EncVariants Ts}
      {vs : Variants Us} {x y g} (hn : ¬ Selects k n p g) (h : ChoiceBack m k es vs x y g) :
      ChoiceBack m k (.cons n dyn t es) (.cons n p vs) (.inr x) (.inr y) g

/-- The object that stands for a payload: with the context-specific tag of the variant around the encoding
(EXPLICIT), with that tag instead of the type's own (IMPLICIT), or with the type's own header. -/
def PayloadObject {T : Type} (k : ChoiceKind) (n : Nat) (info : Class × Bool × Nat) (t : ToBer T) (x : T)
    (a : Any) : Prop :=
  match k with
  | .explicit => a.header.cls = .contextSpecific ∧ a.header.constructed = true ∧ a.header.tag = n ∧
      t.toVec x = .ok a.data.data
  | .implicit => a.header.cls = .contextSpecific ∧ a.header.constructed = info.2.1 ∧ a.header.tag = n ∧
      (t.writeContent x).exec = (a.data.data, .ok a.data.data.length)
  | .untagged => a.header.cls = info.1 ∧ a.header.constructed = info.2.1 ∧ a.header.tag = info.2.2 ∧
      (t.writeContent x).exec = (a.data.data, .ok a.data.data.length)

/-- The object that stands for a variant with its payload. -/
def ChoiceObject (k : ChoiceKind) : {Ts : List Type} → EncVariants Ts → HSum Ts → Any → Prop
  | _, .cons n dyn t _, .inl x, a => PayloadObject k n (dyn x) t x a
  | _, .cons _ _ _ es, .inr x, a => ChoiceObject k es x a

/-- A variant whose payload is a value of a universal type; the variants as the encoder, the BER decoder and
the DER decoder see them. In a tagged CHOICE, the tags of the variants are different; in an untagged one, the
types before this variant do not accept its tag. -/
inductive UniversalChoice (k : ChoiceKind) :
    {Ts : List Type} → EncVariants Ts → Variants Ts → Variants Ts → HSum Ts → Nat → Prop
  | here {T : Type} {Ts : List Type} {n} {c : Codec T} {es : EncVariants Ts} {vb vd : Variants Ts} {v : T}
      (hn : n < 2 ^ 32) (hu : UniversalValue c v) (hs : SmallContent c.enc v) :
      UniversalChoice k (.cons n c.enc.tagInfo c.enc es) (.cons n c.ber vb) (.cons n c.der vd) (.inl v)
        (if k = .untagged then c.tag else n)
  | there {T : Type} {Ts : List Type} {n dyn} {t : ToBer T} {pb pd : Parser T} {es : EncVariants Ts}
      {vb vd : Variants Ts} {x g} (hb : ¬ Selects k n pb g) (hd : ¬ Selects k n pd g)
      (h : UniversalChoice k es vb vd x g) :
      UniversalChoice k (.cons n dyn t es) (.cons n pb vb) (.cons n pd vd) (.inr x) g

/-- The tags of the variants: the attribute if there is one, else one more than the previous tag (`cur` for
the first). -/
inductive Numbered : Nat → List (Option Nat) → List Nat → Prop
  | nil {cur} : Numbered cur [] []
  | auto {cur attrs tags} (h : Numbered (cur + 1) attrs tags) : Numbered cur (none :: attrs) (cur :: tags)
  | given {cur n attrs tags} (h : Numbered (n + 1) attrs tags) :
      Numbered cur (some n :: attrs) (n :: tags)

end Asn1.Spec

import Verif.Spec.Derive
/-!
# Derived structs: the byte-slice API
-/
namespace Asn1.Spec
open Asn1

/-- `bytes` starts with an object, and `rem` follows it. -/
def ObjectAt (m : Rules) (bytes : Bytes) (a : Any) (rem : Bytes) : Prop :=
  ∃ r, m.any (Input.fromSlice bytes) = .ok (r, a) ∧ r.data = rem

/-- `bytes`, up to `rem`, is read as a field with the given tag: as the type itself; as an object with the
EXPLICIT tag around it; or as an object with the IMPLICIT tag instead of its own. -/
inductive SliceReadsAs {T : Type} (m : Rules) (ty : SliceType T) : FieldTag → Bytes → T → Bytes → Prop
  | untagged {bytes rem v} (h : ty.from_ bytes = .ok (rem, v)) : SliceReadsAs m ty .untagged bytes v rem
  | explicit {cls n bytes rem v a x} (h : ObjectAt m bytes a rem) (hcls : a.header.cls = cls)
      (htag : a.header.tag = n) (hc : a.header.constructed = true)
      (hi : ty.from_ a.data.data = .ok (x, v)) : SliceReadsAs m ty (.explicit cls n) bytes v rem
  | implicit {cls n bytes rem v a} (h : ObjectAt m bytes a rem) (hcls : a.header.cls = cls)
      (htag : a.header.tag = n) (hi : ty.tryFrom ⟨{ a.header with tag := ty.tag }, a.data⟩ = .ok v) :
      SliceReadsAs m ty (.implicit cls n) bytes v rem

/-- The tag numbers that announce a field. -/
def SliceAnnounces {T : Type} (ty : SliceType T) : FieldTag → Nat → Prop
  | .untagged, tag => ty.acceptTag tag = true
  | .explicit _ n, tag => tag = n
  | .implicit _ n, tag => tag = n

/-- An optional field is not there: nothing is left, or the next object has another tag number. -/
inductive SliceMissing {T : Type} (m : Rules) (ty : SliceType T) (tag : FieldTag) (bytes : Bytes) : Prop
  | done (h : bytes = [])
  | other {r h} (hh : m.header (Input.fromSlice bytes) = .ok (r, h)) (ht : ¬ SliceAnnounces ty tag h.tag)

/-- `bytes`, up to `rem`, is read as the field `f`. -/
def SliceReadsField (m : Rules) : {T : Type} → SliceField T → Bytes → T → Bytes → Prop
  | _, .required tag ty, bytes, v, rem => SliceReadsAs m ty tag bytes v rem
  | _, .optional tag ty, bytes, v, rem =>
    (∃ x, v = some x ∧ ¬ SliceMissing m ty tag bytes ∧ SliceReadsAs m ty tag bytes x rem) ∨
    (v = none ∧ rem = bytes ∧ SliceMissing m ty tag bytes)
  | _, .default tag ty x, bytes, v, rem =>
    (¬ SliceMissing m ty tag bytes ∧ SliceReadsAs m ty tag bytes v rem) ∨
    (v = x ∧ rem = bytes ∧ SliceMissing m ty tag bytes)

/-- The fields are read one after the other. -/
inductive SliceReadsFields (m : Rules) :
    {Ts : List Type} → SliceFields Ts → Bytes → Tup Ts → Bytes → Prop
  | nil {b} : SliceReadsFields m .nil b () b
  | cons {T : Type} {Ts : List Type} {f : SliceField T} {fs : SliceFields Ts} {b c e v vs}
      (h : SliceReadsField m f b v c) (ht : SliceReadsFields m fs c vs e) :
      SliceReadsFields m (.cons f fs) b (v, vs) e

/-- The type of a field behaves alike in the two APIs: `from_ber` as `parse_ber` (`from_der` as
`parse_der`), at every position; the accepted tags; and for an IMPLICIT field `try_from` as the content
parser. -/
structure SameType {T : Type} (m : Rules) (ty : SliceType T) (p : Parser T) (tag : FieldTag) : Prop where
  from_ : SameDecoder (m.parse p) ty.from_
  accept : ∀ t, ty.acceptTag t = p.acceptTag t
  content : (∃ cls n, tag = .implicit cls n) → ∀ (a b : Any) (v : T), a.header.cls = b.header.cls →
    a.header.constructed = b.header.constructed → a.header.tag = b.header.tag →
    a.header.length = b.header.length → a.header.rawTag = b.header.rawTag → a.data.data = b.data.data →
    ((∃ x, p.content a.header a.data = .ok (x, v)) ↔
      ty.tryFrom ⟨{ b.header with tag := ty.tag }, b.data⟩ = .ok v)

/-- The same struct in the two APIs. -/
inductive SameFields (m : Rules) : {Ts : List Type} → SliceFields Ts → Fields Ts → Prop
  | nil : SameFields m .nil .nil
  | required {T : Type} {Ts : List Type} {tag} {ty : SliceType T} {p : Parser T} {ss : SliceFields Ts}
      {fs : Fields Ts} (h : SameType m ty p tag) (ht : SameFields m ss fs) :
      SameFields m (.cons (.required tag ty) ss) (.cons (.required tag p) fs)
  | optional {T : Type} {Ts : List Type} {tag} {ty : SliceType T} {p : Parser T} {ss : SliceFields Ts}
      {fs : Fields Ts} (h : SameType m ty p tag) (ht : SameFields m ss fs) :
      SameFields m (.cons (.optional tag ty) ss) (.cons (.optional tag p) fs)
  | default {T : Type} {Ts : List Type} {tag} {ty : SliceType T} {p : Parser T} {x : T}
      {ss : SliceFields Ts} {fs : Fields Ts} (h : SameType m ty p tag) (ht : SameFields m ss fs) :
      SameFields m (.cons (.default tag ty x) ss) (.cons (.default tag p x) fs)

/-- No field is optional (or has a default) without a tag. -/
def NoPlainOption : {Ts : List Type} → Fields Ts → Prop
  | _, .nil => True
  | _, .cons (.optional tag _) fs => tag ≠ .untagged ∧ NoPlainOption fs
  | _, .cons (.default tag _ _) fs => tag ≠ .untagged ∧ NoPlainOption fs
  | _, .cons _ fs => NoPlainOption fs

/-- The checks of the fields accept the objects at the beginning of `bytes`, one each. -/
inductive Checked : List (Any → Except SErr Unit) → Bytes → Prop
  | nil {b} : Checked [] b
  | cons {c cs b a rem} (h : ObjectAt .der b a rem) (hc : c a = .ok ()) (ht : Checked cs rem) :
      Checked (c :: cs) b

/-- What the encoder of the type of a field writes is read as `w` by its decoders on bytes: its encoding by
`from_ber` (`from_der`), or for an IMPLICIT field its content by `try_from`. -/
inductive SliceComesBack {T U : Type} (t : ToBer T) (ty : SliceType U) (v : T) (w : U) : FieldTag → Prop
  | untagged (h : BytesBack t ty.from_ v w) : SliceComesBack t ty v w .untagged
  | explicit {cls n} (h : BytesBack t ty.from_ v w) : SliceComesBack t ty v w (.explicit cls n)
  | implicit {cls n cs} (hw : (t.writeContent v).exec = (cs, .ok cs.length))
      (h : ∀ a : Any, a.header.constructed = (t.tagInfo v).2.1 → a.header.tag = ty.tag →
        a.header.length = .definite cs.length → a.data.data = cs → ty.tryFrom a = .ok w) :
      SliceComesBack t ty v w (.implicit cls n)

/-- The fields come back, one by one. -/
inductive SliceBack : {Ts Us : List Type} → EncFields Ts → SliceFields Us → Tup Ts → Tup Us → Prop
  | nil : SliceBack .nil .nil () ()
  | required {T U : Type} {Ts Us : List Type} {tag : FieldTag} {t : ToBer T} {ty : SliceType U}
      {es : EncFields Ts} {ss : SliceFields Us} {v : T} {w : U} {vs : Tup Ts} {ws : Tup Us}
      (h : SliceComesBack t ty v w tag) (ht : SliceBack es ss vs ws) :
      SliceBack (.cons tag t es) (.cons (.required tag ty) ss) (v, vs) (w, ws)
  | default {T U : Type} {Ts Us : List Type} {tag : FieldTag} {t : ToBer T} {ty : SliceType U} {x : U}
      {es : EncFields Ts} {ss : SliceFields Us} {v : T} {w : U} {vs : Tup Ts} {ws : Tup Us}
      (h : SliceComesBack t ty v w tag)
      (hh : tag = .untagged → OwnHeader t v ∧ ty.acceptTag (t.tagInfo v).2.2 = true)
      (ht : SliceBack es ss vs ws) :
      SliceBack (.cons tag t es) (.cons (.default tag ty x) ss) (v, vs) (w, ws)

/-- What a universal type provides to the byte-slice API. -/
def berSlice {T : Type} (c : Codec T) : SliceType T :=
  ⟨fromBer c.ber, tryFromAny c.ber, c.tag, c.ber.acceptTag⟩
/-- The same for DER. -/
def derSlice {T : Type} (c : Codec T) : SliceType T :=
  ⟨fromDer c.ber c.check, tryFromAny c.ber, c.tag, c.ber.acceptTag⟩

/-- Fields with values of universal types, for the encoder, `from_ber` and `from_der`. -/
inductive UniversalSlices :
    {Ts : List Type} → EncFields Ts → SliceFields Ts → SliceFields Ts → Tup Ts → Prop
  | nil : UniversalSlices .nil .nil .nil ()
  | required {T : Type} {Ts : List Type} {tag : FieldTag} {c : Codec T} {v : T} {es : EncFields Ts}
      {sb sd : SliceFields Ts} {vs : Tup Ts} (hu : UniversalValue c v) (hs : SmallContent c.enc v)
      (hv : FieldTag.Valid tag) (ht : tag ≠ .untagged → ∀ n, c.enc.totalLen v = .definite n → n < 2 ^ 24)
      (h : UniversalSlices es sb sd vs) :
      UniversalSlices (.cons tag c.enc es) (.cons (.required tag (berSlice c)) sb)
        (.cons (.required tag (derSlice c)) sd) (v, vs)
  | default {T : Type} {Ts : List Type} {tag : FieldTag} {c : Codec T} {v x y : T} {es : EncFields Ts}
      {sb sd : SliceFields Ts} {vs : Tup Ts} (hu : UniversalValue c v) (hs : SmallContent c.enc v)
      (hv : FieldTag.Valid tag) (ht : tag ≠ .untagged → ∀ n, c.enc.totalLen v = .definite n → n < 2 ^ 24)
      (h : UniversalSlices es sb sd vs) :
      UniversalSlices (.cons tag c.enc es) (.cons (.default tag (berSlice c) x) sb)
        (.cons (.default tag (derSlice c) y) sd) (v, vs)

end Asn1.Spec

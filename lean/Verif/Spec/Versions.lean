import Verif.Spec.Derive
import Verif.Spec.DeriveSlice
/-!
# Older and newer versions of a type
-/
namespace Asn1.Spec
open Asn1

/-! ### Structs -/

/-- The fields of a struct, then further fields. -/
def fieldsThen : {Ts Us : List Type} → Fields Ts → Fields Us → Fields (Ts ++ Us)
  | _, _, .nil, gs => gs
  | _, _, .cons f fs, gs => .cons f (fieldsThen fs gs)

/-- The same, as the functions on bytes see the fields. -/
def slicesThen : {Ts Us : List Type} → SliceFields Ts → SliceFields Us → SliceFields (Ts ++ Us)
  | _, _, .nil, gs => gs
  | _, _, .cons f fs, gs => .cons f (slicesThen fs gs)

/-- The same, for the encoder. -/
def encThen : {Ts Us : List Type} → EncFields Ts → EncFields Us → EncFields (Ts ++ Us)
  | _, _, .nil, gs => gs
  | _, _, .cons tag t fs, gs => .cons tag t (encThen fs gs)

/-- The values of the fields, then those of the further fields. -/
def tupThen : {Ts Us : List Type} → Tup Ts → Tup Us → Tup (Ts ++ Us)
  | [], _, _, w => w
  | _ :: _, _, (x, v), w => (x, tupThen v w)

/-- `gs` is a newer version of the fields `fs`, and a value `v` of the older struct is the value `w` of the newer
one: fields have stayed, or have become optional, or have got a default; and optional fields and fields with a
default have been added at the end, which are absent or have their default. -/
inductive Newer : {Ts Us : List Type} → Fields Ts → Fields Us → Tup Ts → Tup Us → Prop
  | nil : Newer .nil .nil () ()
  | same {T : Type} {Ts Us : List Type} {f : Field T} {fs : Fields Ts} {gs : Fields Us} {x : T} {v : Tup Ts}
      {w : Tup Us} (h : Newer fs gs v w) : Newer (.cons f fs) (.cons f gs) (x, v) (x, w)
  | optional {T : Type} {Ts Us : List Type} {tag : FieldTag} {p : Parser T} {fs : Fields Ts} {gs : Fields Us}
      {x : T} {v : Tup Ts} {w : Tup Us} (h : Newer fs gs v w) :
      Newer (.cons (.required tag p) fs) (.cons (.optional tag p) gs) (x, v) (some x, w)
  | default {T : Type} {Ts Us : List Type} {tag : FieldTag} {p : Parser T} {fs : Fields Ts} {gs : Fields Us}
      {x y : T} {v : Tup Ts} {w : Tup Us} (h : Newer fs gs v w) :
      Newer (.cons (.required tag p) fs) (.cons (.default tag p y) gs) (x, v) (x, w)
  | addOptional {T : Type} {Us : List Type} {tag : FieldTag} {p : Parser T} {gs : Fields Us} {w : Tup Us}
      (h : Newer .nil gs () w) : Newer .nil (.cons (.optional tag p) gs) () (none, w)
  | addDefault {T : Type} {Us : List Type} {tag : FieldTag} {p : Parser T} {y : T} {gs : Fields Us} {w : Tup Us}
      (h : Newer .nil gs () w) : Newer .nil (.cons (.default tag p y) gs) () (y, w)

/-- What `from_ber` (`from_der`) of a type reads starts with a header whose tag number the type accepts. -/
def ReadsAnnounced {T : Type} (m : Rules) (ty : SliceType T) : Prop :=
  ∀ bytes rem v, ty.from_ bytes = .ok (rem, v) →
    ∃ r h, m.header (Input.fromSlice bytes) = .ok (r, h) ∧ ty.acceptTag h.tag = true

/-- The same as `Newer`, as the functions on bytes see the fields. -/
inductive NewerSlices (m : Rules) : {Ts Us : List Type} → SliceFields Ts → SliceFields Us → Tup Ts → Tup Us → Prop
  | nil : NewerSlices m .nil .nil () ()
  | same {T : Type} {Ts Us : List Type} {f : SliceField T} {fs : SliceFields Ts} {gs : SliceFields Us} {x : T}
      {v : Tup Ts} {w : Tup Us} (h : NewerSlices m fs gs v w) :
      NewerSlices m (.cons f fs) (.cons f gs) (x, v) (x, w)
  | optional {T : Type} {Ts Us : List Type} {tag : FieldTag} {ty : SliceType T} {fs : SliceFields Ts}
      {gs : SliceFields Us} {x : T} {v : Tup Ts} {w : Tup Us} (ha : tag = .untagged → ReadsAnnounced m ty)
      (h : NewerSlices m fs gs v w) :
      NewerSlices m (.cons (.required tag ty) fs) (.cons (.optional tag ty) gs) (x, v) (some x, w)
  | default {T : Type} {Ts Us : List Type} {tag : FieldTag} {ty : SliceType T} {fs : SliceFields Ts}
      {gs : SliceFields Us} {x y : T} {v : Tup Ts} {w : Tup Us} (ha : tag = .untagged → ReadsAnnounced m ty)
      (h : NewerSlices m fs gs v w) :
      NewerSlices m (.cons (.required tag ty) fs) (.cons (.default tag ty y) gs) (x, v) (x, w)
  | addOptional {T : Type} {Us : List Type} {tag : FieldTag} {ty : SliceType T} {gs : SliceFields Us}
      {w : Tup Us} (h : NewerSlices m .nil gs () w) :
      NewerSlices m .nil (.cons (.optional tag ty) gs) () (none, w)
  | addDefault {T : Type} {Us : List Type} {tag : FieldTag} {ty : SliceType T} {y : T} {gs : SliceFields Us}
      {w : Tup Us} (h : NewerSlices m .nil gs () w) :
      NewerSlices m .nil (.cons (.default tag ty y) gs) () (y, w)

/-- Each field, as it is read, starts with a header of definite length: what is needed of the content of an older
struct in BER, where untagged optional fields are refused in the indefinite form. `i` is the content and `e` its
rest after the fields. -/
inductive DefiniteFields (m : Rules) : {Ts : List Type} → Fields Ts → Input → Input → Prop
  | nil {i} : DefiniteFields m .nil i i
  | cons {T : Type} {Ts : List Type} {f : Field T} {fs : Fields Ts} {i r e x} (h : f.parse m i = .ok (r, x))
      (hd : DefiniteAt i) (ht : DefiniteFields m fs r e) : DefiniteFields m (.cons f fs) i e

/-! ### CHOICE -/

/-- The variants of an enum, then further variants. -/
def variantsThen : {Ts Us : List Type} → Variants Ts → Variants Us → Variants (Ts ++ Us)
  | _, _, .nil, us => us
  | _, _, .cons t p vs, us => .cons t p (variantsThen vs us)

/-- A value of the older enum, as one of the newer. -/
def oldVariant : {Ts : List Type} → (Us : List Type) → HSum Ts → HSum (Ts ++ Us)
  | [], _, x => x.elim
  | _ :: _, _, .inl x => .inl x
  | _ :: _, Us, .inr x => .inr (oldVariant Us x)

/-- A value of the newer enum with one of the further variants. -/
def newVariant : (Ts : List Type) → {Us : List Type} → HSum Us → HSum (Ts ++ Us)
  | [], _, x => x
  | _ :: Ts, _, x => .inr (newVariant Ts x)

end Asn1.Spec

import Verif.Model.Derive
import Verif.Model.ErrorConv
/-!
# Editing headers and generic objects, references to values, deprecated helpers
-/
namespace Asn1

namespace Header

/-- src/header.rs:53-57 `new_simple` and 296-301 `From<Tag>`. -/
def newSimple (tag : Nat) : Header := Header.new .universal (tag = 16 || tag = 17) tag (.definite 0)

/-- src/header.rs:60-63 `with_class`. -/
def withClass (h : Header) (cls : Class) : Header :=
  ⟨cls, h.constructed, h.tag, h.length, h.rawTag, h.rawHeader⟩

/-- src/header.rs:66-72 `with_constructed`. -/
def withConstructed (h : Header) (constructed : Bool) : Header :=
  ⟨h.cls, constructed, h.tag, h.length, h.rawTag, h.rawHeader⟩

/-- src/header.rs:75-78 `with_tag`: the raw tag is kept. -/
def withTag (h : Header) (tag : Nat) : Header :=
  ⟨h.cls, h.constructed, tag, h.length, h.rawTag, h.rawHeader⟩

/-- src/header.rs:81-84 `with_length`: the raw header is kept. -/
def withLength (h : Header) (length : Length) : Header :=
  ⟨h.cls, h.constructed, h.tag, length, h.rawTag, h.rawHeader⟩

/-- src/header.rs:87-90 `with_raw_tag`. -/
def withRawTag (h : Header) (rawTag : Option Bytes) : Header :=
  ⟨h.cls, h.constructed, h.tag, h.length, rawTag, h.rawHeader⟩

/-- src/header.rs:93-96 `with_raw_header`. -/
def withRawHeader (h : Header) (rawHeader : Option Input) : Header :=
  ⟨h.cls, h.constructed, h.tag, h.length, h.rawTag, rawHeader⟩

/-- src/header.rs:231-249 `is_universal`, `is_application`, `is_contextspecific`, `is_private`: the
comparison of the class with a constant. -/
def isClass (h : Header) (cls : Class) : Bool := h.cls.toNat = cls.toNat

end Header

/-- src/asn1_types/any.rs:65-71 `with_class`. -/
def Any.withClass (a : Any) (cls : Class) : Any := ⟨a.header.withClass cls, a.data⟩

/-- src/asn1_types/any.rs:80-86 `with_tag`. -/
def Any.withTag (a : Any) (tag : Nat) : Any := ⟨a.header.withTag tag, a.data⟩

/-- src/to_ber.rs:128-146 and src/to_der.rs:162-180: `ToBer` and `ToDer` of a reference. The three
required methods are passed on; the others are the default ones. -/
def refToBer {α : Type} (t : ToBer α) : ToBer α where
  encoder := t.encoder
  contentLen v := t.contentLen v
  tagInfo v := t.tagInfo v
  writeContent v := t.writeContent v

/-- The same for a reference to an `Option<T>`: `ber_encode` of `Option` (src/asn1_types/optional.rs:200-205)
is not passed on, so that the default method (src/to_ber.rs:66-70) runs, which asks for the tag
(`optionTag`); `none` if this has not returned after `fuel` nested calls. -/
def refOptionToVec {α : Type} (fuel : Nat) (t : ToBer α) (v : Option α) : Option (Except SerErr Bytes) :=
  ((EncTy.option t).tagInfo fuel v).map fun info => ((EncTy.option t).fixed info).toVec v

/-- `to_ber_vec` of an `Option<T>` itself (src/to_ber.rs:112-116 with src/asn1_types/optional.rs:200-205). -/
def optionToVec {α : Type} (t : ToBer α) (v : Option α) : Except SerErr Bytes :=
  match (optionEncode t v).exec with
  | (bs, .ok _) => .ok bs
  | (_, .error e) => .error e

/-- src/to_der.rs:145-150 `to_der_len` (deprecated). -/
def toDerLen {α : Type} (t : ToBer α) (v : α) : Except Error Nat :=
  match t.contentLen v with
  | .definite sz => .ok sz
  | .indefinite => .error .indefiniteLengthUnexpected

/-- src/to_der.rs:153-155 `to_der_vec_raw` (deprecated). -/
def toDerVecRaw {α : Type} (t : ToBer α) (v : α) : Except SerErr Bytes := t.toVec v

end Asn1

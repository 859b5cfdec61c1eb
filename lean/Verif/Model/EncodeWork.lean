import Verif.Model.Derive
import Verif.Model.AnySet
import Verif.Model.Float32
import Verif.Spec.Universal
/-!
# Encoders that count

The encoders again, counting the calls of the methods `ber_content_len` (`der_content_len`), by which the encoders find
out the lengths. `ber_content_len` returns the length and the number of calls made, the call itself included; the
functions that write return the number of bytes and the number of calls. Every function has the shape of the one it
counts for; the counts are those of `ToBer` and of `ToDer`, which make the same calls.
-/
namespace Asn1

/-- A length, or a number of bytes, and the number of calls made to get it. -/
abbrev WithCalls (α : Type) : Type := α × Nat

/-- src/to_ber.rs:23-47 `ToBer`, counting. -/
structure CountingToBer (α : Type) where
  encoder : EncoderKind
  contentLen : α → WithCalls Length
  tagInfo : α → Class × Bool × Nat
  writeContent : α → Wr (WithCalls Nat)

namespace CountingToBer
variable {α σ : Type}

/-- src/to_ber.rs:32-36 `ber_total_len` (one call). -/
def totalLen (t : CountingToBer α) (v : α) : WithCalls Length :=
  (berTotalLength (t.tagInfo v).2.2 (t.contentLen v).1, (t.contentLen v).2)

/-- src/to_ber.rs:49-61 `ber_write_header` (one call, line 57). -/
def writeHeader (t : CountingToBer α) (v : α) : Wr (WithCalls Nat) := do
  let info := t.tagInfo v
  let n1 ← t.encoder.writeTagInfo info.1 info.2.1 info.2.2
  let length := t.contentLen v
  let n2 ← writeLength length.1
  pure (n1 + n2, length.2)

/-- src/to_ber.rs:66-70 `ber_encode`. -/
def encode (t : CountingToBer α) (v : α) : Wr (WithCalls Nat) := do
  let n1 ← t.writeHeader v
  let n2 ← t.writeContent v
  pure (n1.1 + n2.1, n1.2 + n2.2)

/-- src/header.rs:413-427 `ToBer for Header`. -/
def header : CountingToBer Header where
  encoder := .generic
  contentLen h := (h.length, 1)
  tagInfo h := (h.cls, h.constructed, h.tag)
  writeContent _ := pure (0, 0)

/-- src/to_ber.rs:77-90 `ber_encode_tagged_explicit`: the length of the object is asked for twice (lines 83 and 86), the
one of the header of the tag once. -/
def encodeTaggedExplicit (t : CountingToBer α) (cls : Class) (tag : Nat) (v : α) : Wr (WithCalls Nat) := do
  let length := t.totalLen v
  let taggedHeader := Header.new cls true tag length.1
  let n1 ← header.writeHeader taggedHeader
  let n2 ← t.writeHeader v
  let n3 ← t.writeContent v
  pure (n1.1 + n2.1 + n3.1, length.2 + n1.2 + n2.2 + n3.2)

/-- src/to_ber.rs:97-109 `ber_encode_tagged_implicit`. -/
def encodeTaggedImplicit (t : CountingToBer α) (cls : Class) (tag : Nat) (v : α) : Wr (WithCalls Nat) := do
  let length := t.contentLen v
  let info := t.tagInfo v
  let taggedHeader := Header.new cls info.2.1 tag length.1
  let n1 ← header.writeHeader taggedHeader
  let n2 ← t.writeContent v
  pure (n1.1 + n2.1, length.2 + n1.2 + n2.2)

/-- src/to_ber.rs:206-212 `ber_length_constructed_items`. -/
def lengthItems (t : CountingToBer α) (vs : List α) : WithCalls Length :=
  (Length.sum (vs.map fun v => (t.totalLen v).1), (vs.map fun v => (t.totalLen v).2).sum)

/-- The `try_fold` of the containers (see `ToBer.writeItems`). -/
def writeItems (t : CountingToBer α) : List α → WithCalls Nat → Wr (WithCalls Nat)
  | [], acc => pure acc
  | v :: vs, acc => do
    let sz ← t.encode v
    writeItems t vs (acc.1 + sz.1, acc.2 + sz.2)

/-- A type whose `ber_content_len` makes `calls - 1` further calls, and whose `ber_write_content` makes none. -/
def leaf (t : ToBer α) (calls : Nat) : CountingToBer α where
  encoder := t.encoder
  contentLen v := (t.contentLen v, calls)
  tagInfo := t.tagInfo
  writeContent v := t.writeContent v >>= fun n => pure (n, 0)

/-- The containers (see `listToBer`, `setToBer`, `arrayToBer`); `toList` gives the items. `SequenceOf`, `SetOf` and
`AnySet` call `ber_content_len` of the collection they are made of
(src/asn1_types/sequence/sequence_of.rs:214, set/set_of.rs:215, any_set.rs:109): for them `extra` is 1. -/
def items (tag extra : Nat) (toList : σ → List α) (t : CountingToBer α) : CountingToBer σ where
  encoder := .constructed
  contentLen s := ((t.lengthItems (toList s)).1, 1 + extra + (t.lengthItems (toList s)).2)
  tagInfo _ := (.universal, true, tag)
  writeContent s := t.writeItems (toList s) (0, 0)

/-- src/to_ber/constructed_indefinite.rs:41-81 (see `indefToBer`). -/
def indef (t : CountingToBer α) : CountingToBer (List α) where
  encoder := .constructedIndefinite
  contentLen _ := (.indefinite, 1)
  tagInfo _ := (.universal, true, 16)
  writeContent vs := do
    let sz ← t.writeItems vs (0, 0)
    Wr.writeAll [0, 0]
    pure (sz.1 + 2, sz.2)

/-- src/asn1_types/tagged/explicit.rs:174-217. -/
def explicit (cls : Class) (tag : Nat) (dynTag : α → Nat) (t : CountingToBer α) : CountingToBer (TaggedValue α) where
  encoder := .generic
  contentLen v := (berTotalLength (dynTag v.inner) (t.contentLen v.inner).1, 1 + (t.contentLen v.inner).2)
  tagInfo _ := (cls, true, tag)
  writeContent v := t.encode v.inner

/-- src/asn1_types/tagged/implicit.rs:184-222. -/
def implicit (cls : Class) (tag : Nat) (dynConstructed : α → Bool) (t : CountingToBer α) :
    CountingToBer (TaggedValue α) where
  encoder := .generic
  contentLen v := ((t.contentLen v.inner).1, 1 + (t.contentLen v.inner).2)
  tagInfo v := (cls, dynConstructed v.inner, tag)
  writeContent v := t.writeContent v.inner

/-- derive/src/alias.rs:212-257. -/
def alias (t : CountingToBer α) : CountingToBer (Alias α) where
  encoder := .generic
  contentLen v := ((t.contentLen v.inner).1, 1 + (t.contentLen v.inner).2)
  tagInfo v := t.tagInfo v.inner
  writeContent v := t.writeContent v.inner

/-- derive/src/container.rs:525-549: what one field adds to the content length. The length of a tagged field is asked
for twice: `total_len` and `total_len` again (531 and 532), or `total_len` and `content_len` (542 and 543). -/
def addLen (tag : FieldTag) (t : CountingToBer α) (v : α) (acc : WithCalls Length) : WithCalls Length :=
  match tag with
  | .untagged => (acc.1.add (t.totalLen v).1, acc.2 + (t.totalLen v).2)
  | .explicit _ n => ((acc.1.addNat (headerLengthOr0 n (t.totalLen v).1)).add (t.totalLen v).1,
      acc.2 + (t.totalLen v).2 + (t.totalLen v).2)
  | .implicit _ n => ((acc.1.addNat (headerLengthOr0 n (t.totalLen v).1)).add (t.contentLen v).1,
      acc.2 + (t.totalLen v).2 + (t.contentLen v).2)

/-- derive/src/container.rs:616-632: how one field is written. -/
def writeField (tag : FieldTag) (t : CountingToBer α) (v : α) : Wr (WithCalls Nat) :=
  match tag with
  | .untagged => t.encode v
  | .explicit cls n => t.encodeTaggedExplicit cls n v
  | .implicit cls n => t.encodeTaggedImplicit cls n v

end CountingToBer

/-- The fields of a struct (see `EncFields`). -/
inductive CountingFields : List Type → Type 1
  | nil : CountingFields []
  | cons {T : Type} {Ts : List Type} (tag : FieldTag) (t : CountingToBer T) (fs : CountingFields Ts) :
      CountingFields (T :: Ts)

/-- derive/src/container.rs:519-550. -/
def CountingFields.len : {Ts : List Type} → CountingFields Ts → Tup Ts → WithCalls Length → WithCalls Length
  | _, .nil, _, acc => acc
  | _, .cons tag t fs, (v, vs), acc => fs.len vs (t.addLen tag v acc)

/-- derive/src/container.rs:609-642. -/
def CountingFields.write : {Ts : List Type} → CountingFields Ts → Tup Ts → WithCalls Nat → Wr (WithCalls Nat)
  | _, .nil, _, numBytes => pure numBytes
  | _, .cons tag t fs, (v, vs), numBytes => do
    let n ← t.writeField tag v
    fs.write vs (numBytes.1 + n.1, numBytes.2 + n.2)

/-- derive/src/container.rs:653-693 (see `structToBer`). -/
def CountingToBer.struct (tag : Nat) {Ts : List Type} (fs : CountingFields Ts) : CountingToBer (Tup Ts) where
  encoder := .generic
  contentLen v := fs.len v (.definite 0, 1)
  tagInfo _ := (.universal, true, tag)
  writeContent v := fs.write v (0, 0)

/-- The variants of a CHOICE (see `EncVariants`). -/
inductive CountingVariants : List Type → Type 1
  | nil : CountingVariants []
  | cons {T : Type} {Ts : List Type} (tag : Nat) (dyn : T → Class × Bool × Nat) (t : CountingToBer T)
      (vs : CountingVariants Ts) : CountingVariants (T :: Ts)

namespace CountingVariants

/-- derive/src/choice.rs:380-400 `ber_content_len`. -/
def len (k : ChoiceKind) : {Ts : List Type} → CountingVariants Ts → HSum Ts → WithCalls Length
  | _, .cons _ _ t _, .inl x =>
    match k with
    | .explicit => ((t.totalLen x).1, 1 + (t.totalLen x).2)
    | _ => ((t.contentLen x).1, 1 + (t.contentLen x).2)
  | _, .cons _ _ _ vs, .inr x => vs.len k x

/-- derive/src/choice.rs:402-412 `ber_tag_info` (see `EncVariants.info`). -/
def info (k : ChoiceKind) : {Ts : List Type} → CountingVariants Ts → HSum Ts → Class × Bool × Nat
  | _, .cons tag dyn _ _, .inl x =>
    match k with
    | .explicit => (.contextSpecific, true, tag)
    | .implicit => (.contextSpecific, (dyn x).2.1, tag)
    | .untagged => dyn x
  | _, .cons _ _ _ vs, .inr x => vs.info k x

/-- derive/src/choice.rs:414-449 `ber_write_content`. -/
def write (k : ChoiceKind) : {Ts : List Type} → CountingVariants Ts → HSum Ts → Wr (WithCalls Nat)
  | _, .cons _ _ t _, .inl x =>
    match k with
    | .explicit => t.encode x
    | _ => t.writeContent x
  | _, .cons _ _ _ vs, .inr x => vs.write k x

end CountingVariants

/-- derive/src/choice.rs:352-378 (see `choiceToBer`). -/
def CountingToBer.choice (k : ChoiceKind) {Ts : List Type} (vs : CountingVariants Ts) : CountingToBer (HSum Ts) where
  encoder := .generic
  contentLen := vs.len k
  tagInfo := vs.info k
  writeContent := vs.write k

end Asn1

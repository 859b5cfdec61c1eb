import Verif.Model.Containers
/-!
# `Option<T>` inside other types

Lists, sets, arrays and tagged values whose elements are `Option<T>`. The containers call the methods of
`Option<T>` (src/asn1_types/optional.rs); `DynTagged::tag` of a present value does not return
(`optionTag`), so that lengths are optional: `none` if the call has not returned after `fuel` nested calls
of `tag`.
-/
namespace Asn1

variable {α : Type}

/-- `Option<T>` as the element type of a container: `accept_tag` (src/asn1_types/optional.rs:167-169) and
`from_ber_content`, `from_der_content` (64-76, 106-118), which is all that `try_parse_collect`
(src/asn1_types/iterator.rs:85-108, 146-171) uses. -/
def optionItem (p : Parser α) : Parser (Option α) where
  acceptTag := p.acceptTag
  content := optionContent p

/-- src/to_ber.rs:206-212 `ber_length_constructed_items` (and src/to_der.rs:237-243): the sum of the total
lengths (src/length.rs:126-130). -/
def optionItemsLen (fuel : Nat) (t : ToBer α) : List (Option α) → Length → Option Length
  | [], acc => some acc
  | v :: vs, acc =>
    match optionTotalLen t fuel v with
    | none => none
    | some l => optionItemsLen fuel t vs (acc.add l)

/-- The `try_fold` of the containers (src/asn1_types/sequence/vec.rs:197-202), which calls `ber_encode` of
`Option<T>` (src/asn1_types/optional.rs:200-205). -/
def optionItemsWrite (t : ToBer α) : List (Option α) → Nat → Wr Nat
  | [], acc => pure acc
  | v :: vs, acc => do
    let sz ← optionEncode t v
    optionItemsWrite t vs (acc + sz)

/-- What `to_ber_vec` (src/to_ber.rs:112-116) leaves in the vector. -/
def Wr.toVec (w : Wr Nat) : Except SerErr Bytes :=
  match w.exec with
  | (bs, .ok _) => .ok bs
  | (_, .error e) => .error e

/-- `to_ber_vec` and `to_der_vec` of a container of `Option<T>`: `ber_encode` (src/to_ber.rs:66-70) with the
methods of `Vec`, arrays, `SequenceOf` (tag 16), `SetOf`, `BTreeSet`, `HashSet` (tag 17); the citations are
those of `listToBer`. -/
def optionListToVec (fuel : Nat) (tag : Nat) (t : ToBer α) (vs : List (Option α)) :
    Option (Except SerErr Bytes) :=
  (optionItemsLen fuel t vs (.definite 0)).map fun len => Wr.toVec do
    let n1 ← EncoderKind.constructed.writeTagInfo .universal true tag
    let n2 ← writeLength len
    let n3 ← optionItemsWrite t vs 0
    pure (n1 + n2 + n3)

/-- `to_ber_vec` of `IndefiniteVec<Option<T>>` (src/to_ber/constructed_indefinite.rs:58-81). -/
def optionIndefToVec (t : ToBer α) (vs : List (Option α)) : Except SerErr Bytes :=
  Wr.toVec do
    let n1 ← EncoderKind.constructedIndefinite.writeTagInfo .universal true 16
    let n2 ← writeLength .indefinite
    let n3 ← optionItemsWrite t vs 0
    Wr.writeAll [0, 0]
    pure (n1 + n2 + (n3 + 2))

/-- `to_ber_vec` and `to_der_vec` of `TaggedExplicit<Option<T>>` (src/asn1_types/tagged/explicit.rs:174-215):
the length of the content uses the tag of the inner value. -/
def optionExplicitToVec (fuel : Nat) (cls : Class) (tag : Nat) (t : ToBer α) (v : Option α) :
    Option (Except SerErr Bytes) :=
  (optionTotalLen t fuel v).map fun len => Wr.toVec do
    let n1 ← EncoderKind.generic.writeTagInfo cls true tag
    let n2 ← writeLength len
    let n3 ← optionEncode t v
    pure (n1 + n2 + n3)

/-- `to_ber_vec` and `to_der_vec` of `TaggedImplicit<Option<T>>` (src/asn1_types/tagged/implicit.rs:184-223):
the content is that of the inner value, and the constructed bit is `constructed()` of the `Option`
(implicit.rs:13-17), which is the default method of `DynTagged` (src/tag.rs:117-119): false. -/
def optionImplicitToVec (cls : Class) (tag : Nat) (t : ToBer α) (v : Option α) : Except SerErr Bytes :=
  Wr.toVec do
    let n1 ← EncoderKind.generic.writeTagInfo cls false tag
    let n2 ← writeLength (optionContentLen t v)
    let n3 ← optionWriteContent t v
    pure (n1 + n2 + n3)

end Asn1

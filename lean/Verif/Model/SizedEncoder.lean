import Verif.Model.EncodeWork
/-!
# Encoders that compute with `usize`

The encoders again, with the additions of `usize` as the machine makes them. The other models of the encoders compute
with unbounded numbers. Every function has the shape of the one it stands for; `none` is a panic while a length is
computed.
-/
namespace Asn1

/-- How a program is built: the number of bits of `usize`, and whether an addition that overflows panics
(`overflow-checks`, on in debug builds and off in release builds, where the result wraps around). -/
structure Arith where
  bits : Nat
  checked : Bool
  deriving DecidableEq, Repr

namespace Arith

/-- A number where a `usize` is wanted. -/
def fit (u : Arith) (n : Nat) : Option Nat :=
  if n < 2 ^ u.bits then some n else if u.checked then none else some (n % 2 ^ u.bits)

/-- `a + b` of `usize`. -/
def add (u : Arith) (a b : Nat) : Option Nat := u.fit (a + b)

/-- src/length.rs:71-83 `Add<Length> for Length` (see `Length.add`). -/
def lenAdd (u : Arith) (a b : Length) : Option Length :=
  match a with
  | .indefinite => some a
  | .definite lhs =>
    match b with
    | .indefinite => some b
    | .definite rhs => (u.add lhs rhs).map .definite

/-- src/length.rs:95-104 and 106-115 `Add<usize> for Length` and `Add<Length> for usize` (see `Length.addNat`). -/
def lenAddNat (u : Arith) (a : Length) (n : Nat) : Option Length :=
  match a with
  | .definite lhs => (u.add lhs n).map .definite
  | .indefinite => some a

/-- The length of the content of a universal type. The ones that are computed by an addition or a multiplication
(src/asn1_types/bitstring.rs:192, src/asn1_types/strings/universalstring.rs:140) may overflow. -/
def fitLen (u : Arith) : Length → Option Length
  | .definite n => (u.fit n).map .definite
  | .indefinite => some .indefinite

/-- src/to_ber.rs:186-189 `ber_total_length` (see `berTotalLength`; the length of a header is small). -/
def totalLength (u : Arith) (tag : Nat) (contentLength : Length) : Option Length :=
  u.lenAddNat contentLength (headerLengthOr0 tag contentLength)

end Arith

/-- A panic stops the program. -/
def Wr.ofOption {α : Type} : Option α → Wr α
  | some a => .done a
  | none => .fail .panic

/-- src/to_ber.rs:23-47 `ToBer`. -/
structure SizedToBer (α : Type) where
  encoder : EncoderKind
  contentLen : α → Option Length
  tagInfo : α → Class × Bool × Nat
  writeContent : α → Wr Nat

namespace SizedToBer
variable {α σ : Type}

/-- src/to_ber.rs:32-36 `ber_total_len`. -/
def totalLen (u : Arith) (t : SizedToBer α) (v : α) : Option Length :=
  (t.contentLen v).bind (u.totalLength (t.tagInfo v).2.2)

/-- src/to_ber.rs:49-61 `ber_write_header`: the length is computed after the tag is written. -/
def writeHeader (u : Arith) (t : SizedToBer α) (v : α) : Wr Nat := do
  let info := t.tagInfo v
  let n1 ← t.encoder.writeTagInfo info.1 info.2.1 info.2.2
  let length ← Wr.ofOption (t.contentLen v)
  let n2 ← writeLength length
  Wr.ofOption (u.add n1 n2)

/-- src/to_ber.rs:66-70 `ber_encode`. -/
def encode (u : Arith) (t : SizedToBer α) (v : α) : Wr Nat := do
  let n1 ← t.writeHeader u v
  let n2 ← t.writeContent v
  Wr.ofOption (u.add n1 n2)

/-- src/to_ber.rs:112-116 `to_ber_vec`. -/
def toVec (u : Arith) (t : SizedToBer α) (v : α) : Except SerErr Bytes :=
  match (t.encode u v).exec with
  | (bs, .ok _) => .ok bs
  | (_, .error e) => .error e

/-- src/header.rs:413-427 `ToBer for Header`. -/
def header : SizedToBer Header where
  encoder := .generic
  contentLen h := some h.length
  tagInfo h := (h.cls, h.constructed, h.tag)
  writeContent _ := pure 0

/-- src/to_ber.rs:77-90 `ber_encode_tagged_explicit`. -/
def encodeTaggedExplicit (u : Arith) (t : SizedToBer α) (cls : Class) (tag : Nat) (v : α) : Wr Nat := do
  let length ← Wr.ofOption (t.totalLen u v)
  let taggedHeader := Header.new cls true tag length
  let n1 ← header.writeHeader u taggedHeader
  let n2 ← t.writeHeader u v
  let n12 ← Wr.ofOption (u.add n1 n2)
  let n3 ← t.writeContent v
  Wr.ofOption (u.add n12 n3)

/-- src/to_ber.rs:97-109 `ber_encode_tagged_implicit`. -/
def encodeTaggedImplicit (u : Arith) (t : SizedToBer α) (cls : Class) (tag : Nat) (v : α) : Wr Nat := do
  let length ← Wr.ofOption (t.contentLen v)
  let info := t.tagInfo v
  let taggedHeader := Header.new cls info.2.1 tag length
  let n1 ← header.writeHeader u taggedHeader
  let n2 ← t.writeContent v
  Wr.ofOption (u.add n1 n2)

/-- src/to_ber.rs:206-212 `ber_length_constructed_items` with src/length.rs:126-130 `Sum for Length`. -/
def lengthItems (u : Arith) (t : SizedToBer α) : List α → Length → Option Length
  | [], acc => some acc
  | v :: vs, acc => do
    let total ← t.totalLen u v
    let acc ← u.lenAdd acc total
    t.lengthItems u vs acc

/-- The `try_fold` of the containers (see `ToBer.writeItems`). -/
def writeItems (u : Arith) (t : SizedToBer α) : List α → Nat → Wr Nat
  | [], acc => pure acc
  | v :: vs, acc => do
    let sz ← t.encode u v
    let acc ← Wr.ofOption (u.add acc sz)
    t.writeItems u vs acc

/-- A universal type. -/
def leaf (u : Arith) (t : ToBer α) : SizedToBer α where
  encoder := t.encoder
  contentLen v := u.fitLen (t.contentLen v)
  tagInfo := t.tagInfo
  writeContent v := do
    let n ← t.writeContent v
    Wr.ofOption (u.fit n)

/-- The containers (see `listToBer`, `setToBer`, `arrayToBer`, `anySetToBer`); `toList` gives the items. -/
def items (u : Arith) (tag : Nat) (toList : σ → List α) (t : SizedToBer α) : SizedToBer σ where
  encoder := .constructed
  contentLen s := t.lengthItems u (toList s) (.definite 0)
  tagInfo _ := (.universal, true, tag)
  writeContent s := t.writeItems u (toList s) 0

/-- src/to_ber/constructed_indefinite.rs:41-81 (see `indefToBer`). -/
def indef (u : Arith) (t : SizedToBer α) : SizedToBer (List α) where
  encoder := .constructedIndefinite
  contentLen _ := some .indefinite
  tagInfo _ := (.universal, true, 16)
  writeContent vs := do
    let sz ← t.writeItems u vs 0
    Wr.writeAll [0, 0]
    Wr.ofOption (u.add sz 2)

/-- src/asn1_types/tagged/explicit.rs:174-217 (see `explicitToBer`). -/
def explicit (u : Arith) (cls : Class) (tag : Nat) (dynTag : α → Nat) (t : SizedToBer α) :
    SizedToBer (TaggedValue α) where
  encoder := .generic
  contentLen v := (t.contentLen v.inner).bind (u.totalLength (dynTag v.inner))
  tagInfo _ := (cls, true, tag)
  writeContent v := t.encode u v.inner

/-- src/asn1_types/tagged/implicit.rs:184-222 (see `implicitToBer`). -/
def implicit (cls : Class) (tag : Nat) (dynConstructed : α → Bool) (t : SizedToBer α) :
    SizedToBer (TaggedValue α) where
  encoder := .generic
  contentLen v := t.contentLen v.inner
  tagInfo v := (cls, dynConstructed v.inner, tag)
  writeContent v := t.writeContent v.inner

/-- derive/src/alias.rs:212-257 (see `aliasToBer`). -/
def alias (t : SizedToBer α) : SizedToBer (Alias α) where
  encoder := .generic
  contentLen v := t.contentLen v.inner
  tagInfo v := t.tagInfo v.inner
  writeContent v := t.writeContent v.inner

/-- derive/src/container.rs:525-549: what one field adds to the content length. -/
def addLen (u : Arith) (tag : FieldTag) (t : SizedToBer α) (v : α) (acc : Length) : Option Length :=
  match tag with
  | .untagged => do
    let total ← t.totalLen u v
    u.lenAdd acc total
  | .explicit _ n => do
    let total ← t.totalLen u v
    let acc ← u.lenAddNat acc (headerLengthOr0 n total)
    u.lenAdd acc total
  | .implicit _ n => do
    let total ← t.totalLen u v
    let acc ← u.lenAddNat acc (headerLengthOr0 n total)
    let content ← t.contentLen v
    u.lenAdd acc content

/-- derive/src/container.rs:616-632: how one field is written. -/
def writeField (u : Arith) (tag : FieldTag) (t : SizedToBer α) (v : α) : Wr Nat :=
  match tag with
  | .untagged => t.encode u v
  | .explicit cls n => t.encodeTaggedExplicit u cls n v
  | .implicit cls n => t.encodeTaggedImplicit u cls n v

end SizedToBer

/-- The fields of a struct (see `EncFields`). -/
inductive SizedFields : List Type → Type 1
  | nil : SizedFields []
  | cons {T : Type} {Ts : List Type} (tag : FieldTag) (t : SizedToBer T) (fs : SizedFields Ts) : SizedFields (T :: Ts)

/-- derive/src/container.rs:519-550. -/
def SizedFields.len (u : Arith) : {Ts : List Type} → SizedFields Ts → Tup Ts → Length → Option Length
  | _, .nil, _, acc => some acc
  | _, .cons tag t fs, (v, vs), acc => do
    let acc ← t.addLen u tag v acc
    fs.len u vs acc

/-- derive/src/container.rs:609-642. -/
def SizedFields.write (u : Arith) : {Ts : List Type} → SizedFields Ts → Tup Ts → Nat → Wr Nat
  | _, .nil, _, numBytes => pure numBytes
  | _, .cons tag t fs, (v, vs), numBytes => do
    let n ← t.writeField u tag v
    let numBytes ← Wr.ofOption (u.add numBytes n)
    fs.write u vs numBytes

/-- derive/src/container.rs:653-693 (see `structToBer`). -/
def SizedToBer.struct (u : Arith) (tag : Nat) {Ts : List Type} (fs : SizedFields Ts) : SizedToBer (Tup Ts) where
  encoder := .generic
  contentLen v := fs.len u v (.definite 0)
  tagInfo _ := (.universal, true, tag)
  writeContent v := fs.write u v 0

/-- The variants of a CHOICE (see `EncVariants`). -/
inductive SizedVariants : List Type → Type 1
  | nil : SizedVariants []
  | cons {T : Type} {Ts : List Type} (tag : Nat) (dyn : T → Class × Bool × Nat) (t : SizedToBer T)
      (vs : SizedVariants Ts) : SizedVariants (T :: Ts)

namespace SizedVariants

/-- derive/src/choice.rs:380-400 `ber_content_len`. -/
def len (u : Arith) (k : ChoiceKind) : {Ts : List Type} → SizedVariants Ts → HSum Ts → Option Length
  | _, .cons _ _ t _, .inl x =>
    match k with
    | .explicit => t.totalLen u x
    | _ => t.contentLen x
  | _, .cons _ _ _ vs, .inr x => vs.len u k x

/-- derive/src/choice.rs:402-412 `ber_tag_info` (see `EncVariants.info`). -/
def info (k : ChoiceKind) : {Ts : List Type} → SizedVariants Ts → HSum Ts → Class × Bool × Nat
  | _, .cons tag dyn _ _, .inl x =>
    match k with
    | .explicit => (.contextSpecific, true, tag)
    | .implicit => (.contextSpecific, (dyn x).2.1, tag)
    | .untagged => dyn x
  | _, .cons _ _ _ vs, .inr x => vs.info k x

/-- derive/src/choice.rs:414-449 `ber_write_content`. -/
def write (u : Arith) (k : ChoiceKind) : {Ts : List Type} → SizedVariants Ts → HSum Ts → Wr Nat
  | _, .cons _ _ t _, .inl x =>
    match k with
    | .explicit => t.encode u x
    | _ => t.writeContent x
  | _, .cons _ _ _ vs, .inr x => vs.write u k x

end SizedVariants

/-- derive/src/choice.rs:352-378 (see `choiceToBer`). -/
def SizedToBer.choice (u : Arith) (k : ChoiceKind) {Ts : List Type} (vs : SizedVariants Ts) :
    SizedToBer (HSum Ts) where
  encoder := .generic
  contentLen := vs.len u k
  tagInfo := vs.info k
  writeContent := vs.write u k

end Asn1

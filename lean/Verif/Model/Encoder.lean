import Verif.Model.Writer
import Verif.Model.Header
/-!
# Header encoders and the `ToBer` / `ToDer` traits
-/
namespace Asn1

/-- src/to_ber/encoder.rs:62-71: the loop that fills the buffer from right to left.
`idx` is `current_index`, `buf` is `buffer[current_index..]`. -/
def tagBuf : Nat → Nat → Bytes → Except SerErr Bytes
  | 0, val, buf => if val > 0 then .error .panic else .ok buf -- `current_index -= 1` underflow
  | idx + 1, val, buf =>
    if val > 0 then
      if idx = 0 then .error .tagTooLong
      else tagBuf idx (val >>> 7) ((UInt8.ofNat (val &&& 0x7f) ||| 0x80) :: buf)
    else .ok buf

/-- src/to_ber/encoder.rs:28-80 `write_tag_generic`. -/
def writeTagGeneric (cls : Class) (constructed : Bool) (tag : Nat) : Wr Nat :=
  let c := UInt8.ofNat cls.toNat
  let cs : UInt8 := if constructed then 0x20 else 0
  if tag < 31 then do
    let b0 := (c <<< 6) ||| cs ||| UInt8.ofNat tag
    Wr.writeAll [b0]
    pure 1
  else do
    let b0 := (c <<< 6) ||| cs ||| 0x1f
    Wr.writeAll [b0]
    match tagBuf 7 (tag >>> 7) [UInt8.ofNat (tag &&& 0x7f)] with
    | .error e => .fail e
    | .ok buf => do
      Wr.writeAll buf
      pure (1 + buf.length)

/-- src/to_ber/encoder.rs:83-119 `write_length`. The loop `while b[idx] == 0` is `dropWhile`;
running past the end would be a panic. -/
def writeLength (length : Length) : Wr Nat :=
  match length with
  | .indefinite => do
    Wr.writeAll [0x80]
    pure 1
  | .definite n =>
    if n ≤ 127 then do
      Wr.writeAll [UInt8.ofNat n]
      pure 1
    else
      let b := (toBE 8 n).dropWhile (· == 0)
      if b.isEmpty then .fail .panic
      else do
        Wr.writeAll [0x80 ||| UInt8.ofNat b.length]
        Wr.writeAll b
        pure (1 + b.length)

/-- The implementations of `BerEncoder`: src/to_ber/generic.rs:19-23 (generic),
constructed.rs:22-36, constructed_indefinite.rs:24-38, primitive.rs:23-37. -/
inductive EncoderKind where
  | generic
  | constructed
  | constructedIndefinite
  | primitive (tag : Nat)
  deriving DecidableEq, Repr

/-- `BerEncoder::write_tag_info` of each encoder (same citations as `EncoderKind`;
default in src/to_ber/encoder.rs:15-23). -/
def EncoderKind.writeTagInfo (e : EncoderKind) (cls : Class) (constructed : Bool) (tag : Nat) :
    Wr Nat :=
  match e with
  | .generic => writeTagGeneric cls constructed tag
  | .constructed => writeTagGeneric cls true tag
  | .constructedIndefinite => writeTagGeneric cls true tag
  | .primitive t => writeTagGeneric .universal false t

/-- src/to_ber.rs:23-124 `ToBer` / src/to_der.rs:39-158 `ToDer`: the required methods.
Both traits have the same shape and the same default methods; one record serves for both.
(Only `Option<T>` overrides a default method; it is modelled apart.) -/
structure ToBer (α : Type) where
  encoder : EncoderKind
  contentLen : α → Length
  tagInfo : α → Class × Bool × Nat
  writeContent : α → Wr Nat

/-- src/to_ber.rs:153-167: the loop of `ber_tag_length`. Fuel: a `u32` needs at most five
septets; the value itself is enough fuel. -/
def tagLengthLoop : Nat → Nat → Nat → Nat
  | 0, _, sz => sz + 1
  | fuel + 1, val, sz => if val ≤ 127 then sz + 1 else tagLengthLoop fuel (val >>> 7) (sz + 1)

/-- src/to_ber.rs:151-167 `ber_tag_length`. -/
def berTagLength (tag : Nat) : Nat :=
  if tag ≤ 30 then 1 else tagLengthLoop tag tag 1

/-- src/to_ber.rs:170-181 `ber_length_length`. -/
def berLengthLength (l : Length) : Except InnerError Nat :=
  match l with
  | .indefinite => .ok 1
  | .definite l =>
    if l ≤ 0x7f then .ok 1
    else if l ≤ 0xff then .ok 2
    else if l ≤ 0xffff then .ok 3
    else if l ≤ 0xffffffff then .ok 4
    else .error .invalidLength

/-- src/to_ber.rs:194-198 `ber_header_length`. -/
def berHeaderLength (tag : Nat) (length : Length) : Except InnerError Nat := do
  let sz := berTagLength tag
  let l ← berLengthLength length
  pure (sz + l)

/-- src/to_ber.rs:186-189 `ber_total_length` (`unwrap_or(0)`). -/
def berTotalLength (tag : Nat) (contentLength : Length) : Length :=
  let headerLen := match berHeaderLength tag contentLength with
    | .ok n => n
    | .error _ => 0
  contentLength.addNat headerLen

namespace ToBer
variable {α : Type}

/-- src/to_ber.rs:32-36 `ber_total_len`. -/
def totalLen (t : ToBer α) (v : α) : Length :=
  berTotalLength (t.tagInfo v).2.2 (t.contentLen v)

/-- src/to_ber.rs:49-61 `ber_write_header`. -/
def writeHeader (t : ToBer α) (v : α) : Wr Nat := do
  let info := t.tagInfo v
  let n1 ← t.encoder.writeTagInfo info.1 info.2.1 info.2.2
  let n2 ← writeLength (t.contentLen v)
  pure (n1 + n2)

/-- src/to_ber.rs:66-70 `ber_encode`. -/
def encode (t : ToBer α) (v : α) : Wr Nat := do
  let n1 ← t.writeHeader v
  let n2 ← t.writeContent v
  pure (n1 + n2)

/-- src/to_ber.rs:112-116 `to_ber_vec`: bytes left in the `Vec`, if encoding succeeded. -/
def toVec (t : ToBer α) (v : α) : Except SerErr Bytes :=
  match (t.encode v).exec with
  | (bs, .ok _) => .ok bs
  | (_, .error e) => .error e

end ToBer

/-- src/header.rs:413-427 `ToBer for Header` (same as `ToDer`, 429-443). -/
def headerToBer : ToBer Header where
  encoder := .generic
  contentLen h := h.length
  tagInfo h := (h.cls, h.constructed, h.tag)
  writeContent _ := pure 0

namespace ToBer
variable {α : Type}

/-- src/to_ber.rs:77-90 `ber_encode_tagged_explicit`. -/
def encodeTaggedExplicit (t : ToBer α) (cls : Class) (tag : Nat) (v : α) : Wr Nat := do
  let length := t.totalLen v
  let taggedHeader := Header.new cls true tag length
  let n1 ← headerToBer.writeHeader taggedHeader
  let n2 ← t.writeHeader v
  let n3 ← t.writeContent v
  pure (n1 + n2 + n3)

/-- src/to_ber.rs:97-109 `ber_encode_tagged_implicit`. -/
def encodeTaggedImplicit (t : ToBer α) (cls : Class) (tag : Nat) (v : α) : Wr Nat := do
  let length := t.contentLen v
  let info := t.tagInfo v
  let taggedHeader := Header.new cls info.2.1 tag length
  let n1 ← headerToBer.writeHeader taggedHeader
  let n2 ← t.writeContent v
  pure (n1 + n2)

/-- src/to_ber.rs:206-212 `ber_length_constructed_items` (same as
`der_length_constructed_items`, src/to_der.rs:237-243). -/
def lengthItems (t : ToBer α) (vs : List α) : Length := Length.sum (vs.map t.totalLen)

/-- The `try_fold` used by the containers to write their items one after the other
(e.g. src/asn1_types/sequence/vec.rs, src/to_ber/constructed_indefinite.rs:69-73). -/
def writeItems (t : ToBer α) : List α → Nat → Wr Nat
  | [], acc => pure acc
  | v :: vs, acc => do
    let sz ← t.encode v
    writeItems t vs (acc + sz)

end ToBer
end Asn1

import Verif.Model.Typed
import Verif.Spec.Header
/-!
# What "encoding then decoding" means, for every type at once
-/
namespace Asn1.Spec
open Asn1

variable {α : Type}

/-- Encoding `v` succeeds with some bytes `bs`; whatever bytes `rest` follow them, `parse_ber`
returns `w`, and what remains of the input is `rest` (with its position). -/
def ParseBerBack (t : ToBer α) (p : Parser α) (v w : α) : Prop :=
  ∃ bs, t.toVec v = .ok bs ∧ ∀ (rest : Bytes) (i : Input), i.data = bs ++ rest →
    p.parseBer i = .ok (after i bs.length, w)

/-- The same for `parse_der`. -/
def ParseDerBack (t : ToBer α) (p : Parser α) (v w : α) : Prop :=
  ∃ bs, t.toVec v = .ok bs ∧ ∀ (rest : Bytes) (i : Input), i.data = bs ++ rest →
    p.parseDer i = .ok (after i bs.length, w)

/-- The same for `from_ber`, on bytes. -/
def FromBerBack (t : ToBer α) (p : Parser α) (v w : α) : Prop :=
  ∃ bs, t.toVec v = .ok bs ∧ ∀ rest : Bytes, fromBer p (bs ++ rest) = .ok (rest, w)

/-- The same for `from_der`, on bytes. -/
def FromDerBack (t : ToBer α) (p : Parser α) (check : Any → Except SErr Unit) (v w : α) : Prop :=
  ∃ bs, t.toVec v = .ok bs ∧ ∀ rest : Bytes, fromDer p check (bs ++ rest) = .ok (rest, w)

/-- `from_der` on `bytes` never panics and never loops. -/
def NoPanicS {β : Type} (x : Except SErr β) : Prop := x ≠ .error .panic ∧ x ≠ .error .diverge
/-- The same for the parser API. -/
def NoPanic {β : Type} (x : Except PErr β) : Prop := x ≠ .error .panic ∧ x ≠ .error .diverge

/-- Encoding `v` writes some content bytes `cs`, preceded by a header `hd`; the content length
announced before writing is the number of content bytes, and the counts returned by the content
writer, the header writer and the encoder are the numbers of bytes they wrote. When the content has
fewer than `2^24` bytes, the announced total length is the size of the whole encoding. -/
def LengthsRight (t : ToBer α) (v : α) : Prop :=
  ∃ hd cs, (t.writeContent v).exec = (cs, .ok cs.length) ∧
    t.contentLen v = .definite cs.length ∧
    (t.writeHeader v).exec = (hd, .ok hd.length) ∧
    (t.encode v).exec = (hd ++ cs, .ok (hd ++ cs).length) ∧
    (cs.length < 2 ^ 24 → t.totalLen v = .definite (hd ++ cs).length)

/-- Against any writer, the encoder does exactly what it does against a writer that never fails,
or it returns the writer's error and what the writer accepted is a prefix of what would have been
written. -/
def FaultTolerant (t : ToBer α) (v : α) : Prop :=
  ∀ w : Wr.Writer, Wr.runFaulty w (t.encode v) [] = (t.encode v).exec ∨
    ((Wr.runFaulty w (t.encode v) []).2 = .error .io ∧
      (Wr.runFaulty w (t.encode v) []).1 <+: ((t.encode v).exec).1)

/-- The same for a writing function: against any writer it does exactly what it does against a writer
that never fails, or returns the writer's error after a prefix of these bytes was accepted. -/
def Tolerant {β : Type} (x : Wr β) : Prop :=
  ∀ w : Wr.Writer, Wr.runFaulty w x [] = x.exec ∨
    ((Wr.runFaulty w x []).2 = .error .io ∧ (Wr.runFaulty w x []).1 <+: x.exec.1)

/-- Among the values with property `P`, no encoding is a prefix of the encoding of another
value. -/
def PrefixFree (t : ToBer α) (P : α → Prop) : Prop :=
  ∀ v w bv bw, P v → P w → t.toVec v = .ok bv → t.toVec w = .ok bw → bv <+: bw → v = w

/-- Encoding `v` succeeds with some bytes `bs`; whatever bytes `rest` follow them, the parser `f`
returns `w`, and what remains of the input is `rest` (with its position). -/
def InputBack {β : Type} (t : ToBer α) (f : Input → PRes β) (v : α) (w : β) : Prop :=
  ∃ bs, t.toVec v = .ok bs ∧ ∀ (rest : Bytes) (i : Input), i.data = bs ++ rest →
    f i = .ok (after i bs.length, w)

/-- The same for a decoder on bytes. -/
def BytesBack {β : Type} (t : ToBer α) (f : Bytes → Except SErr (Bytes × β)) (v : α) (w : β) :
    Prop :=
  ∃ bs, t.toVec v = .ok bs ∧ ∀ rest : Bytes, f (bs ++ rest) = .ok (rest, w)

/-- The content announced for `v` has a definite length, of fewer than `2^24` bytes (beyond that
the announced total length is wrong, see C18). -/
def SmallContent (t : ToBer α) (v : α) : Prop := ∃ n, t.contentLen v = .definite n ∧ n < 2 ^ 24

/-- The contents `cs` of an object of definite length are read as `v`, whatever the tag and class
of the object. -/
def Decodes (p : Parser α) (constructed : Bool) (cs : Bytes) (v : α) : Prop :=
  ∀ (h : Header) (data : Input), h.constructed = constructed → h.length = .definite cs.length →
    data.data = cs → ∃ x, p.content h data = .ok (x, v)

/-- The four decoders of a type return a value or an error on every input. -/
def Total (pb pd : Parser α) (check : Any → Except SErr Unit) : Prop :=
  (∀ i, NoPanic (pb.parseBer i)) ∧ (∀ i, NoPanic (pd.parseDer i)) ∧
  (∀ bytes, NoPanicS (fromBer pb bytes)) ∧ (∀ bytes, NoPanicS (fromDer pb check bytes))

end Asn1.Spec

import Verif.Model.Error
/-!
# Specification of BER identifier and length octets (X.690 8.1.2, 8.1.3)

This file does not mention the parser or the encoder. It uses arithmetic (not bit operations)
and refers only to the data types `Class`, `Length`, and byte strings.
-/
namespace Asn1.Spec
open Asn1

/-- Class number in bits 8-7 of the first identifier octet. -/
def classBits : Class → Nat
  | .universal => 0 | .application => 1 | .contextSpecific => 2 | .priv => 3

/-- First identifier octet with the five low bits `low`. -/
def identByte (c : Class) (constructed : Bool) (low : Nat) : Nat :=
  classBits c * 64 + (if constructed then 32 else 0) + low

/-- Number denoted by base-128 digits carried in the 7 low bits of each byte,
most significant first. -/
def base128 (bs : Bytes) : Nat := bs.foldl (fun a b => a * 128 + b.toNat % 128) 0

/-- A base-128 group: every byte but the last has the top bit set, the last has it clear. -/
def IsGroup (bs : Bytes) : Prop :=
  ∃ init last, bs = init ++ [last] ∧ (∀ b ∈ init, 128 ≤ b.toNat) ∧ last.toNat < 128

/-- Identifier octets accepted by asn1-rs: X.690 8.1.2 with at most five subsequent octets,
the tag number being kept modulo `2^32`. -/
inductive Ident (c : Class) (p : Bool) (tag : Nat) : Bytes → Prop where
  | low (b : UInt8) (h : tag < 31) (hb : b.toNat = identByte c p tag) : Ident c p tag [b]
  | high (b : UInt8) (bs : Bytes) (hb : b.toNat = identByte c p 31) (hg : IsGroup bs)
      (hl : bs.length ≤ 5) (ht : tag = base128 bs % 2 ^ 32) : Ident c p tag (b :: bs)

/-- Identifier octets of X.690 8.1.2, without the limits and liberties of asn1-rs: tag numbers
up to 30 take one octet; from 31 on the base-128 group must not start with a zero digit and
may have any length. -/
inductive X690Ident (c : Class) (p : Bool) (tag : Nat) : Bytes → Prop where
  | low (b : UInt8) (h : tag < 31) (hb : b.toNat = identByte c p tag) : X690Ident c p tag [b]
  | high (b : UInt8) (bs : Bytes) (hb : b.toNat = identByte c p 31) (hg : IsGroup bs)
      (h31 : 31 ≤ tag) (ht : tag = base128 bs) (hz : ∀ x xs, bs = x :: xs → x.toNat ≠ 128) :
      X690Ident c p tag (b :: bs)

/-- Length octets (X.690 8.1.3); the indefinite form needs a constructed encoding; a long form
has 1 to 126 subsequent octets and denotes a number below `2^64`. -/
inductive Len (constructed : Bool) (l : Length) : Bytes → Prop where
  | short (b : UInt8) (h : b.toNat < 128) (hl : l = .definite b.toNat) : Len constructed l [b]
  | indefinite (b : UInt8) (hb : b.toNat = 128) (hc : constructed = true)
      (hl : l = .indefinite) : Len constructed l [b]
  | long (b : UInt8) (bs : Bytes) (hb : b.toNat = 128 + bs.length) (h0 : 1 ≤ bs.length)
      (h1 : bs.length ≤ 126) (hv : beNat bs < 2 ^ 64) (hl : l = .definite (beNat bs)) :
      Len constructed l (b :: bs)

/-- Position `k` bytes further in the same input. -/
def after (i : Input) (k : Nat) : Input := ⟨i.data.drop k, i.start + k, i.stop⟩

/-- The first `k` bytes of the input, with their span. -/
def first (i : Input) (k : Nat) : Input := ⟨i.data.take k, i.start, i.start + k⟩

/-- The same input with `y` appended at the end. -/
def extend (i : Input) (y : Bytes) : Input := ⟨i.data ++ y, i.start, i.stop + y.length⟩

/-- The span of the input covers exactly its bytes. -/
def WF (i : Input) : Prop := i.stop = i.start + i.data.length

end Asn1.Spec

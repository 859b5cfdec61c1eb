import Verif.Spec.SetOrder
import Verif.Props.DeriveWrite
/-!
# C133: the order of the components of a derived SET
-/
namespace Asn1
open Asn1.Spec

variable {m : Rules}

/-- The tag numbers of the first objects of an input, as many as there are in the other list. -/
theorem firstTags_unique {i : Input} {ts us : List Nat} (h : FirstTags m i ts) (hu : FirstTags m i us)
    (hl : us.length = ts.length) : us = ts := by
  induction h generalizing us with
  | nil => exact List.length_eq_zero_iff.mp hl
  | cons h htag ht ih =>
    cases hu with
    | nil => simp at hl
    | cons h' htag' ht' =>
      rw [h] at h'
      cases h'
      subst htag htag'
      rw [ih ht' (by simpa using hl)]

theorem plain_firstTags {Ts : List Type} {fs : Fields Ts} {ts : List Nat} (hp : TaggedBy fs ts)
    {i e : Input} {v : Tup Ts} (h : ReadsFields m fs i v e) : FirstTags m i ts := by
  induction hp generalizing i e with
  | nil => exact .nil
  | cons hp _ ih =>
    cases h with
    | cons h ht =>
      cases (show ReadsAs m _ .untagged _ _ _ from h) with
      | untagged h =>
        obtain ⟨a, x, h1, h2, _⟩ := rules_parse_ok.mp h
        exact .cons h1 ((hp _).mp h2) (ih ht)

/-- **C133** (partial) If a struct derived as SET (or SEQUENCE) whose fields are all required and untagged
is decoded, its components come in the order of declaration. Missing: the orders that X.690 allows for a
SET (any in BER, that of the tags in DER), which are refused (`C133_other_order_deviation`). -/
theorem C133_declared_order_partial {Ts : List Type} (m : Rules) (tag : Nat) (fs : Fields Ts) (ts : List Nat)
    (hp : TaggedBy fs ts) (i r : Input) (v : Tup Ts) (h : m.parse (structP m tag fs) i = .ok (r, v)) :
    ∃ a, m.any i = .ok (r, a) ∧ FirstTags m a.data ts := by
  obtain ⟨a, e, h1, _, _, h4⟩ := (C76_struct_accepts m tag fs i r v).mp h
  exact ⟨a, h1, plain_firstTags hp h4⟩

/-- **C133** (deviation) An object whose components have the tags of the fields in any other order is
refused by the BER decoder and by the DER decoder. -/
theorem C133_other_order_deviation {Ts : List Type} (m : Rules) (tag : Nat) (fs : Fields Ts)
    (ts us : List Nat) (hp : TaggedBy fs ts) (hu : us.Perm ts) (hne : us ≠ ts) (i r : Input) (a : Any)
    (h : m.any i = .ok (r, a)) (hs : FirstTags m a.data us) :
    ∀ r' v, m.parse (structP m tag fs) i ≠ .ok (r', v) := by
  intro r' v hv
  obtain ⟨a', h1, h2⟩ := C133_declared_order_partial m tag fs ts hp i r' v hv
  rw [h] at h1
  cases h1
  exact hne (firstTags_unique h2 hs hu.length_eq)

/-- The fields of `struct S { a: u8, b: bool }` for the decoders and the encoder. -/
def numberFlag : Rules → Fields [Nat, Bool]
  | .ber => .cons (.required .untagged (uintBer 1)) (.cons (.required .untagged boolBer) .nil)
  | .der => .cons (.required .untagged (uintDer 1)) (.cons (.required .untagged boolDer) .nil)

@[inherit_doc numberFlag]
def numberFlagEnc : EncFields [Nat, Bool] := .cons .untagged (uintToBer 1) (.cons .untagged boolToBer .nil)

/-- The hypotheses are met by this struct. -/
theorem numberFlag_tags (m : Rules) : TaggedBy (numberFlag m) [2, 1] := by
  cases m
  all_goals
    exact .cons (fun g => tagIs_iff (t := 2)) (.cons (fun g => tagIs_iff (t := 1)) .nil)

local instance : DecidableEq (Tup [Nat, Bool]) := inferInstanceAs (DecidableEq (Nat × Bool × Unit))

/-- **C133** (deviation) `struct S { a: u8, b: bool }` derived as SET writes the INTEGER before the
BOOLEAN, although DER (X.690 10.3) orders the components of a SET by their tags; what it writes is read by
both decoders, and the object that X.690 demands is refused by both. -/
theorem C133_der_order_deviation (n : Nat) (hn : n < 128) (b : Bool) :
    let B : UInt8 := if b then 0xff else 0
    ((structToBer 17 numberFlagEnc).encode (n, b, ())).exec =
      ([0x31, 6, 2, 1, UInt8.ofNat n, 1, 1, B], .ok 8) ∧
    ∀ m : Rules,
      m.parse (structP m 17 (numberFlag m)) (Input.fromSlice [0x31, 6, 2, 1, UInt8.ofNat n, 1, 1, B]) =
        .ok (⟨[], 8, 8⟩, (n, b, ())) ∧
      (m.parse (structP m 17 (numberFlag m))
        (Input.fromSlice [0x31, 6, 1, 1, B, 2, 1, UInt8.ofNat n])).isOk = false := by
  have e1 : ∀ b : Bool, ∀ n < 128, ((structToBer 17 numberFlagEnc).encode (n, b, ())).exec =
      ([0x31, 6, 2, 1, UInt8.ofNat n, 1, 1, if b then 0xff else 0], .ok 8) := by decide +kernel
  have e2 : ∀ b : Bool, ∀ n < 128, ∀ c : Bool, let m := if c then Rules.ber else .der
      m.parse (structP m 17 (numberFlag m))
        (Input.fromSlice [0x31, 6, 2, 1, UInt8.ofNat n, 1, 1, if b then 0xff else 0]) =
        .ok (⟨[], 8, 8⟩, (n, b, ())) ∧
      (m.parse (structP m 17 (numberFlag m))
        (Input.fromSlice [0x31, 6, 1, 1, if b then 0xff else 0, 2, 1, UInt8.ofNat n])).isOk = false := by
    decide +kernel
  refine ⟨e1 b n hn, fun m => ?_⟩
  cases m
  · exact e2 b n hn true
  · exact e2 b n hn false

/-- A SET with the BOOLEAN first meets the hypotheses of the deviation. -/
example : ∃ r a, Rules.ber.any (Input.fromSlice [0x31, 6, 1, 1, 0xff, 2, 1, 5]) = .ok (r, a) ∧
    FirstTags .ber a.data [1, 2] ∧ [1, 2].Perm [2, 1] ∧ [1, 2] ≠ [2, 1] := by
  obtain ⟨⟨r, a⟩, h⟩ : ∃ x, Rules.ber.any (Input.fromSlice [0x31, 6, 1, 1, 0xff, 2, 1, 5]) = .ok x := ⟨_, rfl⟩
  refine ⟨r, a, h, ?_, .swap _ _ _, by decide⟩
  cases h
  exact .cons rfl rfl (.cons rfl rfl .nil)

end Asn1

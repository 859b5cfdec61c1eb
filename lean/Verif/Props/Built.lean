import Verif.Proofs.Built
/-!
# Types nested in any way: no panic, only the bytes consumed, DER within BER (C82)
-/
namespace Asn1
open Spec

variable {α : Type}

/-- **C82** `parse_ber` and `parse_der` of a type built from the universal types without REAL return on every
input: they neither panic nor loop. -/
theorem C82_no_panic {pb pd : Parser α} (h : Built false pb pd) (i : Input) :
    NoPanic (pb.parseBer i) ∧ NoPanic (pd.parseDer i) := (fine_built h).noPanic rfl i

/-- **C82** What `parse_ber` and `parse_der` of a built type return depends only on the bytes consumed: not on
what follows, not on the position. -/
theorem C82_only_consumed_bytes {real : Bool} {pb pd : Parser α} (h : Built real pb pd) :
    OnlyBytes pb.parseBer ∧ OnlyBytes pd.parseDer :=
  ⟨onlyBytes_ber (fine_built h).strong.1.loc, onlyBytes_der (fine_built h).strong.2.loc⟩

/-- A case: the type of the example below. -/
example : Built true (uintC 4).ber (uintC 4).der := .universal (.uint 4 (by decide))

/-- **C82** What `parse_der` of a built type accepts, `parse_ber` accepts with the same value and the same
remainder. -/
theorem C82_der_subset_ber {real : Bool} {pb pd : Parser α} (h : Built real pb pd) :
    Accepts pd.parseDer pb.parseBer := (fine_built h).accepts

/-! A case: `struct { version: u32, items: Option<[0] EXPLICIT Vec<Alternative>>, flag: bool DEFAULT false }`
with the untagged CHOICE `Alternative { Number(i64), Text(String) }`. -/

/-- The parser of the example. -/
def nestedP (m : Rules) (u32 : Parser Nat) (i64 : Parser Int) (text : Parser Text) (bool : Parser Bool)
    (vec : Parser (HSum [Int, Text]) → Parser (List (HSum [Int, Text]))) :
    Parser (Tup [Nat, Option (List (HSum [Int, Text])), Bool]) :=
  structP m 16 (.cons (.required .untagged u32)
    (.cons (.optional (.explicit .contextSpecific 0)
      (vec (choiceP m .untagged (.cons 0 i64 (.cons 1 text .nil)))))
    (.cons (.default .untagged bool false) .nil)))

/-- Its BER and DER parsers. -/
def nestedBer := nestedP .ber (uintC 4).ber (intC 8).ber stringC.ber boolC.ber vecBer
@[inherit_doc nestedBer]
def nestedDer := nestedP .der (uintC 4).der (intC 8).der stringC.der boolC.der vecDer

theorem nested_built (real : Bool) : Built real nestedBer nestedDer := by
  refine .struct 16 (.required .untagged (.universal (.uint 4 (by decide)))
    (.optional (.explicit .contextSpecific 0) (.vec (.choice .untagged ?_))
      (.default .untagged false (.universal .bool) .nil)))
  exact .cons 0 (.universal (.int 8 (by decide))) (.cons 1 (.universal .string) .nil)

/-- The result on an input: what remains, and whether there is a first item which is the number -5. -/
def nestedOutcome (x : PRes (Tup [Nat, Option (List (HSum [Int, Text])), Bool])) : Bytes × Nat × Bool × Bool :=
  match x with
  | .ok (r, (n, some [Sum.inl (-5), _], b, ())) => (r.data, n, true, b)
  | .ok (r, (n, _, b, ())) => (r.data, n, false, b)
  | .error _ => ([], 0, false, false)

example : nestedOutcome (nestedDer.parseDer (Input.fromSlice
      [0x30, 13, 2, 1, 7, 0xa0, 8, 0x30, 6, 2, 1, 0xfb, 12, 1, 0x41, 0xee])) = ([0xee], 7, true, false) ∧
    NoPanic (nestedBer.parseBer (Input.fromSlice [0x30, 13, 2, 1])) :=
  ⟨by decide +kernel, (C82_no_panic (nested_built false) _).1⟩

end Asn1

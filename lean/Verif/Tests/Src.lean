import Verif.Tests.Lib
import Verif.Model.AnySet
import Verif.Model.ErrorConv
import Verif.Props.Sets
/-!
# The unit tests inside src and impl

`debug_*` are the tests of src/debug.rs. The test `assert_traits_tuples` of src/asn1_types/sequence/tuple.rs checks
types only.
-/
set_option autoImplicit false
set_option synthInstance.maxSize 2000

namespace Asn1.Tests
open Asn1 Spec

/-- `expect` on the result of a parser: the rest, and what the closure makes of the value. -/
def read {α β : Type} (r : PRes α) (f : α → β) : Option (Bytes × β) :=
  match r with
  | .ok (rem, v) => some (rem.data, f v)
  | .error _ => none

/-- `expect_err` on the result of a parser. -/
def refuses {α : Type} : PRes α → Bool
  | .error (.error _ _) => true
  | .error (.incomplete _) => true
  | _ => false

/-- `Input::from`. -/
abbrev inp (bs : Bytes) : Input := Input.fromSlice bs

/-- The first `n` results of `next`. -/
def nexts {α : Type} (next : AnyIter → Except PErr (Option α × AnyIter)) : Nat → AnyIter → List (Option α)
  | 0, _ => []
  | n + 1, it =>
    match next it with
    | .ok (r, it') => r :: nexts next n it'
    | .error _ => []

/-- What the tests look at in an item: the span of its bytes and its tag; `none` for an error. -/
def itemSpanTag : IterItem → Option (Nat × Nat × Nat)
  | .obj r a => some (r.start, r.stop, a.header.tag)
  | .err _ _ => none

/-- The items are numbers, `none` for an error. -/
def itemValue {α : Type} : Except (Input × InnerError) α → Option α
  | .ok v => some v
  | .error _ => none

/-### src/debug.rs -/

/-- src/debug.rs:244-266 `debug_ber_parser_any` -/
example :
    read (parseBerAny (inp [0x02, 0x01, 0x02, 0xff, 0xff])) (·.header.tag) = some ([0xff, 0xff], 2) ∧
    refuses (parseBerAny (inp [0x02, 0x08, 0x02, 0xff, 0xff])) ∧
    read (anyBer.parseBer (inp [0x02, 0x01, 0x02, 0xff, 0xff])) (·.header.tag) = some ([0xff, 0xff],
      2) := by decide +kernel

/-- src/debug.rs:269-296 `debug_der_parser_any` -/
example :
    read (parseDerAny (inp [0x02, 0x01, 0x02, 0xff, 0xff])) (·.header.tag) = some ([0xff, 0xff], 2) ∧
    refuses (parseDerAny (inp [0x02, 0x08, 0x02, 0xff, 0xff])) ∧
    refuses (parseDerAny (inp [0x02, 0x80, 0x00, 0x00, 0xff])) ∧
    read (anyDer.parseDer (inp [0x02, 0x01, 0x02, 0xff, 0xff])) (·.header.tag) = some ([0xff, 0xff],
      2) := by decide +kernel

/-- src/debug.rs:299-329 `debug_der_parser_uint` -/
example :
    read (integerDer.parseDer (inp [0x02, 0x01, 0x02, 0xff, 0xff])) (fun r => r.asMachine (intBer 4)) =
      some ([0xff, 0xff], .ok 2) ∧
    read ((uintDer 4).parseDer (inp [0x02, 0x01, 0x02, 0xff, 0xff])) id = some ([0xff, 0xff], 2) ∧
    refuses ((uintDer 4).parseDer (inp [0x01, 0x01, 0xff])) ∧
    refuses ((uintDer 4).parseDer (inp [0x02, 0x01, 0xff])) ∧
    refuses ((uintDer 4).parseDer (inp [0x02, 0x02, 0x00, 0x04])) := by decide +kernel

/-- src/debug.rs:332-349 `debug_der_parser_option_uint` -/
example :
    read (optionParse parseHeaderDer (uintDer 4) (inp [0x02, 0x01, 0x02, 0xff, 0xff])) id = some ([0xff, 0xff],
      some 2) ∧
    read (optionParse parseHeaderDer (uintDer 4) (inp [0x01, 0x01, 0x00, 0xff, 0xff])) id = some ([0x01, 0x01, 0x00,
      0xff, 0xff], none) := by
  decide +kernel

/-- src/debug.rs:352-372 `debug_der_parser_tagged_explicit_bool` -/
example :
    refuses ((explicitP .contextSpecific 0 boolDer.parseDer).parseDer (inp [0x01, 0x01, 0xff])) ∧
    read ((explicitP .contextSpecific 0 boolDer.parseDer).parseDer (inp [0xa0, 0x03, 0x01, 0x01, 0xff])) id =
      some ([], ⟨true⟩) ∧
    refuses ((explicitP .contextSpecific 0 boolDer.parseDer).parseDer (inp [0xa1, 0x03, 0x01, 0x01, 0xff])) ∧
    refuses ((explicitP .contextSpecific 0 boolDer.parseDer).parseDer (inp [0x60, 0x03, 0x01, 0x01,
      0xff])) := by decide +kernel

/-- src/debug.rs:375-379 `debug_from_ber_any`, src/debug.rs:382-387 `debug_from_ber_failures` -/
example :
    works (anyFromBer [0x01, 0x01, 0xff]) ∧
    fails (fromBerWith (seqTryFrom 16 (fromBer (uintBer 2))) [0x02, 0x01, 0x00]) := by decide +kernel

/-- src/debug.rs:390-402 `debug_from_ber_sequence_indefinite` -/
example :
    fromBerWith (rawTryFrom 16) [0x30, 0x80, 0x02, 0x03, 0x01, 0x00, 0x01, 0x00, 0x00] = .ok ([], ⟨[0x02, 0x03, 0x01,
      0x00, 0x01], false⟩) ∧
    fromBerWith (seqTryFrom 16 (fromBer (uintBer 4))) [0x30, 0x80, 0x02, 0x03, 0x01, 0x00, 0x01, 0x00,
      0x00] = .ok ([], [65537]) := by
  decide +kernel

/-- src/debug.rs:405-414 `debug_from_ber_sequence_of` -/
example : fails (fromBerWith (seqTryFrom 16 (fromBer (uintBer 4))) [0x30, 0x03, 0x01, 0x01,
  0x00]) := by decide +kernel

/-- src/debug.rs:417-428 `debug_from_der_bool` -/
example :
    works (fromDer boolBer booleanCheck [0x01, 0x01, 0xff]) ∧
    fails (fromDer boolBer booleanCheck [0x01, 0x02, 0xff]) ∧
    fails (fromDer boolBer booleanCheck [0x01, 0x01, 0xf0]) ∧
    fails (fromDer boolBer booleanCheck [0x01, 0x02, 0xff, 0xff]) := by decide +kernel

/-- src/debug.rs:431-442 `debug_from_der_failures` -/
example :
    fails (fromDer (uintBer 2) checkDerInt [0xff, 0x00]) ∧
    fails (fromDer (uintBer 2) checkDerInt [0x30, 0x80, 0x00, 0x00]) ∧
    fails (fromDer boolBer booleanCheck [0x01, 0x01, 0x7f]) := by decide +kernel

/-- src/debug.rs:445-453 `debug_from_der_sequence`, src/debug.rs:456-466 `debug_from_der_sequence_fail`,
src/debug.rs:469-475 `debug_from_der_sequence_of` -/
example :
    seqFromDer 16 (fromDer (uintBer 4) checkDerInt) [0x30, 0x08, 0x02, 0x03, 0x01, 0x00, 0x01, 0x02, 0x01,
      0x01] = .ok ([], [65537, 1]) ∧
    fails (seqFromDer 16 (fromDer boolBer booleanCheck) [0x31, 0x03, 0x01, 0x01, 0x44]) ∧
    fails (seqFromDer 16 (fromDer boolBer booleanCheck) [0x30, 0x03, 0x01, 0x01, 0x44]) ∧
    fails (seqFromDer 16 (fromDer (uintBer 4) checkDerInt) [0x30, 0x03, 0x01, 0x01, 0x00]) := by decide +kernel

/-- src/debug.rs:478-488 `debug_from_der_set_of` -/
example :
    fails (seqFromDer 17 (fromDer (uintBer 4) checkDerInt) [0x31, 0x03, 0x01, 0x01, 0x00]) ∧
    fails (setFromDer btreeNat (fromDer (uintBer 4) checkDerInt) [0x31, 0x03, 0x01, 0x01, 0x00]) ∧
    fails (setFromDer hashSet (fromDer (uintBer 4) checkDerInt) [0x31, 0x03, 0x01, 0x01, 0x00]) := by decide +kernel

/-- src/debug.rs:491-499 `debug_from_der_string_ok`, src/debug.rs:502-508 `debug_from_der_string_fail` -/
example :
    fromDer (strBer utf8StringK) strCheck [0x0c, 0x0a, 0x53, 0x6f, 0x6d, 0x65, 0x2d, 0x53, 0x74, 0x61, 0x74,
      0x65] = .ok ([], "Some-State".toList) ∧
    fails (fromDer (strBer numericStringK) strCheck [0x12, 0x03, 0x41, 0x42, 0x43]) := by decide +kernel

/-### src/input.rs, src/length.rs, src/class.rs, src/header.rs -/

/-- src/input.rs:208-223 `input_take` -/
example :
    (inp [0x00, 0x01, 0x02, 0x03, 0x04, 0x05]).take 2 = .ok ⟨[0x00, 0x01], 0, 2⟩ ∧
    (inp [0x00, 0x01, 0x02, 0x03, 0x04, 0x05]).takeFrom 2 = .ok ⟨[0x02, 0x03, 0x04, 0x05], 2, 6⟩ := by decide +kernel

/-- src/length.rs:154-183 `methods_length` -/
example :
    works (assertDefiniteS (.definite 2)) ∧ fails (assertDefiniteS .indefinite) ∧
    works (definiteInner (.definite 2) (inp [])) ∧ refuses (definiteInner .indefinite (inp []) |>.map (inp [], ·)) ∧
    (Length.definite 2).addNat 2 = .definite 4 ∧
    (Length.definite 2).add .indefinite = .indefinite ∧
    Length.indefinite.addNat 2 = .indefinite ∧
    (Length.definite 2).add (.definite 2) = .definite 4 ∧
    Length.indefinite.add (.definite 2) = .indefinite ∧
    (Length.definite 2).addAssign (.definite 2) = .definite 4 ∧
    Length.indefinite.addAssign (.definite 2) = .indefinite := by decide +kernel

/-- src/class.rs:86-104 `methods_class` -/
example :
    works (Class.universal.assertEq .universal) ∧ works (Class.universal.assertEq .priv) = false ∧
    (Class.tryFrom 0b00).isSome ∧ (Class.tryFrom 0b01).isSome ∧ (Class.tryFrom 0b10).isSome ∧
    (Class.tryFrom 0b11).isSome ∧ Class.tryFrom 4 = none := by decide +kernel

/-- src/header.rs:604-650 `methods_header` -/
example :
    read (parseHeader (inp [0x02, 0x01, 0x00])) (fun h =>
      (h.cls, h.tag, works (assertPrimitiveS h), fails (assertConstructedS h), h.eq (Header.newSimple 2))) =
        some ([0x00], .universal, 2, true, true, true) ∧
    (let hdr3 := (((Header.newSimple 2).withClass .contextSpecific).withConstructed true).withLength (.definite 1)
     hdr3.constructed ∧ works (assertConstructedS hdr3) ∧ hdr3.cls = .contextSpecific ∧
     fails (assertDefiniteS (hdr3.withLength .indefinite).length)) ∧
    refuses (parseHeader (inp [0x02, 0x80])) ∧
    read (headerBerContent ((Header.newSimple 2).withLength (.definite 1)) (inp [0x00])) (·.data) =
      some ([], [0x00]) ∧
    read (headerDerContent ((Header.newSimple 2).withLength (.definite 1)) (inp [0x00])) (·.data) =
      some ([], [0x00]) := by decide +kernel

/-### src/asn1_types/any.rs, iterator.rs, optional.rs -/

/-- src/asn1_types/any.rs:613-644 `methods_any` -/
example :
    ((⟨Header.newSimple 2, inp []⟩ : Any).withClass .contextSpecific |>.withTag 0).data.data = [] ∧
    andThen (anyFromBer [0x80, 0x03, 0x02, 0x01, 0x01]) (fun r =>
      (value (anyParseContent (fromBer integerBer) r.2) |>.map (·.asMachine (uintBer 4)),
       value (anyParseContent (fromDer integerBer checkDerInt) r.2) |>.map (·.asMachine (uintBer 4)),
       read (headerBerContent r.2.header (inp [0x02, 0x01, 0x01])) Input.len,
       read (headerDerContent r.2.header (inp [0x02, 0x01, 0x01])) Input.len)) =
      some (some (.ok 1), some (.ok 1), some ([], 3), some ([], 3)) ∧
    andThen (anyFromDer [0x02, 0x01, 0x01]) (fun r =>
      (works (anyCheck r.2), anyInto integerBer r.2 >>= (·.asMachine (uintBer 2)))) = some (true, .ok 1) := by
  decide +kernel

/-- src/asn1_types/any.rs:647-652 `ber_parser_any`, src/asn1_types/any.rs:655-675 `parse_ber_indefinite_any` -/
example :
    read (anyBer.parseBer (inp [0x02, 0x01, 0x02, 0xff, 0xff])) (·.header.tag) = some ([0xff, 0xff], 2) ∧
    (read (anyBer.parseBer (inp [0xa3, 0x80, 0x00, 0x00])) id |>.map (·.1)) = some [] ∧
    (read (anyBer.parseBer (inp [0xa3, 0x80, 0x01, 0x01, 0xff, 0x00, 0x00])) id |>.map (·.1)) = some [] ∧
    refuses (anyBer.parseBer (inp [0x03, 0x80, 0x00, 0x00])) ∧
    refuses (anyBer.parseBer (inp [0xa3, 0x80, 0x01, 0x02, 0x03, 0x04])) := by decide +kernel

/-- src/asn1_types/iterator.rs:241-276 `any_iterator_ber`, src/asn1_types/iterator.rs:279-314 `any_iterator_der` -/
example :
    let items (parse : Input → PRes Any) (der : Bool) (bs : Bytes) : Option (List (Option (Option (Nat × Nat × Nat)))) :=
      match parse (inp bs) with
      | .ok (_, any) =>
        let (it, p) := anyIterElements der any
        some ((nexts (AnyIter.next p) 3 it).map (Option.map itemSpanTag))
      | .error _ => none
    items anyBer.parseBer false [0x30, 0x00] = some [none, none, none] ∧
    items anyBer.parseBer false [0x30, 0x05, 0x02, 0x03, 0x01, 0x00, 0x01] = some [some (some (2, 7, 2)), none,
      none] ∧
    items anyBer.parseBer false [0x30, 0x08, 0x02, 0x03, 0x01, 0x00, 0x01, 0x01, 0x01, 0xff] =
      some [some (some (2, 7, 2)), some (some (7, 10, 1)), none] ∧
    items anyBer.parseBer false [0x30, 0x07, 0x02, 0x03, 0x01, 0x00, 0x01, 0x02, 0x01] = some [some (some (2, 7, 2)),
      some none, none] ∧
    items anyDer.parseDer true [0x30, 0x00] = some [none, none, none] ∧
    items anyDer.parseDer true [0x30, 0x05, 0x02, 0x03, 0x01, 0x00, 0x01] = some [some (some (2, 7, 2)), none, none] ∧
    items anyDer.parseDer true [0x30, 0x08, 0x02, 0x03, 0x01, 0x00, 0x01, 0x01, 0x01, 0xff] =
      some [some (some (2, 7, 2)), some (some (7, 10, 1)), none] ∧
    items anyDer.parseDer true [0x30, 0x07, 0x02, 0x03, 0x01, 0x00, 0x01, 0x02, 0x01] = some [some (some (2, 7, 2)),
      some none, none] := by
  decide +kernel

/-- src/asn1_types/iterator.rs:317-326 `any_iterator_try_collect`,
src/asn1_types/iterator.rs:330-339 `any_iterator_try_collect_std` -/
example :
    read ((AnyIter.new (inp [0x02, 0x03, 0x01, 0x00, 0x01, 0x02, 0x03, 0x01, 0x00,
      0x00])).tryParseCollect anyBer.parseBer (uintBer 4)) id =
      some ([], [65537, 65536]) ∧
    read ((AnyIter.new (inp [0x02, 0x03, 0x01, 0x00, 0x01, 0x02, 0x03, 0x01, 0x00,
      0x00])).tryParseCollect anyBer.parseBer (uintBer 4))
      (fun l => ((hashSet.ofList l).val.length, decide (65536 ∈ (hashSet.ofList l).val),
        decide (65537 ∈ (hashSet.ofList l).val))) = some ([], 2, true, true) := by
  decide +kernel

/-- src/asn1_types/optional.rs:248-264 `check_optional` -/
example :
    read (optionParse parseHeader boolBer (inp [0x01, 0x01, 0xff])) id = some ([], some true) ∧
    read (optionParse parseHeader boolBer (inp [0x02, 0x01, 0x00])) id = some ([0x02, 0x01, 0x00],
      none) := by decide +kernel

/-### src/asn1_types/bitstring.rs, octetstring.rs -/

/-- src/asn1_types/bitstring.rs:224-230 `test_bitstring_is_set`,
  src/asn1_types/bitstring.rs:233-240 `test_bitstring_to_bitvec` -/
example :
    andThen (BitString.new 0 [0x0f, 0x00, 0x40]) (fun o =>
      (o.isSet 0, o.isSet 7, o.isSet 9, o.isSet 17, o.bits[0]?, o.bits[7]?, o.bits[9]?, o.bits[17]?)) =
      some (false, true, false, true, some false, some true, some false, some true) := by decide +kernel

/-- src/asn1_types/bitstring.rs:243-262 `test_bitstring_parse_segmented_primitive`,
src/asn1_types/bitstring.rs:265-282 `test_bitstring_parse_segmented_constructed` -/
example :
    let segmented (limit : Nat) (bs : Bytes) : PRes BitString := do
      let (data, header) ← parseHeader (inp bs)
      parseSegmented (tagIs tagBitString) BitString.empty BitString.append bitLeaf limit header data
    read (segmented 5 [0x03, 0x07, 0x04, 0x0a, 0x3b, 0x5f, 0x29, 0x1c, 0xd0]) (·.nbits) = some ([], 6 * 8 - 4) ∧
    refuses (segmented 5 [0x03, 0x01, 0x04]) ∧
    refuses (segmented 5 [0x03, 0x02, 0x09, 0x01]) ∧
    read (segmented 5 [0x23, 0x80, 0x03, 0x03, 0x00, 0x0a, 0x3b, 0x03, 0x05, 0x04, 0x5f, 0x29, 0x1c, 0xd0, 0x00,
      0x00]) (·.nbits) = some ([], 44) ∧
    refuses (segmented 1 [0x23, 0x80, 0x03, 0x03, 0x00, 0x0a, 0x3b, 0x03, 0x05, 0x04, 0x5f, 0x29, 0x1c, 0xd0, 0x00,
      0x00]) := by decide +kernel

/-- src/asn1_types/bitstring.rs:292-298 `tober_bitstring` -/
example : bitToBer.toVec (BitString.ofBits [false, true, false, false, true, false, false, true]) =
    .ok [0x03, 0x02, 0x00, 0x49] := by decide +kernel

/-- src/asn1_types/octetstring.rs:227-241 `parse_ber_octetstring`,
src/asn1_types/octetstring.rs:244-261 `parse_ber_octetstring_constructed`,
  src/asn1_types/octetstring.rs:270-275 `tober_octetstring` -/
example :
    read (octetBer.parseBer (inp [0x04, 0x05, 0x41, 0x41, 0x41, 0x41, 0x41])) id = some ([], ascii "AAAAA") ∧
    read (sliceBer.parseBer (inp [0x04, 0x05, 0x41, 0x41, 0x41, 0x41, 0x41])) id = some ([], ascii "AAAAA") ∧
    read (octetBer.parseBer (inp [0x24, 0x80, 0x04, 0x08, 0x00, 0x11, 0x22, 0x33, 0x44, 0x55, 0x66, 0x77, 0x04, 0x08,
      0x88, 0x99, 0xaa, 0xbb, 0xcc, 0xdd, 0xee, 0xff, 0x00, 0x00])) id =
      some ([], [0x00, 0x11, 0x22, 0x33, 0x44, 0x55, 0x66, 0x77, 0x88, 0x99, 0xaa, 0xbb, 0xcc, 0xdd, 0xee, 0xff]) ∧
    refuses (sliceBer.parseBer (inp [0x24, 0x80, 0x04, 0x08, 0x00, 0x11, 0x22, 0x33, 0x44, 0x55, 0x66, 0x77, 0x04,
      0x08, 0x88, 0x99, 0xaa, 0xbb, 0xcc, 0xdd, 0xee, 0xff, 0x00, 0x00])) ∧
    octetToBer.toVec [0x01, 0x02, 0x03, 0x04] = .ok [0x04, 0x04, 0x01, 0x02, 0x03, 0x04] := by decide +kernel

/-### src/asn1_types/boolean.rs, enumerated.rs, null.rs -/

/-- src/asn1_types/boolean.rs:223-253 `parse_ber_bool` -/
example :
    read (booleanBer.parseBer (inp [0x01, 0x01, 0xff])) booleanBool = some ([], true) ∧
    refuses (booleanBer.parseBer (inp [0x04, 0x00])) ∧ refuses (booleanBer.parseBer (inp [0x01, 0x02, 0xff, 0xff])) ∧
    read (boolBer.parseBer (inp [0x01, 0x01, 0xff])) id = some ([], true) ∧
    refuses (boolBer.parseBer (inp [0x04, 0x00])) ∧ refuses (boolBer.parseBer (inp [0x01, 0x02, 0xff,
      0xff])) := by decide +kernel

/-- src/asn1_types/boolean.rs:256-294 `parse_der_bool` -/
example :
    read (booleanDer.parseDer (inp [0x01, 0x01, 0xff])) booleanBool = some ([], true) ∧
    refuses (booleanDer.parseDer (inp [0x04, 0x00])) ∧ refuses (booleanDer.parseDer (inp [0x01, 0x02, 0xff, 0xff])) ∧
    refuses (booleanDer.parseDer (inp [0x01, 0x01, 0x01])) ∧
    read (boolDer.parseDer (inp [0x01, 0x01, 0xff])) id = some ([], true) ∧
    refuses (boolDer.parseDer (inp [0x04, 0x00])) ∧ refuses (boolDer.parseDer (inp [0x01, 0x02, 0xff, 0xff])) ∧
    refuses (boolDer.parseDer (inp [0x01, 0x01, 0x01])) := by decide +kernel

/-- src/asn1_types/boolean.rs:303-314 `tober_bool` -/
example : booleanToBer.toVec 0xff = .ok [0x01, 0x01, 0xff] ∧ boolToBer.toVec true = .ok [0x01, 0x01,
  0xff] := by decide +kernel

/-- src/asn1_types/enumerated.rs:95-105 `parse_ber_enum`, src/asn1_types/enumerated.rs:108-122 `parse_der_enum` -/
example :
    read (enumeratedBer.parseBer (inp [0x0a, 0x01, 0x02])) id = some ([], 2) ∧
    refuses (enumeratedBer.parseBer (inp [0x04, 0x00])) ∧
    read (enumeratedDer.parseDer (inp [0x0a, 0x01, 0x02])) id = some ([], 2) ∧
    refuses (enumeratedDer.parseDer (inp [0x04, 0x00])) ∧
    refuses (enumeratedBer.parseBer (inp [0x0a, 0x02, 0xff, 0xff])) := by decide +kernel

/-- src/asn1_types/enumerated.rs:131-143 `tober_enumerated` -/
example : enumeratedToBer.toVec 4 = .ok [0x0a, 0x01, 0x04] ∧ enumeratedToBer.toVec 0x8f = .ok [0x0a, 0x02, 0x00,
  0x8f] := by decide +kernel

/-- src/asn1_types/null.rs:155-169 `parse_ber_null`, src/asn1_types/null.rs:172-186 `parse_der_null` -/
example :
    read (nullP.parseBer (inp [0x05, 0x00])) id = some ([], ()) ∧
    refuses (nullP.parseBer (inp [0x04, 0x00])) ∧ refuses (nullP.parseBer (inp [0x05, 0x01, 0x00])) ∧
    read (nullP.parseDer (inp [0x05, 0x00])) id = some ([], ()) ∧
    refuses (nullP.parseDer (inp [0x04, 0x00])) ∧ refuses (nullP.parseDer (inp [0x05, 0x01,
      0x00])) := by decide +kernel

/-### src/asn1_types/integer.rs -/

/-- Bytes and value, parsed in BER, in DER and with `from_der`, and encoded. -/
def signed (N : Nat) (v : Int) (bs : Bytes) : Bool :=
  fromDer (intBer N) checkDerInt bs = .ok ([], v) ∧
  read ((intBer N).parseBer (inp bs)) id = some ([], v) ∧
  read ((intDer N).parseDer (inp bs)) id = some ([], v) ∧
  (intToBer N).toVec v = .ok bs

/-- The same for unsigned numbers. -/
def unsigned (N : Nat) (v : Nat) (bs : Bytes) : Bool :=
  fromDer (uintBer N) checkDerInt bs = .ok ([], v) ∧
  read ((uintBer N).parseBer (inp bs)) id = some ([], v) ∧
  read ((uintDer N).parseDer (inp bs)) id = some ([], v) ∧
  (uintToBer N).toVec v = .ok bs

/-- src/asn1_types/integer.rs:720-733 `decode_i8`, src/asn1_types/integer.rs:736-740 `encode_i8` -/
example : signed 1 0 [0x02, 0x01, 0x00] ∧ signed 1 127 [0x02, 0x01, 0x7f] ∧ signed 1 (-128) [0x02, 0x01,
  0x80] := by decide +kernel

/-- src/asn1_types/integer.rs:743-771 `decode_i16`, src/asn1_types/integer.rs:774-784 `encode_i16`, and
src/asn1_types/integer.rs:787-815 `decode_isize`, src/asn1_types/integer.rs:818-828 `encode_isize` -/
example : ∀ N ∈ [2, 8],
    signed N 0 [0x02, 0x01, 0x00] ∧ signed N 127 [0x02, 0x01, 0x7f] ∧ signed N 128 [0x02, 0x02, 0x00, 0x80] ∧
    signed N 255 [0x02, 0x02, 0x00, 0xff] ∧ signed N 256 [0x02, 0x02, 0x01, 0x00] ∧ signed N 32767 [0x02, 0x02, 0x7f,
      0xff] ∧
    signed N (-128) [0x02, 0x01, 0x80] ∧ signed N (-129) [0x02, 0x02, 0xff, 0x7f] ∧ signed N (-32768) [0x02, 0x02,
      0x80, 0x00] := by
  decide +kernel

/-- src/asn1_types/integer.rs:831-848 `decode_u8`, src/asn1_types/integer.rs:851-855 `encode_u8` -/
example : unsigned 1 0 [0x02, 0x01, 0x00] ∧ unsigned 1 127 [0x02, 0x01, 0x7f] ∧ unsigned 1 128 [0x02, 0x02, 0x00,
  0x80] ∧
    unsigned 1 255 [0x02, 0x02, 0x00, 0xff] := by decide +kernel

/-- src/asn1_types/integer.rs:858-881 `decode_u16`, src/asn1_types/integer.rs:884-891 `encode_u16`, and
src/asn1_types/integer.rs:894-917 `decode_usize`, src/asn1_types/integer.rs:920-927 `encode_usize` -/
example : ∀ N ∈ [2, 8],
    unsigned N 0 [0x02, 0x01, 0x00] ∧ unsigned N 127 [0x02, 0x01, 0x7f] ∧ unsigned N 128 [0x02, 0x02, 0x00, 0x80] ∧
    unsigned N 255 [0x02, 0x02, 0x00, 0xff] ∧ unsigned N 256 [0x02, 0x02, 0x01, 0x00] ∧ unsigned N 32767 [0x02, 0x02,
      0x7f, 0xff] ∧
    unsigned N 65535 [0x02, 0x03, 0x00, 0xff, 0xff] := by decide +kernel

/-- src/asn1_types/integer.rs:931-944 `reject_non_canonical` -/
example :
    fails (fromDer (intBer 1) checkDerInt [0x02, 0x02, 0x00, 0x00]) ∧ fails (fromDer (intBer 2) checkDerInt [0x02,
      0x02, 0x00, 0x00]) ∧
    fails (fromDer (uintBer 1) checkDerInt [0x02, 0x02, 0x00, 0x00]) ∧ fails (fromDer (uintBer 2) checkDerInt [0x02,
      0x02, 0x00, 0x00]) ∧
    refuses ((intDer 1).parseDer (inp [0x02, 0x02, 0x00, 0x00])) ∧ refuses ((intDer 2).parseDer (inp [0x02, 0x02,
      0x00, 0x00])) ∧
    refuses ((intDer 1).parseDer (inp [0x02, 0x02, 0xff, 0xff])) ∧ refuses ((intDer 2).parseDer (inp [0x02, 0x02,
      0xff, 0xff])) ∧
    refuses ((uintDer 1).parseDer (inp [0x02, 0x02, 0x00, 0x00])) ∧ refuses ((uintDer 2).parseDer (inp [0x02, 0x02,
      0x00, 0x00])) := by
  decide +kernel

/-- src/asn1_types/integer.rs:947-950 `declare_int`, and impl/tests/test_oid.rs:11-16 `test_encode_int` -/
example :
    (Integer.mk (encodeIntMacro 1234)).asMachine (intBer 4) = .ok 1234 ∧ encodeIntMacro 1234 = [0x04, 0xd2] := by
  decide +kernel

/-- src/asn1_types/integer.rs:953-988 `trim_slice` -/
example :
    trimSlice [0x7f, 0xff, 0x00, 0x02] = [0x7f, 0xff, 0x00, 0x02] ∧ trimSlice [] = [] ∧ trimSlice [0x00] = [0x00] ∧
    trimSlice [0x00, 0x00, 0x00] = [0x00] ∧ trimSlice [0x00, 0x00, 0x01] = [0x01] ∧ trimSlice [0xff] = [0xff] ∧
    trimSlice [0xff, 0xff, 0xff] = [0xff] ∧ trimSlice [0xff, 0xff, 0x01] = [0xff, 0x01] ∧ trimSlice [0xff, 0xff,
      0x80, 0x01] = [0x80, 0x01] := by
  decide +kernel

/-- src/asn1_types/integer.rs:997-1031 `tober_integer` -/
example :
    (Integer.fromInt 4 4).map integerToBer.toVec = some (.ok [0x02, 0x01, 0x04]) ∧
    (Integer.fromInt 4 0x8f).map integerToBer.toVec = some (.ok [0x02, 0x02, 0x00, 0x8f]) ∧
    (uintToBer 1).toVec 4 = .ok [0x02, 0x01, 0x04] ∧ (uintToBer 1).toVec 0x8f = .ok [0x02, 0x02, 0x00, 0x8f] ∧
    (intToBer 1).toVec 4 = .ok [0x02, 0x01, 0x04] ∧ (intToBer 1).toVec (-4) = .ok [0x02, 0x01,
      0xfc] := by decide +kernel

/-### src/asn1_types/oid.rs, impl/tests/test_oid.rs -/

/-- src/asn1_types/oid.rs:489-492 `declare_oid`, and impl/tests/test_oid.rs:3-8 `test_encode_oid` -/
example :
    ((encodeOidMacro false [1, 2, 840, 113549, 1]).bind fun b => (Oid.mk b false).display Oid.toIdString) =
      some (ascii "1.2.840.113549.1") ∧
    encodeOidMacro false [1, 2, 840, 113549] = some [0x2a, 0x86, 0x48, 0x86, 0xf7, 0x0d] := by decide +kernel

/-- src/asn1_types/oid.rs:506-511 `test_compare_oid`, src/asn1_types/oid.rs:533-543 `oid_macro_parameters` -/
example :
    (Oid.from [1, 2, 840, 113549, 1, 1, 1]).toOption =
      (encodeOidMacro false [1, 2, 840, 113549, 1, 1, 1]).map (Oid.mk · false) ∧
    (Oid.from [1, 2, 3]).toOption = (encodeOidMacro false [1, 2, 3]).map (Oid.mk · false) := by decide +kernel

/-- src/asn1_types/oid.rs:514-521 `oid_to_der`, src/asn1_types/oid.rs:524-530 `oid_starts_with` -/
example :
    (encodeOidMacro false [1, 2, 840, 113549, 1]).map (fun b =>
      (oidToBer.contentLen ⟨b, false⟩, oidToBer.toVec ⟨b, false⟩,
       fromDer oidP oidCheck [0x06, 0x07, 0x2a, 0x86, 0x48, 0x86, 0xf7, 0x0d, 0x01] == .ok ([], ⟨b, false⟩))) =
      some (.definite 7, .ok [0x06, 0x07, 0x2a, 0x86, 0x48, 0x86, 0xf7, 0x0d, 0x01], true) ∧
    (do
      let rsa ← encodeOidMacro false [1, 2, 840, 113549, 1, 1, 1]
      let ec ← encodeOidMacro false [1, 2, 840, 10045, 2, 1]
      let oid ← encodeOidMacro false [1, 2, 840, 113549, 1]
      pure ((Oid.mk rsa false).startsWith (Oid.mk oid false), (Oid.mk ec false).startsWith (Oid.mk oid false))) =
      some (true, false) := by decide +kernel

/-- src/asn1_types/oid.rs:546-552 `parse_ber_oid`, src/asn1_types/oid.rs:555-561 `parse_der_oid` -/
example :
    read (oidP.parseBer (inp [0x06, 0x09, 0x2a, 0x86, 0x48, 0x86, 0xf7, 0x0d, 0x01, 0x01, 0x05])) Except.ok =
      some ([], Oid.from [1, 2, 840, 113549, 1, 1, 5]) ∧
    read (oidP.parseDer (inp [0x06, 0x09, 0x2a, 0x86, 0x48, 0x86, 0xf7, 0x0d, 0x01, 0x01, 0x05])) Except.ok =
      some ([], Oid.from [1, 2, 840, 113549, 1, 1, 5]) := by decide +kernel

/-- src/asn1_types/oid.rs:570-575 `tober_oid`, src/asn1_types/oid.rs:578-583 `tober_rel_oid` -/
example :
    ((Oid.from [1, 2, 840, 113549, 1, 1, 5]).toOption.map oidToBer.toVec) =
      some (.ok [0x06, 0x09, 0x2a, 0x86, 0x48, 0x86, 0xf7, 0x0d, 0x01, 0x01, 0x05]) ∧
    (encodeOidMacro true [1, 2]).map (fun b => oidToBer.toVec ⟨b, true⟩) = some (.ok [0x0d, 0x02, 0x01, 0x02]) := by
  decide +kernel

/-### src/asn1_types/real.rs -/

/-- src/asn1_types/real.rs:533-566 `parse_ber_real_binary` (the comparisons up to an epsilon are equations here) -/
example :
    read ((realP testLib).parseBer (inp [0x09, 0x03, 0x80, 0xff, 0x01, 0xff, 0xff])) (fun r => (r, r.f32 testLib)) =
      some ([0xff, 0xff], Real.ofBinary (.fin false 1 0) 2 (-1), .fin false 1 (-1)) ∧
    read ((realP testLib).parseBer (inp [0x09, 0x03, 0x94, 0xff, 0x0d, 0xff, 0xff])) (fun r => (r, r.f32 testLib)) =
      some ([0xff, 0xff], (Real.ofBinary (.fin false 13 1) 2 (-3)).withEncBase 8, .fin false 13 (-2)) ∧
    read ((realP testLib).parseBer (inp [0x09, 0x03, 0xa0, 0xfe, 0x01, 0xff, 0xff])) (fun r => (r, r.f32 testLib)) =
      some ([0xff, 0xff], (Real.ofBinary (.fin false 1 0) 2 (-8)).withEncBase 16, .fin false 1 (-8)) ∧
    read ((realP testLib).parseBer (inp [0x09, 0x03, 0x80, 0x00, 0x01, 0xff, 0xff])) (fun r => (r, r.f32 testLib)) =
      some ([0xff, 0xff], Real.ofBinary (.fin false 1 0) 2 0, .fin false 1 0) ∧
    read ((realP testLib).parseBer (inp [0x09, 0x04, 0xa1, 0xff, 0x01, 0x03, 0xff, 0xff])) (fun r => (r,
      r.f64 testLib)) =
      some ([0xff, 0xff], (Real.ofBinary (.fin false 3 0) 2 (-1020)).withEncBase 16, .fin false 3 (-1020)) := by
  decide +kernel

/-- src/asn1_types/real.rs:569-585 `parse_ber_real_special`, src/asn1_types/real.rs:589-595 `parse_ber_real_string` -/
example :
    read ((realP testLib).parseBer (inp [0x09, 0x00, 0xff, 0xff])) some =
      some ([0xff, 0xff], Real.new (.fin false 0 0)) ∧
    read ((realP testLib).parseBer (inp [0x09, 0x01, 0x40, 0xff, 0xff])) id = some ([0xff, 0xff], .infinity) ∧
    read ((realP testLib).parseBer (inp [0x09, 0x01, 0x41, 0xff, 0xff])) id = some ([0xff, 0xff], .negInfinity) ∧
    read ((realP testLib).parseBer (inp [0x09, 0x07, 0x03, 0x33, 0x31, 0x34, 0x45, 0x2d, 0x32, 0xff, 0xff])) some =
      some ([0xff, 0xff], Real.new (decimalF64 314 (-2))) := by decide +kernel

/-- src/asn1_types/real.rs:604-650 `tober_real_binary`, src/asn1_types/real.rs:653-671 `tober_real_special` -/
example :
    let enc (r : Real) := (realToBer testLib).toVec r
    enc (Real.ofBinary (.fin false 1 1) 2 1) = .ok [0x09, 0x03, 0x80, 0x02, 0x01] ∧
    enc (Real.ofBinary (.fin false 1 (-1)) 2 0) = .ok [0x09, 0x03, 0x80, 0xff, 0x01] ∧
    enc ((Real.ofBinary (.fin false 13 (-2)) 2 0).withEncBase 8) = .ok [0x09, 0x03, 0x94, 0xff, 0x0d] ∧
    enc ((Real.ofBinary (.fin false 1 (-8)) 2 0).withEncBase 16) = .ok [0x09, 0x03, 0xa0, 0xfe, 0x01] ∧
    enc (Real.ofBinary (.fin false 3 0) 2 (-1020)) = .ok [0x09, 0x04, 0x81, 0xfc, 0x04, 0x03] ∧
    enc (Real.ofBinary (.fin false 1 0) 2 262140) = .ok [0x09, 0x05, 0x82, 0x03, 0xff, 0xfc, 0x01] ∧
    enc (Real.ofBinary (.fin true 1 0) 2 76354972) = .ok [0x09, 0x07, 0xc3, 0x04, 0x04, 0x8d, 0x15, 0x9c, 0x01] ∧
    enc .zero = .ok [0x09, 0x00] ∧ enc .infinity = .ok [0x09, 0x01, 0x40] ∧ enc .negInfinity = .ok [0x09, 0x01,
      0x41] := by
  decide +kernel

/-- src/asn1_types/real.rs:674-680 `tober_real_string` -/
example : (Real.new (decimalF64 12345 (-4))).map (realToBer testLib).toVec =
    some (.ok ([0x09, 0x09, 0x03] ++ ascii "12345E-4")) := by decide +kernel

/-### src/asn1_types/utctime.rs, generalizedtime.rs -/

/-- src/asn1_types/generalizedtime.rs:361-403 `parse_der_generalizedtime` -/
example :
    read (genDer.parseDer (inp [0x18, 0x0f, 0x32, 0x30, 0x30, 0x32, 0x31, 0x32, 0x31, 0x33, 0x31, 0x34, 0x32, 0x39,
      0x32, 0x33, 0x5a, 0xff])) (toDatetime 25) =
      some ([0xff], .ok ⟨2002, 12, 13, 14, 29, 23, 0, 0⟩) := by decide +kernel

example :
    read (genDer.parseDer (inp ([0x18, 0x11] ++ ascii "19851106210627.3Z")))
      (fun t => (t.millisecond, t.tz, toDatetime 25 t)) =
      some ([], some 300, .z, .ok ⟨1985, 11, 6, 21, 6, 27, 300, 0⟩) := by decide +kernel

/-- The reason of a refusal. -/
def reason {α : Type} : PRes α → Option InnerError
  | .error (.error _ e) => some e
  | _ => none

example :
    reason (genDer.parseDer (inp ([0x18, 0x10] ++ ascii "19851106210627.3"))) =
      some (.derConstraintFailed .missingTimeZone) ∧
    reason (genDer.parseDer (inp ([0x18, 0x15] ++ ascii "19851106210627.3-0500"))) =
      some (.derConstraintFailed .missingTimeZone) := by decide +kernel

/-- src/asn1_types/generalizedtime.rs:412-428 `tober_generalizedtime` -/
example :
    genToBer.toVec ⟨2013, 12, 2, 14, 29, 23, none, .z⟩ = .ok ([0x18, 0x0f] ++ ascii "20131202142923Z") ∧
    genToBer.toVec ⟨1999, 12, 31, 23, 59, 59, some 123, .z⟩ = .ok ([0x18, 0x13] ++ ascii "19991231235959.123Z") := by
  decide +kernel

/-- src/asn1_types/utctime.rs:267-309 `parse_der_utctime` -/
example :
    read (utcDer.parseDer (inp [0x17, 0x0d, 0x30, 0x32, 0x31, 0x32, 0x31, 0x33, 0x31, 0x34, 0x32, 0x39, 0x32, 0x33,
      0x5a, 0xff])) (toDatetime 25) =
      some ([0xff], .ok ⟨2, 12, 13, 14, 29, 23, 0, 0⟩) := by decide +kernel

example :
    read (utcDer.parseDer (inp [0x17, 0x11, 0x30, 0x32, 0x31, 0x32, 0x31, 0x33, 0x31, 0x34, 0x32, 0x39, 0x32, 0x33,
      0x2b, 0x30, 0x33, 0x30, 0x30, 0xff])) (toDatetime 25) =
      some ([0xff], .ok ⟨2, 12, 13, 14, 29, 23, 0, 180⟩) := by decide +kernel

example :
    read (utcDer.parseDer (inp [0x17, 0x11, 0x30, 0x32, 0x31, 0x32, 0x31, 0x33, 0x31, 0x34, 0x32, 0x39, 0x32, 0x33,
      0x2d, 0x30, 0x33, 0x30, 0x30, 0xff])) (toDatetime 25) =
      some ([0xff], .ok ⟨2, 12, 13, 14, 29, 23, 0, -180⟩) := by decide +kernel

/-- src/asn1_types/utctime.rs:318-325 `tober_utctime` -/
example : utcToBer.toVec ⟨13, 12, 2, 14, 29, 23, none, .z⟩ = .ok ([0x17, 0x0d] ++ ascii "131202142923Z") := by
  decide +kernel

/-### src/asn1_types/to_ber -/

/-- src/to_ber/constructed.rs:46-55 `tober_constructed_vec`,
src/to_ber/constructed_indefinite.rs:91-100 `tober_indefinite_vec` -/
example :
    (listToBer 16 boolToBer).toVec [true, false] = .ok [0x30, 0x06, 0x01, 0x01, 0xff, 0x01, 0x01, 0x00] ∧
    (indefToBer boolToBer).toVec [true, false] = .ok [0x30, 0x80, 0x01, 0x01, 0xff, 0x01, 0x01, 0x00, 0x00,
      0x00] := by decide +kernel

/-- src/to_ber/encoder.rs:129-153 `tober_write_length` -/
example :
    (writeLength .indefinite).exec.1 = [0x80] ∧ (writeLength (.definite 2)).exec.1 = [0x02] ∧
    (writeLength (.definite 300)).exec.1 = [0x82, 0x01, 0x2c] := by decide +kernel

/-### src/asn1_types/sequence -/

/-- src/asn1_types/sequence/any_sequence.rs:158-173 `parse_ber_anysequence`,
src/asn1_types/sequence/any_sequence.rs:176-187 `parse_der_anysequence` -/
example :
    read ((anySeqP 16 anyBer.parseBer).parseBer (inp [0x30, 0x05, 0x02, 0x03, 0x01, 0x00,
      0x01])) (·.map (anyInto (uintBer 4))) =
      some ([], [.ok 65537]) ∧
    read ((anySeqP 16 anyBer.parseBer).parseBer (inp [0x30, 0x80, 0x02, 0x03, 0x01, 0x00, 0x01, 0x00,
      0x00])) (·.map (anyInto (uintBer 4))) =
      some ([], [.ok 65537]) ∧
    read ((anySeqP 16 anyDer.parseDer).parseDer (inp [0x30, 0x05, 0x02, 0x03, 0x01, 0x00,
      0x01])) (·.map (anyInto (uintBer 4))) =
      some ([], [.ok 65537]) ∧
    refuses ((anySeqP 16 anyDer.parseDer).parseDer (inp [0x30, 0x80, 0x02, 0x03, 0x01, 0x00, 0x01, 0x00,
      0x00])) := by decide +kernel

/-- src/asn1_types/sequence/any_sequence.rs:198-212 `tober_anysequence` -/
example : (listToBer 16 anyToBer).toVec
    [Any.fromTagAndData 4 (inp [0x01, 0x02, 0x03, 0x04]), Any.fromTagAndData 2 (inp [0x01, 0x00, 0x01])] =
      .ok [0x30, 0x0b, 0x04, 0x04, 0x01, 0x02, 0x03, 0x04, 0x02, 0x03, 0x01, 0x00, 0x01] := by decide +kernel

/-- src/asn1_types/sequence/array.rs:112-132 `parse_ber_array_n`,
  src/asn1_types/sequence/array.rs:135-152 `parse_der_array_n` -/
example :
    read ((arrayP 2 anyBer.parseBer (uintBer 4)).parseBer (inp [0x30, 0x0a, 0x02, 0x03, 0x01, 0x00, 0x01, 0x02, 0x03,
      0x01, 0x00, 0x01])) (·.val) =
      some ([], [65537, 65537]) ∧
    read ((arrayP 2 anyBer.parseBer (uintBer 4)).parseBer (inp [0x30, 0x80, 0x02, 0x03, 0x01, 0x00, 0x01, 0x02, 0x03,
      0x01, 0x00, 0x01, 0x00, 0x00])) (·.val) =
      some ([], [65537, 65537]) ∧
    refuses ((arrayP 2 anyBer.parseBer (uintBer 4)).parseBer (inp [0x30, 0x05, 0x02, 0x03, 0x01, 0x00, 0x01])) ∧
    read ((arrayP 2 anyDer.parseDer (uintDer 4)).parseDer (inp [0x30, 0x0a, 0x02, 0x03, 0x01, 0x00, 0x01, 0x02, 0x03,
      0x01, 0x00, 0x01])) (·.val) =
      some ([], [65537, 65537]) ∧
    refuses ((arrayP 2 anyDer.parseDer (uintDer 4)).parseDer (inp [0x30, 0x80, 0x02, 0x03, 0x01, 0x00, 0x01, 0x02,
      0x03, 0x01, 0x00, 0x01, 0x00, 0x00])) ∧
    refuses ((arrayP 2 anyDer.parseDer (uintDer 4)).parseDer (inp [0x30, 0x05, 0x02, 0x03, 0x01, 0x00,
      0x01])) := by decide +kernel

/-- src/asn1_types/sequence/array.rs:161-171 `tober_array_n` -/
example : ((Integer.fromInt 4 1).bind fun a => (Integer.fromInt 4 65537).map fun b =>
    (arrayToBer 2 integerToBer).toVec ⟨[a, b], rfl⟩) = some (.ok [0x30, 0x08, 0x02, 0x01, 0x01, 0x02, 0x03, 0x01,
      0x00, 0x01]) := by decide +kernel

/-- src/asn1_types/sequence/iterator.rs:203-237 `sequence_iterator_ber`,
src/asn1_types/sequence/iterator.rs:240-274 `sequence_iterator_der` -/
example :
    let ber (bs : Bytes) := (nexts (seqIterInputNext anyBer.parseBer (uintBer 4)) 3 (AnyIter.new (inp bs))).map
      (Option.map itemValue)
    let der (bs : Bytes) := (nexts (seqIterInputNext anyDer.parseDer (uintDer 4)) 3 (AnyIter.new (inp bs))).map
      (Option.map itemValue)
    ber [] = [none, none, none] ∧ ber [0x02, 0x03, 0x01, 0x00, 0x01] = [some (some 65537), none, none] ∧
    ber [0x02, 0x03, 0x01, 0x00, 0x01, 0x01, 0x01, 0xff] = [some (some 65537), some none, none] ∧
    ber [0x02, 0x03, 0x01, 0x00, 0x01, 0x02, 0x01] = [some (some 65537), some none, none] ∧
    der [] = [none, none, none] ∧ der [0x02, 0x03, 0x01, 0x00, 0x01] = [some (some 65537), none, none] ∧
    der [0x02, 0x03, 0x01, 0x00, 0x01, 0x01, 0x01, 0xff] = [some (some 65537), some none, none] ∧
    der [0x02, 0x03, 0x01, 0x00, 0x01, 0x02, 0x01] = [some (some 65537), some none, none] := by decide +kernel

/-- src/asn1_types/sequence/sequence_of.rs:255-265 `use_sequence_of`,
src/asn1_types/sequence/sequence_of.rs:268-288 `ber_parser_sequence_of_vec` -/
example :
    ((SequenceOf.mk [1, 2, 3]).push 4).items.sum = 10 ∧
    read ((sequenceOfP anyBer.parseBer (uintBer 4)).parseBer (inp [0x30, 0x00])) (·.items) = some ([], []) ∧
    read ((sequenceOfP anyBer.parseBer (uintBer 4)).parseBer (inp [0x30, 0x05, 0x02, 0x03, 0x01, 0x00,
      0x01])) (·.items) =
      some ([], [65537]) ∧
    refuses ((sequenceOfP anyBer.parseBer (uintBer 4)).parseBer (inp [0x30, 0x08, 0x02, 0x03, 0x01, 0x00, 0x01, 0x01,
      0x01, 0xff])) ∧
    refuses ((sequenceOfP anyBer.parseBer (uintBer 4)).parseBer (inp [0x30, 0x07, 0x02, 0x03, 0x01, 0x00, 0x01, 0x02,
      0x01])) := by decide +kernel

/-### src/asn1_types/set -/

/-- A table that compares an element with every other one, and iterates from the last to the first. -/
def testHash : HashImpl where
  meets _ _ := true
  self _ := rfl
  order := List.reverse
  perm := List.reverse_perm

/-- src/asn1_types/set/any_set.rs:160-174 `parse_ber_anyset`,
  src/asn1_types/set/any_set.rs:177-188 `parse_der_anyset` -/
example :
    read ((anySetP testHash anyBer.parseBer).parseBer (inp [0x31, 0x05, 0x02, 0x03, 0x01, 0x00, 0x01]))
      (fun s => (s.len, (s.iter testHash).map (anyInto (uintBer 4)))) = some ([], 1, [.ok 65537]) ∧
    read ((anySetP testHash anyBer.parseBer).parseBer (inp [0x31, 0x80, 0x02, 0x03, 0x01, 0x00, 0x01, 0x00, 0x00]))
      (fun s => (s.len, (s.iter testHash).map (anyInto (uintBer 4)))) = some ([], 1, [.ok 65537]) ∧
    read ((anySetP testHash anyDer.parseDer).parseDer (inp [0x31, 0x05, 0x02, 0x03, 0x01, 0x00, 0x01]))
      (fun s => (s.len, (s.iter testHash).map (anyInto (uintBer 4)))) = some ([], 1, [.ok 65537]) ∧
    refuses ((anySetP testHash anyDer.parseDer).parseDer (inp [0x31, 0x80, 0x02, 0x03, 0x01, 0x00, 0x01, 0x00,
      0x00])) := by decide +kernel

/-- src/asn1_types/set/any_set.rs:201-219 `tober_anyset` (the order is that of the hasher of the test) -/
example : (anySetToBer testHash).toVec
    (AnySet.ofList testHash [Any.fromTagAndData 4 (inp [0x01, 0x02, 0x03, 0x04]), Any.fromTagAndData 2 (inp [0x01,
      0x00, 0x01])]) =
      .ok [0x31, 0x0b, 0x02, 0x03, 0x01, 0x00, 0x01, 0x04, 0x04, 0x01, 0x02, 0x03, 0x04] := by decide +kernel

/-- src/asn1_types/set/hashset.rs:174-182 `ber_hashset`, src/asn1_types/set/btreeset.rs:179-187 `ber_btreeset` -/
example :
    andThen (anyFromBer [0x31, 0x06, 0x02, 0x01, 0x00, 0x02, 0x01, 0x01]) (fun r =>
      (works (seqCheck 17 checkDerInt r.2),
       (setTryFrom hashSet (fromBer (uintBer 4)) r.2).map (·.val.length),
       (setTryFrom btreeNat (fromBer (uintBer 4)) r.2).map (·.val.length))) = some (true, .ok 2, .ok 2) := by
  decide +kernel

/-- src/asn1_types/set/hashset.rs:185-196 `der_hashset`, src/asn1_types/set/btreeset.rs:190-201 `der_btreeset` -/
example :
    andThen (setFromDer hashSet (fromDer (uintBer 4) checkDerInt) [0x31, 0x06, 0x02, 0x01, 0x00, 0x02, 0x01,
      0x01]) (fun r =>
      (r.2.val, (setToBer hashSet (uintToBer 4)).contentLen r.2, (setToBer hashSet (uintToBer 4)).toVec r.2)) =
      some ([0, 1], .definite 6, .ok [0x31, 0x06, 0x02, 0x01, 0x00, 0x02, 0x01, 0x01]) ∧
    andThen (setFromDer btreeNat (fromDer (uintBer 4) checkDerInt) [0x31, 0x06, 0x02, 0x01, 0x00, 0x02, 0x01,
      0x01]) (fun r =>
      (r.2.val, (setToBer btreeNat (uintToBer 4)).contentLen r.2, (setToBer btreeNat (uintToBer 4)).toVec r.2)) =
      some ([0, 1], .definite 6, .ok [0x31, 0x06, 0x02, 0x01, 0x00, 0x02, 0x01, 0x01]) ∧
    seqFromDer 17 (fromDer (uintBer 4) checkDerInt) [0x31, 0x06, 0x02, 0x01, 0x00, 0x02, 0x01, 0x01] = .ok ([], [0,
      1]) := by
  decide +kernel

/-### src/asn1_types/strings -/

/-- src/asn1_types/strings/bmpstring.rs:172-178 `parse_ber_bmpstring`,
src/asn1_types/strings/bmpstring.rs:181-187 `parse_der_bmpstring`,
  src/asn1_types/strings/bmpstring.rs:196-201 `tober_bmpstring` -/
example :
    read (bmpBer.parseBer (inp [0x1e, 0x08, 0x00, 0x55, 0x00, 0x73, 0x00, 0x65, 0x00, 0x72])) id = some ([],
      "User".toList) ∧
    read (bmpDer.parseDer (inp [0x1e, 0x08, 0x00, 0x55, 0x00, 0x73, 0x00, 0x65, 0x00, 0x72])) id = some ([],
      "User".toList) ∧
    bmpToBer.toVec "User".toList = .ok [0x1e, 0x08, 0x00, 0x55, 0x00, 0x73, 0x00, 0x65, 0x00,
      0x72] := by decide +kernel

/-- src/asn1_types/strings/str.rs:99-109 `parse_ber_str`, src/asn1_types/strings/str.rs:112-122 `parse_der_str` -/
example :
    read (refStrBer.parseBer (inp [0x0c, 0x03, 0x31, 0x32, 0x33])) id = some ([], "123".toList) ∧
    refuses (refStrBer.parseBer (inp [0x1c, 0x10, 0x00, 0x00, 0x00, 0x61, 0x00, 0x00, 0x00, 0x62, 0x00, 0x00, 0x00,
      0x63, 0x00, 0x00, 0x00, 0x64])) ∧
    read (refStrDer.parseDer (inp [0x0c, 0x03, 0x31, 0x32, 0x33])) id = some ([], "123".toList) ∧
    refuses (refStrDer.parseDer (inp [0x1c, 0x10, 0x00, 0x00, 0x00, 0x61, 0x00, 0x00, 0x00, 0x62, 0x00, 0x00, 0x00,
      0x63, 0x00, 0x00, 0x00, 0x64])) := by decide +kernel

/-- src/asn1_types/strings/string.rs:90-100 `parse_ber_string`,
  src/asn1_types/strings/string.rs:103-113 `parse_der_string` -/
example :
    read (stringBer.parseBer (inp [0x0c, 0x03, 0x31, 0x32, 0x33])) id = some ([], "123".toList) ∧
    refuses (stringBer.parseBer (inp [0x1c, 0x10, 0x00, 0x00, 0x00, 0x61, 0x00, 0x00, 0x00, 0x62, 0x00, 0x00, 0x00,
      0x63, 0x00, 0x00, 0x00, 0x64])) ∧
    read ((strDer utf8StringK).parseDer (inp [0x0c, 0x03, 0x31, 0x32, 0x33])) id = some ([], "123".toList) ∧
    refuses ((strDer utf8StringK).parseDer (inp [0x1c, 0x10, 0x00, 0x00, 0x00, 0x61, 0x00, 0x00, 0x00, 0x62, 0x00,
      0x00, 0x00, 0x63, 0x00, 0x00, 0x00, 0x64])) := by decide +kernel

/-- src/asn1_types/strings/universalstring.rs:166-171 `parse_ber_universalstring`,
src/asn1_types/strings/universalstring.rs:174-179 `parse_der_universalstring`,
src/asn1_types/strings/universalstring.rs:188-193 `tober_universalstring` -/
example :
    read (univBer.parseBer (inp [0x1c, 0x10, 0x00, 0x00, 0x00, 0x61, 0x00, 0x00, 0x00, 0x62, 0x00, 0x00, 0x00, 0x63,
      0x00, 0x00, 0x00, 0x64])) id = some ([], "abcd".toList) ∧
    read (univDer.parseDer (inp [0x1c, 0x10, 0x00, 0x00, 0x00, 0x61, 0x00, 0x00, 0x00, 0x62, 0x00, 0x00, 0x00, 0x63,
      0x00, 0x00, 0x00, 0x64])) id = some ([], "abcd".toList) ∧
    univToBer.toVec "abcd".toList = .ok [0x1c, 0x10, 0x00, 0x00, 0x00, 0x61, 0x00, 0x00, 0x00, 0x62, 0x00, 0x00,
      0x00, 0x63, 0x00, 0x00, 0x00, 0x64] := by decide +kernel

/-- src/asn1_types/strings/visiblestring.rs:36-44 `parse_ber_visiblestring`,
src/asn1_types/strings/visiblestring.rs:47-58 `parse_ber_visiblestring_constructed`,
src/asn1_types/strings/visiblestring.rs:61-74 `parse_der_visiblestring`,
src/asn1_types/strings/visiblestring.rs:83-88 `tober_visiblestring` -/
example :
    read ((strBer visibleStringK).parseBer (inp [0x1a, 0x03, 0x31, 0x32, 0x33])) id = some ([], "123".toList) ∧
    refuses ((strBer visibleStringK).parseBer (inp [0x1a, 0x03, 0x41, 0x00, 0xd8])) ∧
    read ((strBer visibleStringK).parseBer (inp [0x3a, 0x09, 0x04, 0x03, 0x4a, 0x6f, 0x6e, 0x04, 0x02, 0x65,
      0x73])) id = some ([], "Jones".toList) ∧
    read ((strBer visibleStringK).parseBer (inp [0x3a, 0x80, 0x04, 0x03, 0x4a, 0x6f, 0x6e, 0x04, 0x02, 0x65, 0x73,
      0x00, 0x00])) id =
      some ([], "Jones".toList) ∧
    read ((strDer visibleStringK).parseDer (inp [0x1a, 0x03, 0x31, 0x32, 0x33])) id = some ([], "123".toList) ∧
    refuses ((strDer visibleStringK).parseDer (inp [0x1a, 0x03, 0x41, 0x00, 0xd8])) ∧
    refuses ((strDer visibleStringK).parseDer (inp [0x3a, 0x09, 0x04, 0x03, 0x4a, 0x6f, 0x6e, 0x04, 0x02, 0x65,
      0x73])) ∧
    (strToBer 26).toVec "123".toList = .ok [0x1a, 0x03, 0x31, 0x32, 0x33] := by decide +kernel

/-### src/asn1_types/tagged -/

/-- src/asn1_types/tagged/application.rs:49-54 `from_ber_application_implicit`,
src/asn1_types/tagged/private.rs:49-54 `from_ber_private_implicit` -/
example :
    value (fromBerWith (implicitTryFrom .application 0 2 (tryFromAny integerBer)) [0x40, 0x01, 0x02]) =
      (Integer.fromUint 1 2).map TaggedValue.mk ∧
    value (fromBerWith (implicitTryFrom .priv 0 2 (tryFromAny integerBer)) [0xc0, 0x01, 0x02]) =
      (Integer.fromUint 1 2).map TaggedValue.mk := by decide +kernel

/-- `TaggedExplicit<bool, _, 0>` and `TaggedImplicit<bool, _, 0>`. -/
abbrev exB : Parser (TaggedValue Bool) := explicitP .contextSpecific 0 boolBer.parseBer
abbrev imB : Parser (TaggedValue Bool) := implicitP .contextSpecific 0 boolBer

/-- src/asn1_types/tagged/explicit.rs:393-411 `check_tagged_explicit` -/
example :
    refuses (exB.parseBer (inp [0x01, 0x01, 0xff])) ∧ read (exB.parseBer (inp [0xa0, 0x03, 0x01, 0x01,
      0xff])) id = some ([], ⟨true⟩) ∧
    refuses (exB.parseBer (inp [0xa1, 0x03, 0x01, 0x01, 0xff])) ∧ refuses (exB.parseBer (inp [0x60, 0x03, 0x01, 0x01,
      0xff])) := by decide +kernel

/-- src/asn1_types/tagged/explicit.rs:414-460 `check_opttagged_explicit` -/
example :
    read (exB.parseBerOptional (inp [])) id = some ([], none) ∧
    (read (exB.parseBerOptional (inp [0xa1, 0x03, 0x01, 0x01, 0xff])) id).map (·.2) = some none ∧
    read (exB.parseBerOptional (inp [0xa0, 0x03, 0x01, 0x01, 0xff])) id = some ([], some ⟨true⟩) ∧
    refuses (exB.parseBerOptional (inp [0xa0, 0x03, 0x01, 0x02, 0xff, 0xff])) ∧
    read (optionParse parseHeader exB (inp [])) id = some ([], none) ∧
    (read (optionParse parseHeader exB (inp [0xa1, 0x03, 0x01, 0x01, 0xff])) id).map (·.2) = some none ∧
    read (optionParse parseHeader exB (inp [0xa0, 0x03, 0x01, 0x01, 0xff])) id = some ([], some ⟨true⟩) ∧
    refuses (optionParse parseHeader exB (inp [0xa0, 0x03, 0x01, 0x02, 0xff, 0xff])) := by decide +kernel

/-- src/asn1_types/tagged/explicit.rs:471-484 `tober_tagged_explicit` -/
example :
    (explicitToBer .contextSpecific 0 (fun _ => 1) boolToBer).toVec ⟨true⟩ = .ok [0xa0, 0x03, 0x01, 0x01, 0xff] ∧
    read (exB.parseBer (inp [0xa0, 0x03, 0x01, 0x01, 0xff])) id = some ([], ⟨true⟩) := by decide +kernel

/-- src/asn1_types/tagged/implicit.rs:391-409 `check_tagged_implicit` -/
example :
    refuses (imB.parseBer (inp [0x01, 0x01, 0xff])) ∧ read (imB.parseBer (inp [0x80, 0x01, 0xff])) id = some ([],
      ⟨true⟩) ∧
    refuses (imB.parseBer (inp [0x81, 0x01, 0xff])) ∧ refuses (imB.parseBer (inp [0x40, 0x01,
      0xff])) := by decide +kernel

/-- src/asn1_types/tagged/implicit.rs:412-458 `check_opttagged_implicit` -/
example :
    read (imB.parseBerOptional (inp [])) id = some ([], none) ∧
    (read (imB.parseBerOptional (inp [0x81, 0x01, 0xff])) id).map (·.2) = some none ∧
    read (imB.parseBerOptional (inp [0x80, 0x01, 0xff])) id = some ([], some ⟨true⟩) ∧
    refuses (imB.parseBerOptional (inp [0x80, 0x02, 0xff, 0xff])) ∧
    read (optionParse parseHeader imB (inp [])) id = some ([], none) ∧
    (read (optionParse parseHeader imB (inp [0x81, 0x01, 0xff])) id).map (·.2) = some none ∧
    read (optionParse parseHeader imB (inp [0x80, 0x01, 0xff])) id = some ([], some ⟨true⟩) ∧
    refuses (optionParse parseHeader imB (inp [0x80, 0x02, 0xff, 0xff])) := by decide +kernel

/-- src/asn1_types/tagged/implicit.rs:469-482 `tober_tagged_implicit` -/
example :
    (implicitToBer .contextSpecific 0 (fun _ => false) boolToBer).toVec ⟨true⟩ = .ok [0x80, 0x01, 0xff] ∧
    read (imB.parseBer (inp [0x80, 0x01, 0xff])) id = some ([], ⟨true⟩) := by decide +kernel

end Asn1.Tests

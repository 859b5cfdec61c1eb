import Verif.Tests.Lib
import Verif.Model.TimeText
import Verif.Props.Sets
/-!
# tests/der.rs
-/
set_option autoImplicit false

namespace Asn1.Tests
open Asn1 Spec

/-- tests/der.rs:9-15 `from_der_any`, tests/der.rs:18-29 `from_der_any_into` -/
example :
    andThen (anyFromDer [0x02, 0x01, 0x02, 0xff, 0xff])
        (fun r => (r.1, r.2.header.tag, tryFromAny (uintBer 4) r.2, anyInto (uintBer 4) r.2)) =
      some ([0xff, 0xff], 2, .ok 2, .ok 2) := by decide +kernel

/-- tests/der.rs:32-58 `from_der_bitstring` -/
example :
    andThen (fromDer bitBer bitCheck [0x03, 0x04, 0x06, 0x6e, 0x5d, 0xc0]) (fun r => (r.1, r.2.nbits)) = some ([],
      3 * 8 - 6) ∧
    fromDer bitBer bitCheck [0x03, 0x04, 0x06, 0x6e, 0x5d,
      0xe0] = .error (.error (.derConstraintFailed .unusedBitsNotZero)) := by
  decide +kernel

/-- tests/der.rs:61-67 `from_der_bitstring_constructed` -/
example : fromDer bitBer bitCheck [0x23, 0x81, 0x0c, 0x03, 0x03, 0x00, 0x0a, 0x3b, 0x03, 0x05, 0x04, 0x5f, 0x29,
  0x1c, 0xd0] =
    .error (.error .constructUnexpected) := by decide +kernel

/-- tests/der.rs:70-76 `from_der_bmpstring` -/
example : fromDer bmpBer strCheck [0x1e, 0x08, 0x00, 0x55, 0x00, 0x73, 0x00, 0x65, 0x00, 0x72] = .ok ([],
  "User".toList) := by decide +kernel

/-- tests/der.rs:79-104 `from_der_bool` -/
example :
    fromDer booleanBer booleanCheck [0x01, 0x01, 0x00] = .ok ([], 0x00) ∧
    fromDer booleanBer booleanCheck [0x01, 0x01, 0xff] = .ok ([], 0xff) ∧
    fromDer booleanBer booleanCheck [0x01, 0x01, 0x7f] = .error (.error (.derConstraintFailed .invalidBoolean)) ∧
    fromDer boolBer booleanCheck [0x01, 0x01, 0x00] = .ok ([], false) := by decide +kernel

/-- tests/der.rs:107-112 `from_der_enumerated` -/
example : fromDer enumeratedBer enumeratedCheck [0x0a, 0x01, 0x02] = .ok ([], 2) := by decide +kernel

/-- tests/der.rs:115-154 `from_der_generalizedtime` -/
example :
    andThen (fromDer genBer genCheck [0x18, 0x0f, 0x32, 0x30, 0x30, 0x32, 0x31, 0x32, 0x31, 0x33, 0x31, 0x34, 0x32,
      0x39, 0x32, 0x33, 0x5a, 0xff])
        (fun r => (r.1, toDatetime 25 r.2)) =
      some ([0xff], .ok ⟨2002, 12, 13, 14, 29, 23, 0, 0⟩) := by decide +kernel

example : fromDer genBer genCheck ([0x18, 0x10] ++ ascii "19851106210627.3") =
    .error (.error (.derConstraintFailed .missingTimeZone)) := by decide +kernel

example :
    andThen (fromDer genBer genCheck ([0x18, 0x11] ++ ascii "19851106210627.3Z"))
        (fun r => (r.1, r.2.millisecond, r.2.tz, toDatetime 25 r.2)) =
      some ([], some 300, .z, .ok ⟨1985, 11, 6, 21, 6, 27, 300, 0⟩) := by decide +kernel

example : fromDer genBer genCheck ([0x18, 0x15] ++ ascii "19851106210627.3-0500") =
    .error (.error (.derConstraintFailed .missingTimeZone)) := by decide +kernel

/-- tests/der.rs:157-167 `from_der_indefinite_length` -/
example :
    fromDer bitBer bitCheck [0x23, 0x80, 0x03, 0x03, 0x00, 0x0a, 0x3b, 0x03, 0x05, 0x04, 0x5f, 0x29, 0x1c, 0xd0,
      0x00, 0x00] =
      .error (.error (.derConstraintFailed .indefiniteLength)) ∧
    fails (fromDer integerBer checkDerInt [0x02, 0x80, 0x01, 0x00, 0x00]) := by decide +kernel

/-- tests/der.rs:170-183 `from_der_int` -/
example :
    fromDer (uintBer 1) checkDerInt [0x02, 0x01, 0x02, 0xff, 0xff] = .ok ([0xff, 0xff], 2) ∧
    fromDer (uintBer 1) checkDerInt [0x02, 0x03, 0x00, 0xff, 0xff] = .error (.error .integerTooLarge) ∧
    fromDer (intBer 2) checkDerInt [0x02, 0x03, 0x00, 0xff,
      0xff] = .error (.error .integerTooLarge) := by decide +kernel

/-- tests/der.rs:186-194 `from_der_null` -/
example : fromDer nullP nullCheck [0x05, 0x00, 0xff, 0xff] = .ok ([0xff, 0xff], ()) := by decide +kernel

/-- tests/der.rs:197-206 `from_der_numericstring` -/
example :
    fromDer (strBer numericStringK) strCheck [0x12, 0x03, 0x31, 0x32, 0x33] = .ok ([], "123".toList) ∧
    fails (fromDer (strBer numericStringK) strCheck [0x12, 0x03, 0x41, 0x42, 0x43]) := by decide +kernel

/-- tests/der.rs:209-224 `from_der_octetstring`, tests/der.rs:227-232 `from_der_octetstring_as_slice` -/
example :
    fromDer octetBer octetCheck [0x04, 0x05, 0x41, 0x41, 0x41, 0x41, 0x41] = .ok ([], ascii "AAAAA") ∧
    fromDer sliceBer octetCheck [0x04, 0x05, 0x41, 0x41, 0x41, 0x41, 0x41] = .ok ([],
      ascii "AAAAA") := by decide +kernel

/-- tests/der.rs:235-241 `from_der_oid` -/
example : andThen (fromDer oidP oidCheck [0x06, 0x09, 0x2a, 0x86, 0x48, 0x86, 0xf7, 0x0d, 0x01, 0x01,
  0x05]) (fun r => (r.1, Except.ok r.2)) =
    some ([], Oid.from [1, 2, 840, 113549, 1, 1, 5]) := by decide +kernel

/-- tests/der.rs:244-255 `from_der_optional` -/
example :
    rawAndThen (rawFromDer 16) (fun input => do
        let (i, obj0) ← optionFrom (tagIs 10) parseHeaderDer (fromDer enumeratedBer enumeratedCheck) input
        let (i, obj1) ← fromDer (uintBer 4) checkDerInt i
        pure (i, (obj0, obj1)))
      [0x30, 0x0a, 0x0a, 0x03, 0x00, 0x00, 0x01, 0x02, 0x03, 0x01, 0x00, 0x01] = .ok ([], (some 1,
        65537)) := by decide +kernel

/-- tests/der.rs:258-265 `from_der_real_f32`, tests/der.rs:268-275 `from_der_real_f64` -/
example :
    fromDer (f32P testLib) realCheck [0x09, 0x03, 0x80, 0xff, 0x01, 0xff, 0xff] = .ok ([0xff, 0xff],
      .fin false 1 (-1)) ∧
    fromDer (f64P testLib) realCheck [0x09, 0x03, 0x80, 0xff, 0x01, 0xff, 0xff] = .ok ([0xff, 0xff],
      .fin false 1 (-1)) := by
  decide +kernel

/-- tests/der.rs:278-284 `from_der_relative_oid` -/
example : andThen (Oid.fromDerRelative [0x0d, 0x04, 0xc2, 0x7b, 0x03, 0x02]) (fun r => (r.1, Except.ok r.2)) =
    some ([], Oid.fromRelative [8571, 3, 2]) := by decide +kernel

/-- tests/der.rs:287-292 `from_der_sequence`, tests/der.rs:295-300 `from_der_sequence_vec` -/
example :
    rawFromDer 16 [0x30, 0x05, 0x02, 0x03, 0x01, 0x00, 0x01] = .ok ([], ⟨[0x02, 0x03, 0x01, 0x00, 0x01], false⟩) ∧
    seqFromDer 16 (fromDer (uintBer 4) checkDerInt) [0x30, 0x05, 0x02, 0x03, 0x01, 0x00, 0x01] = .ok ([],
      [65537]) := by decide +kernel

/-- tests/der.rs:303-313 `from_der_iter_sequence_parse`, tests/der.rs:315-325 `from_der_iter_sequence` -/
example :
    rawFromDer 16 [0x30, 0x0a, 0x02, 0x03, 0x01, 0x00, 0x01, 0x02, 0x03, 0x01, 0x00, 0x01] =
      .ok ([], ⟨[0x02, 0x03, 0x01, 0x00, 0x01, 0x02, 0x03, 0x01, 0x00, 0x01], false⟩) ∧
    RawSeq.parseInto ⟨[0x02, 0x03, 0x01, 0x00, 0x01, 0x02, 0x03, 0x01, 0x00, 0x01], false⟩ (fun i => do
        let (i, a) ← fromDer (uintBer 4) checkDerInt i
        let (i, b) ← fromDer (uintBer 4) checkDerInt i
        pure (i, (a, b))) = .ok ([], (65537, 65537)) ∧
    collectItems (fromDer (uintBer 4) checkDerInt) [0x02, 0x03, 0x01, 0x00, 0x01, 0x02, 0x03, 0x01, 0x00,
      0x01] = .ok [65537, 65537] := by
  decide +kernel

/-- tests/der.rs:328-337 `from_der_iter_sequence_incomplete` -/
example :
    rawFromDer 16 [0x30, 0x09, 0x02, 0x03, 0x01, 0x00, 0x01, 0x02, 0x03, 0x01, 0x00] = .ok ([], ⟨[0x02, 0x03, 0x01,
      0x00, 0x01, 0x02, 0x03, 0x01, 0x00], false⟩) ∧
    (do
      let (a, it) ← (SeqIter.new [0x02, 0x03, 0x01, 0x00, 0x01, 0x02, 0x03, 0x01,
        0x00]).next (fromDer (uintBer 4) checkDerInt)
      let (b, it) ← it.next (fromDer (uintBer 4) checkDerInt)
      let (c, _) ← it.next (fromDer (uintBer 4) checkDerInt)
      pure (a, b, c)) =
      (.ok (some (.ok 65537), some (.error (.incomplete (.size 1))), none) : Except SErr _) := by decide +kernel

/-- tests/der.rs:340-348 `from_der_set`, tests/der.rs:351-357 `from_der_set_btreeset`,
  tests/der.rs:360-366 `from_der_set_of_vec` -/
example :
    rawFromDer 17 [0x31, 0x05, 0x02, 0x03, 0x01, 0x00, 0x01] = .ok ([], ⟨[0x02, 0x03, 0x01, 0x00, 0x01], false⟩) ∧
    (rawAndThen (rawFromDer 17) (fromDer integerBer checkDerInt) [0x31, 0x05, 0x02, 0x03, 0x01, 0x00,
      0x01] >>= fun r =>
      r.2.asMachine (uintBer 4)) = .ok 0x10001 ∧
    andThen (setFromDer btreeNat (fromDer (uintBer 4) checkDerInt) [0x31, 0x05, 0x02, 0x03, 0x01, 0x00,
      0x01]) (fun r => (r.1, r.2.val)) =
      some ([], [65537]) ∧
    collectItems (fromDer (uintBer 4) checkDerInt) [0x02, 0x03, 0x01, 0x00, 0x01] = .ok [65537] := by decide +kernel

/-- tests/der.rs:369-379 `from_der_iter_set` -/
example :
    rawFromDer 17 [0x31, 0x0a, 0x02, 0x03, 0x01, 0x00, 0x01, 0x02, 0x03, 0x01, 0x00, 0x01] =
      .ok ([], ⟨[0x02, 0x03, 0x01, 0x00, 0x01, 0x02, 0x03, 0x01, 0x00, 0x01], false⟩) ∧
    collectItems (fromDer (uintBer 4) checkDerInt) [0x02, 0x03, 0x01, 0x00, 0x01, 0x02, 0x03, 0x01, 0x00,
      0x01] = .ok [65537, 65537] := by
  decide +kernel

/-- tests/der.rs:382-418 `from_der_utctime` -/
example :
    andThen (fromDer utcBer utcCheck [0x17, 0x0d, 0x30, 0x32, 0x31, 0x32, 0x31, 0x33, 0x31, 0x34, 0x32, 0x39, 0x32,
      0x33, 0x5a, 0xff])
        (fun r => (r.1, toDatetime 25 r.2)) = some ([0xff], .ok ⟨2, 12, 13, 14, 29, 23, 0, 0⟩) := by decide +kernel

example :
    andThen (fromDer utcBer utcCheck [0x17, 0x11, 0x30, 0x32, 0x31, 0x32, 0x31, 0x33, 0x31, 0x34, 0x32, 0x39, 0x32,
      0x33, 0x2b, 0x30, 0x33, 0x30, 0x30, 0xff])
        (fun r => (r.1, toDatetime 25 r.2)) = some ([0xff], .ok ⟨2, 12, 13, 14, 29, 23, 0, 180⟩) := by
  decide +kernel

example :
    andThen (fromDer utcBer utcCheck [0x17, 0x11, 0x30, 0x32, 0x31, 0x32, 0x31, 0x33, 0x31, 0x34, 0x32, 0x39, 0x32,
      0x33, 0x2d, 0x30, 0x33, 0x30, 0x30, 0xff])
        (fun r => (r.1, toDatetime 25 r.2)) = some ([0xff], .ok ⟨2, 12, 13, 14, 29, 23, 0, -180⟩) := by
  decide +kernel

/-- tests/der.rs:422-441 `utctime_adjusted_datetime` -/
example :
    andThen (fromDer utcBer utcCheck [0x17, 0x0d, 0x30, 0x32, 0x31, 0x32, 0x31, 0x33, 0x31, 0x34, 0x32, 0x39, 0x32,
      0x33, 0x5a, 0xff])
        (fun r => utcAdjustedDatetime 25 r.2) = some (.ok ⟨2002, 12, 13, 14, 29, 23, 0, 0⟩) ∧
    andThen (fromDer utcBer utcCheck [0x17, 0x0d, 0x35, 0x30, 0x31, 0x32, 0x31, 0x33, 0x31, 0x34, 0x32, 0x39, 0x32,
      0x33, 0x5a, 0xff])
        (fun r => utcAdjustedDatetime 25 r.2) = some (.ok ⟨1950, 12, 13, 14, 29, 23, 0, 0⟩) := by
  decide +kernel

/-- tests/der.rs:444-449 `from_der_utf8string`, tests/der.rs:452-457 `from_der_utf8string_as_str`,
tests/der.rs:460-465 `from_der_utf8string_as_string` -/
example :
    fromDer (strBer utf8StringK) strCheck [0x0c, 0x0a, 0x53, 0x6f, 0x6d, 0x65, 0x2d, 0x53, 0x74, 0x61, 0x74,
      0x65] = .ok ([], "Some-State".toList) ∧
    fromDer refStrBer strCheck [0x0c, 0x0a, 0x53, 0x6f, 0x6d, 0x65, 0x2d, 0x53, 0x74, 0x61, 0x74, 0x65] = .ok ([],
      "Some-State".toList) ∧
    fromDer stringBer strCheck [0x0c, 0x0a, 0x53, 0x6f, 0x6d, 0x65, 0x2d, 0x53, 0x74, 0x61, 0x74, 0x65] = .ok ([],
      "Some-State".toList) := by
  decide +kernel

/-- tests/der.rs:468-481 `from_der_opt_int` -/
example :
    optionFrom (tagIs 2) parseHeaderDer (fromDer (uintBer 1) checkDerInt) [0x02, 0x01, 0x02, 0xff, 0xff] =
      .ok ([0xff, 0xff], some 2) ∧
    optionFrom (tagIs 22) parseHeaderDer (fromDer (strBer ia5StringK) strCheck) [0x02, 0x01, 0x02, 0xff, 0xff] =
      .ok ([0x02, 0x01, 0x02, 0xff, 0xff], none) ∧
    optionFrom (tagIs 2) parseHeaderDer (fromDer (uintBer 1) checkDerInt) [0x02, 0x03, 0x02, 0x01] =
      .error (.incomplete 1) := by decide +kernel

/-- tests/der.rs:484-490 `from_der_tagged_explicit`, tests/der.rs:493-503 `from_der_tagged_explicit_with_class`,
tests/der.rs:506-512 `from_der_tagged_explicit_any_tag` -/
example :
    explicitFromDer .contextSpecific 0 (fromDer (uintBer 4) checkDerInt) [0xa0, 0x03, 0x02, 0x01, 0x02] = .ok ([],
      ⟨2⟩) ∧
    andThen (taggedParserExplicit parseDerAny (fromDer (uintBer 4) checkDerInt) [0xa0, 0x03, 0x02, 0x01, 0x02])
      (fun r => (r.1, r.2.header.tag, r.2.inner)) = some ([], 0, 2) := by decide +kernel

/-- tests/der.rs:515-544 `from_der_tagged_explicit_optional` -/
example :
    optionFrom (tagIs 0) parseHeaderDer (explicitFromDer .contextSpecific 0 (fromDer (uintBer 4) checkDerInt))
      [0xa0, 0x03, 0x02, 0x01, 0x02] = .ok ([], some ⟨2⟩) ∧
    optionFrom (tagIs 1) parseHeaderDer (explicitFromDer .contextSpecific 1 (fromDer (uintBer 4) checkDerInt))
      [0xa0, 0x03, 0x02, 0x01, 0x02] = .ok ([0xa0, 0x03, 0x02, 0x01, 0x02], none) ∧
    (OptTaggedParser.tagged 0).run parseDerAny [0xa0, 0x03, 0x02, 0x01,
      0x02] (fun _ data => fromDer integerBer checkDerInt data) =
      .ok ([], Integer.fromInt 4 2) := by decide +kernel

/-- tests/der.rs:547-553 `from_der_tagged_implicit`, tests/der.rs:556-566 `from_der_tagged_implicit_with_class`,
tests/der.rs:569-575 `from_der_tagged_implicit_any_tag` -/
example :
    implicitFromDer .contextSpecific 1 12 (tryFromAny refStrBer) [0x81, 0x04, 0x70, 0x61, 0x73, 0x73] =
      .ok ([], ⟨"pass".toList⟩) ∧
    andThen (taggedParserImplicitDer 12 strCheck (tryFromAny refStrBer) [0x81, 0x04, 0x70, 0x61, 0x73, 0x73])
      (fun r => (r.1, r.2.header.tag, r.2.inner)) = some ([], 1, "pass".toList) := by decide +kernel

/-- tests/der.rs:578-600 `from_der_tagged_implicit_optional` -/
example :
    optionFrom (tagIs 1) parseHeaderDer (implicitFromDer .contextSpecific 1 12 (tryFromAny refStrBer))
      [0x81, 0x04, 0x70, 0x61, 0x73, 0x73] = .ok ([], some ⟨"pass".toList⟩) ∧
    optionFrom (tagIs 0) parseHeaderDer (implicitFromDer .contextSpecific 0 12 (tryFromAny refStrBer))
      [0x81, 0x04, 0x70, 0x61, 0x73, 0x73] = .ok ([0x81, 0x04, 0x70, 0x61, 0x73, 0x73], none) := by decide +kernel

/-- tests/der.rs:603-630 `from_der_tagged_implicit_all` -/
example :
    let p := taggedParserImplicitDer 22 strCheck (tryFromAny (strBer ia5StringK))
    andThen (p [0x81, 0x04, 0x70, 0x61, 0x73, 0x73]) (fun r => (r.1, r.2.header.tag, r.2.inner)) = some ([], 1,
      "pass".toList) ∧
    works (TaggedParser.parse .contextSpecific 1 p [0x81, 0x04, 0x70, 0x61, 0x73, 0x73]) ∧
    works (((TaggedParserBuilder.new.withClass .contextSpecific).withTag 1).parser p [0x81, 0x04, 0x70, 0x61, 0x73,
      0x73]) ∧
    works (parseDerTagged 1 p [0x81, 0x04, 0x70, 0x61, 0x73, 0x73]) ∧
    fails (parseDerTagged 2 p [0x81, 0x04, 0x70, 0x61, 0x73, 0x73]) := by decide +kernel

/-- tests/der.rs:634-652 `from_der_tagged_optional_cov` -/
example :
    let p := fun input => (OptTaggedParser.tagged 1).run parseDerAny input (fun _ data => .ok (data, ()))
    value (p []) = some none ∧ value (p [0xa0, 0x03, 0x02, 0x01, 0x02]) = some none ∧ fails (p [0xe1, 0x03, 0x02,
      0x01, 0x02]) := by
  decide +kernel

end Asn1.Tests

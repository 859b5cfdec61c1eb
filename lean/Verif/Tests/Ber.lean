import Verif.Tests.Lib
/-!
# tests/ber.rs
-/
set_option autoImplicit false

namespace Asn1.Tests
open Asn1 Spec

/-- tests/ber.rs:8-14 `from_ber_any` -/
example : andThen (anyFromBer [0x02, 0x01, 0x02, 0xff, 0xff]) (fun r => (r.1, r.2.header.tag)) = some ([0xff, 0xff],
  2) := by
  decide +kernel

/-- tests/ber.rs:17-41 `from_ber_bitstring` -/
example :
    andThen (fromBer bitBer [0x03, 0x04, 0x06, 0x6e, 0x5d, 0xc0]) (fun r => (r.1, r.2.nbits)) = some ([], 3 * 8 - 6) ∧
    andThen (fromBer bitBer [0x03, 0x04, 0x06, 0x6e, 0x5d, 0xe0]) (fun r => (r.1, r.2.nbits)) = some ([], 3 * 8 - 6) ∧
    andThen (fromBer bitBer [0x03, 0x81, 0x04, 0x06, 0x6e, 0x5d, 0xc0]) (fun r => (r.1, r.2.nbits)) = some ([],
      3 * 8 - 6) := by
  decide +kernel

/-- tests/ber.rs:44-48 `from_ber_endofcontent` -/
example : fromBer endOfContentBer [0x00, 0x00] = .ok ([], ()) := by decide +kernel

/-- tests/ber.rs:51-110 `from_ber_generalizedtime` -/
example :
    andThen (fromBer genBer [0x18, 0x0f, 0x32, 0x30, 0x30, 0x32, 0x31, 0x32, 0x31, 0x33, 0x31, 0x34, 0x32, 0x39,
      0x32, 0x33, 0x5a, 0xff])
        (fun r => (r.1, toDatetime 25 r.2)) =
      some ([0xff], .ok ⟨2002, 12, 13, 14, 29, 23, 0, 0⟩) := by decide +kernel

example :
    andThen (fromBer genBer ([0x18, 0x10] ++ ascii "19851106210627.3"))
        (fun r => (r.1, r.2.millisecond, r.2.tz, toDatetime 25 r.2)) =
      some ([], some 300, .undefined, .ok ⟨1985, 11, 6, 21, 6, 27, 300, 0⟩) := by decide +kernel

example :
    andThen (fromBer genBer ([0x18, 0x11] ++ ascii "19851106210627.3Z"))
        (fun r => (r.1, r.2.millisecond, r.2.tz, toDatetime 25 r.2)) =
      some ([], some 300, .z, .ok ⟨1985, 11, 6, 21, 6, 27, 300, 0⟩) := by decide +kernel

example :
    andThen (fromBer genBer ([0x18, 0x12] ++ ascii "19851106210627.03Z"))
        (fun r => (r.1, r.2.millisecond, r.2.tz, toDatetime 25 r.2)) =
      some ([], some 30, .z, .ok ⟨1985, 11, 6, 21, 6, 27, 30, 0⟩) := by decide +kernel

example :
    andThen (fromBer genBer ([0x18, 0x15] ++ ascii "19851106210627.3-0500"))
        (fun r => (r.1, r.2.millisecond, r.2.tz, toDatetime 25 r.2)) =
      some ([], some 300, .offset (-5) 0, .ok ⟨1985, 11, 6, 21, 6, 27, 300, -300⟩) := by decide +kernel

/-- tests/ber.rs:113-118 `from_ber_int` -/
example : fromBer (uintBer 1) [0x02, 0x01, 0x02, 0xff, 0xff] = .ok ([0xff, 0xff], 2) := by decide +kernel

/-- tests/ber.rs:121-126 `from_ber_relative_oid` -/
example : Oid.fromBerRelative [0x0d, 0x04, 0xc2, 0x7b, 0x03, 0x02] =
    (Oid.fromRelative [8571, 3, 2]).mapError (fun _ => .panic) >>= fun o => .ok ([], o) := by decide +kernel

/-- tests/ber.rs:129-145 `from_ber_length_incomplete` -/
example :
    fromBer (uintBer 1) [0x30] = .error (.incomplete 1) ∧
    fromBer (uintBer 1) [0x02] = .error (.incomplete 1) ∧
    fromBer (uintBer 1) [0x02, 0x05] = .error (.incomplete 5) ∧
    fromBer (uintBer 1) [0x02, 0x85] = .error (.incomplete 5) ∧
    fromBer (uintBer 1) [0x02, 0x85, 0xff] = .error (.incomplete 4) := by decide +kernel

/-- tests/ber.rs:148-166 `from_ber_length_invalid` -/
example :
    fromBer (uintBer 1) [0x02, 0xff, 0x00, 0x01, 0x02, 0x03, 0x04, 0x05, 0x06, 0x07, 0x08, 0x09, 0x0a, 0x0b, 0x0c,
      0x0d, 0x0e, 0x0f, 0x10] =
      .error (.error .invalidLength) ∧
    fromBer (uintBer 1) [0x02, 0x85, 0xff, 0xff, 0xff, 0xff, 0xff, 0x00] = .error (.incomplete (2 ^ 40 - 1 - 1)) ∧
    fromBer (uintBer 1) [0x02, 0x04, 0x00] = .error (.incomplete 3) := by decide +kernel

/-- tests/ber.rs:169-174 `from_ber_octetstring` -/
example : fromBer octetBer [0x04, 0x05, 0x41, 0x41, 0x41, 0x41, 0x41] = .ok ([], ascii "AAAAA") := by decide +kernel

/-- tests/ber.rs:177-210 `from_ber_real_binary` -/
example :
    andThen (fromBer (realP testLib) [0x09, 0x03, 0x80, 0xff, 0x01, 0xff, 0xff]) (fun r => (r.1, r.2,
      r.2.f32 testLib)) =
      some ([0xff, 0xff], Real.ofBinary (.fin false 1 0) 2 (-1), .fin false 1 (-1)) ∧
    andThen (fromBer (realP testLib) [0x09, 0x03, 0x94, 0xff, 0x0d, 0xff, 0xff]) (fun r => (r.1, r.2,
      r.2.f32 testLib)) =
      some ([0xff, 0xff], (Real.ofBinary (.fin false 13 1) 2 (-3)).withEncBase 8, .fin false 13 (-2)) ∧
    andThen (fromBer (realP testLib) [0x09, 0x03, 0xa0, 0xfe, 0x01, 0xff, 0xff]) (fun r => (r.1, r.2,
      r.2.f32 testLib)) =
      some ([0xff, 0xff], (Real.ofBinary (.fin false 1 0) 2 (-8)).withEncBase 16, .fin false 1 (-8)) ∧
    andThen (fromBer (realP testLib) [0x09, 0x03, 0x80, 0x00, 0x01, 0xff, 0xff]) (fun r => (r.1, r.2,
      r.2.f32 testLib)) =
      some ([0xff, 0xff], Real.ofBinary (.fin false 1 0) 2 0, .fin false 1 0) ∧
    andThen (fromBer (realP testLib) [0x09, 0x04, 0xa1, 0xff, 0x01, 0x03, 0xff, 0xff]) (fun r => (r.1, r.2,
      r.2.f64 testLib)) =
      some ([0xff, 0xff], (Real.ofBinary (.fin false 3 0) 2 (-1020)).withEncBase 16, .fin false 3 (-1020)) := by
  decide +kernel

/-- tests/ber.rs:213-220 `from_ber_real_f32`, tests/ber.rs:223-230 `from_ber_real_f64` -/
example :
    fromBer (f32P testLib) [0x09, 0x03, 0x80, 0xff, 0x01, 0xff, 0xff] = .ok ([0xff, 0xff], .fin false 1 (-1)) ∧
    fromBer (f64P testLib) [0x09, 0x03, 0x80, 0xff, 0x01, 0xff, 0xff] = .ok ([0xff, 0xff],
      .fin false 1 (-1)) := by decide +kernel

/-- tests/ber.rs:233-249 `from_ber_real_special` -/
example :
    andThen (fromBer (realP testLib) [0x09, 0x00, 0xff, 0xff]) (fun r => (r.1, some r.2)) =
      some ([0xff, 0xff], Real.new (.fin false 0 0)) ∧
    fromBer (realP testLib) [0x09, 0x01, 0x40, 0xff, 0xff] = .ok ([0xff, 0xff], .infinity) ∧
    fromBer (realP testLib) [0x09, 0x01, 0x41, 0xff, 0xff] = .ok ([0xff, 0xff], .negInfinity) := by decide +kernel

/-- tests/ber.rs:253-259 `from_ber_real_string` -/
example : andThen (fromBer (realP testLib) [0x09, 0x07, 0x03, 0x33, 0x31, 0x34, 0x45, 0x2d, 0x32, 0xff,
  0xff]) (fun r => (r.1, some r.2)) =
    some ([0xff, 0xff], Real.new (decimalF64 314 (-2))) := by decide +kernel

/-- tests/ber.rs:263-269 `from_ber_real_string_primitive` -/
example : fromBer (f32P testLib) [0x09, 0x07, 0x03, 0x33, 0x31, 0x34, 0x45, 0x2d, 0x32, 0xff, 0xff] =
    .ok ([0xff, 0xff], (decimalF64 314 (-2)).toF32) := by decide +kernel

/-- tests/ber.rs:272-280 `from_ber_sequence` -/
example :
    fromBerWith (rawTryFrom 16) [0x30, 0x05, 0x02, 0x03, 0x01, 0x00, 0x01] = .ok ([], ⟨[0x02, 0x03, 0x01, 0x00,
      0x01], false⟩) ∧
    (rawAndThen (fromBerWith (rawTryFrom 16)) (fromBer integerBer) [0x30, 0x05, 0x02, 0x03, 0x01, 0x00,
      0x01] >>= fun r =>
      r.2.asMachine (uintBer 4)) = .ok 0x10001 := by decide +kernel

/-- tests/ber.rs:283-288 `from_ber_sequence_vec`, tests/ber.rs:291-299 `from_ber_sequence_of_vec` -/
example :
    fromBerWith (seqTryFrom 16 (fromBer (uintBer 4))) [0x30, 0x05, 0x02, 0x03, 0x01, 0x00, 0x01] = .ok ([], [65537]) ∧
    (fromBerWith (rawTryFrom 16) [0x30, 0x05, 0x02, 0x03, 0x01, 0x00, 0x01] >>= fun r =>
      collectItems (fromBer (uintBer 4)) r.2.content) = .ok [65537] := by decide +kernel

/-- tests/ber.rs:302-312 `from_ber_iter_sequence` -/
example : (fromBerWith (rawTryFrom 16) [0x30, 0x0a, 0x02, 0x03, 0x01, 0x00, 0x01, 0x02, 0x03, 0x01, 0x00,
  0x01] >>= fun r =>
    collectItems (fromBer (uintBer 4)) r.2.content) = .ok [65537, 65537] := by decide +kernel

/-- tests/ber.rs:315-323 `from_ber_set`, tests/ber.rs:326-332 `from_ber_set_of_vec` -/
example :
    fromBerWith (rawTryFrom 17) [0x31, 0x05, 0x02, 0x03, 0x01, 0x00, 0x01] = .ok ([], ⟨[0x02, 0x03, 0x01, 0x00,
      0x01], false⟩) ∧
    (rawAndThen (fromBerWith (rawTryFrom 17)) (fromBer integerBer) [0x31, 0x05, 0x02, 0x03, 0x01, 0x00,
      0x01] >>= fun r =>
      r.2.asMachine (uintBer 4)) = .ok 0x10001 ∧
    (fromBerWith (rawTryFrom 17) [0x31, 0x05, 0x02, 0x03, 0x01, 0x00, 0x01] >>= fun r =>
      collectItems (fromBer (uintBer 4)) r.2.content) = .ok [65537] := by decide +kernel

/-- tests/ber.rs:335-345 `from_ber_iter_set` -/
example : (fromBerWith (rawTryFrom 17) [0x31, 0x0a, 0x02, 0x03, 0x01, 0x00, 0x01, 0x02, 0x03, 0x01, 0x00,
  0x01] >>= fun r =>
    collectItems (fromBer (uintBer 4)) r.2.content) = .ok [65537, 65537] := by decide +kernel

/-- tests/ber.rs:348-360 `from_ber_tag_custom` -/
example :
    andThen (anyFromBer [0x8f, 0x02, 0x12, 0x34]) (fun r => (r.1, r.2.header.tag)) = some ([], 15) ∧
    andThen (anyFromBer [0x9f, 0x0f, 0x02, 0x12, 0x34]) (fun r => (r.1, r.2.header.tag, r.2.header.rawTag)) =
      some ([], 15, some [0x9f, 0x0f]) := by decide +kernel

/-- tests/ber.rs:363-367 `from_ber_tag_incomplete`, tests/ber.rs:370-374 `from_ber_tag_overflow`,
tests/ber.rs:377-383 `from_ber_tag_long` -/
example :
    anyFromBer [0x9f, 0xa2, 0xa2] = .error (.error .invalidTag) ∧
    anyFromBer [0x9f, 0xa2, 0xa2, 0xa2, 0xa2, 0xa2, 0xa2, 0x22, 0x01, 0x00] = .error (.error .invalidTag) ∧
    andThen (anyFromBer [0x9f, 0xa2, 0x22, 0x01, 0x00]) (fun r => (r.1, r.2.header.tag, r.2.header.rawTag)) =
      some ([], 0x1122, some [0x9f, 0xa2, 0x22]) := by decide +kernel

/-- tests/ber.rs:386-395 `from_ber_iter_sequence_incomplete` -/
example :
    fromBerWith (rawTryFrom 16) [0x30, 0x09, 0x02, 0x03, 0x01, 0x00, 0x01, 0x02, 0x03, 0x01, 0x00] =
      .ok ([], ⟨[0x02, 0x03, 0x01, 0x00, 0x01, 0x02, 0x03, 0x01, 0x00], false⟩) ∧
    (do
      let (a, it) ← (SeqIter.new [0x02, 0x03, 0x01, 0x00, 0x01, 0x02, 0x03, 0x01, 0x00]).next (fromBer (uintBer 4))
      let (b, it) ← it.next (fromBer (uintBer 4))
      let (c, _) ← it.next (fromBer (uintBer 4))
      pure (a, b, c)) =
      (.ok (some (.ok 65537), some (.error (.incomplete (.size 1))), none) : Except SErr _) := by decide +kernel

/-- tests/ber.rs:398-407 `from_ber_set_of` -/
example :
    fromBerWith (seqTryFrom 17 (fromBer (uintBer 4))) [0x31, 0x05, 0x02, 0x03, 0x01, 0x00, 0x01] = .ok ([],
      [0x10001]) ∧
    fromBerWith (seqTryFrom 17 (fromBer (uintBer 4))) [0x11, 0x05, 0x02, 0x03, 0x01, 0x00, 0x01] =
      .error (.error .constructExpected) := by decide +kernel

/-- tests/ber.rs:410-439 `from_ber_tagged_explicit_optional` -/
example :
    optionFrom (tagIs 0) parseHeader (fromBerWith (explicitTryFrom .contextSpecific 0 (fromBer (uintBer 4))))
      [0xa0, 0x03, 0x02, 0x01, 0x02] = .ok ([], some ⟨2⟩) ∧
    optionFrom (tagIs 1) parseHeader (fromBerWith (explicitTryFrom .contextSpecific 1 (fromBer (uintBer 4))))
      [0xa0, 0x03, 0x02, 0x01, 0x02] = .ok ([0xa0, 0x03, 0x02, 0x01, 0x02], none) ∧
    (OptTaggedParser.tagged 0).run parseBerAny [0xa0, 0x03, 0x02, 0x01,
      0x02] (fun _ data => fromBer integerBer data) =
      .ok ([], Integer.fromInt 4 2) := by decide +kernel

/-- tests/ber.rs:443-458 `from_ber_tagged_optional_cov` -/
example :
    let p := fun input => (OptTaggedParser.tagged 1).run parseBerAny input (fun _ data => .ok (data, ()))
    value (p []) = some none ∧ value (p [0xa0, 0x03, 0x02, 0x01, 0x02]) = some none ∧ fails (p [0xe1, 0x03, 0x02,
      0x01, 0x02]) := by
  decide +kernel

/-- tests/ber.rs:461-466 `from_ber_universalstring` -/
example : fromBer univBer [0x1c, 0x10, 0x00, 0x00, 0x00, 0x61, 0x00, 0x00, 0x00, 0x62, 0x00, 0x00, 0x00, 0x63, 0x00,
  0x00, 0x00, 0x64] = .ok ([], "abcd".toList) := by
  decide +kernel

end Asn1.Tests

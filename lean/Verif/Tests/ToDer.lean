import Verif.Tests.Lib
import Verif.Props.Sets
/-!
# tests/to_der.rs
-/
set_option autoImplicit false

namespace Asn1.Tests
open Asn1 Spec

/-- tests/to_der.rs:29-52 `to_der_length` -/
example :
    (writeLength .indefinite).exec.1 = [0x80] ∧ (writeLength (.definite 3)).exec.1 = [0x03] ∧
    (writeLength (.definite 250)).exec.1 = [0x81, 0xfa] := by decide +kernel

/-- tests/to_der.rs:55-60 `to_der_length_long` -/
example : (strToBer 12).toVec (List.replicate 256 'A') =
    .ok ([0x0c, 0x82, 0x01, 0x00] ++ List.replicate 256 0x41) := by decide +kernel

/-- tests/to_der.rs:63-89 `to_der_tag` -/
example :
    (writeTagGeneric .universal false 0x1a).exec.1 = [0x1a] ∧
    (writeTagGeneric .application false 0x1a).exec.1 = [(0x1a : UInt8) ||| ((0b01 : UInt8) <<< 6)] ∧
    (writeTagGeneric .universal true 0x10).exec.1 = [0x30] ∧
    (writeTagGeneric .universal false 0x1a1a).exec.1 = [0b11111, 0xb4, 0x1a] := by decide +kernel

/-- tests/to_der.rs:92-101 `to_der_header` -/
example :
    headerToBer.toVec (Header.newSimple 2) = .ok [0x2, 0x0] ∧
    headerToBer.toVec (Header.new .universal false 2 .indefinite) = .ok [0x2, 0x80] := by decide +kernel

/-- tests/to_der.rs:104-110 `to_der_any`, tests/to_der.rs:113-119 `to_der_any_raw` -/
example :
    anyToBer.contentLen ⟨Header.newSimple 2, Input.fromSlice [0x02]⟩ = .definite 1 ∧
    anyToBer.toVec ⟨Header.newSimple 2, Input.fromSlice [0x02]⟩ = .ok [0x02, 0x01, 0x02] ∧
    anyToBer.toVec ⟨Header.new .universal false 2 (.definite 3), Input.fromSlice [0x02]⟩ =
      .ok [0x02, 0x01, 0x02] := by decide +kernel

/-- tests/to_der.rs:122-128 `to_der_bitstring` -/
example :
    (BitString.new 6 [0x6e, 0x5d, 0xc0] >>= bitToBer.toVec) = .ok [0x03, 0x04, 0x06, 0x6e, 0x5d, 0xc0] ∧
    andThen (fromDer bitBer bitCheck [0x03, 0x04, 0x06, 0x6e, 0x5d, 0xc0]) (fun r => (BitString.new 6 [0x6e, 0x5d,
      0xc0]).map (·.eqv r.2)) =
      some (.ok true) := by decide +kernel

/-- tests/to_der.rs:131-151 `to_der_bmpstring` -/
example :
    bmpToBer.contentLen "User".toList = .definite 8 ∧
    bmpToBer.toVec "User".toList = .ok [0x1e, 0x08, 0x00, 0x55, 0x00, 0x73, 0x00, 0x65, 0x00, 0x72] ∧
    bmpTestValidCharset [0x00, 0x55, 0x00, 0x73, 0x00, 0x65, 0x00, 0x72] = .ok () ∧
    fromDer bmpBer strCheck [0x1e, 0x08, 0x00, 0x55, 0x00, 0x73, 0x00, 0x65, 0x00, 0x72] = .ok ([], "User".toList) ∧
    bmpToBer.contentLen (List.replicate 256 'a') = .definite (2 * 256) ∧
    works (bmpToBer.toVec (List.replicate 256 'a')) := by decide +kernel

/-- tests/to_der.rs:154-170 `to_der_bool` -/
example :
    booleanToDer.toVec 0xff = .ok [0x01, 0x01, 0xff] ∧ boolToBer.toVec false = .ok [0x01, 0x01, 0x00] ∧
    boolToBer.toVec true = .ok [0x01, 0x01, 0xff] ∧ booleanToDer.toVec 0x8a = .ok [0x01, 0x01, 0xff] := by
  decide +kernel

/-- tests/to_der.rs:173-180 `to_der_enumerated` -/
example :
    enumeratedToBer.toVec 2 = .ok [0x0a, 0x01, 0x02] ∧ enumeratedToBer.contentLen 2 = .definite 1 ∧
    fromDer enumeratedBer enumeratedCheck [0x0a, 0x01, 0x02] = .ok ([], 2) := by decide +kernel

/-- tests/to_der.rs:183-202 `to_der_generalizedtime` -/
example :
    genToBer.toVec ⟨1999, 12, 31, 23, 59, 59, none, .z⟩ = .ok ([0x18, 0x0f] ++ ascii "19991231235959Z") ∧
    fromDer genBer genCheck ([0x18, 0x0f] ++ ascii "19991231235959Z") =
      .ok ([], ⟨1999, 12, 31, 23, 59, 59, none, .z⟩) ∧
    genToBer.contentLen ⟨1999, 12, 31, 23, 59, 59, none, .z⟩ = .definite 0xf ∧
    genToBer.toVec ⟨1999, 12, 31, 23, 59, 59, some 123, .z⟩ = .ok ([0x18, 0x13] ++ ascii "19991231235959.123Z") ∧
    fromDer genBer genCheck ([0x18, 0x13] ++ ascii "19991231235959.123Z") =
      .ok ([], ⟨1999, 12, 31, 23, 59, 59, some 123, .z⟩) := by decide +kernel

/-- tests/to_der.rs:10-20 `test_simple_string` -/
def simpleString (k : StrKind) (s : String) : Prop :=
  (strToBer k.tag).toVec s.toList = .ok ([UInt8.ofNat k.tag, UInt8.ofNat s.length] ++ ascii s) ∧
  fromDer (strBer k) strCheck ([UInt8.ofNat k.tag, UInt8.ofNat s.length] ++ ascii s) = .ok ([], s.toList)

instance (k : StrKind) (s : String) : Decidable (simpleString k s) := inferInstanceAs (Decidable (_ ∧ _))

/-- tests/to_der.rs:205-208 `to_der_graphicstring`, tests/to_der.rs:261-265 `to_der_numericstring`,
tests/to_der.rs:268-271 `to_der_objectdescriptor`, tests/to_der.rs:525-527 `to_der_teletexstring`,
  tests/to_der.rs:562-564 `to_der_utf8string`,
tests/to_der.rs:567-570 `to_der_visiblestring`,
  tests/to_der.rs:573-575 `to_der_videotexstring`. The bytes of `é` are c3 a9. -/
example :
    simpleString graphicStringK "123456" ∧ simpleString numericStringK "123456" ∧
    simpleString objectDescriptorK "abcdef" ∧ simpleString teletexStringK "abcdef" ∧
    simpleString utf8StringK "abcdef" ∧ simpleString visibleStringK "abcdef" ∧
    simpleString videotexStringK "abcdef" ∧
    !works (graphicStringK.testValidCharset ([0xc3, 0xa9] ++ ascii "23456")) ∧
    !works (numericStringK.testValidCharset (ascii "abcdef")) ∧
    !works (numericStringK.testValidCharset (ascii "1a")) ∧
    !works (objectDescriptorK.testValidCharset (ascii "abcd" ++ [0xc3, 0xa9] ++ ascii "f")) ∧
    !works (visibleStringK.testValidCharset (ascii "abcd" ++ [0xc3, 0xa9] ++ ascii "f")) := by decide +kernel

/-- tests/to_der.rs:223-239 `to_der_integer` -/
example :
    integerToBer.toVec ⟨[0x02]⟩ = .ok [0x02, 0x01, 0x02] ∧
    (Integer.fromInt 4 2).map integerToBer.toVec = some (.ok [0x02, 0x01, 0x02]) ∧
    (uintToBer 4).toVec 2 = .ok [0x02, 0x01, 0x02] ∧ (intToBer 4).toVec 4 = .ok [0x02, 0x01, 0x04] ∧
    (intToBer 4).toVec (-4) = .ok [0x02, 0x01, 0xfc] ∧ (intToBer 1).toVec (-1) = .ok [0x02, 0x01, 0xff] ∧
    (fromDer integerBer checkDerInt [0x02, 0x01, 0x02] >>= fun r => r.2.asMachine (uintBer 4)) = .ok 2 ∧
    (fromDer integerBer checkDerInt [0x02, 0x01, 0x04] >>= fun r => r.2.asMachine (intBer 4)) = .ok 4 ∧
    (fromDer integerBer checkDerInt [0x02, 0x01, 0xfc] >>= fun r => r.2.asMachine (intBer 4)) = .ok (-4) ∧
    (fromDer integerBer checkDerInt [0x02, 0x01, 0xff] >>= fun r => r.2.asMachine (intBer 1)) = .ok (-1) := by
  decide +kernel

/-- tests/to_der.rs:242-258 `to_der_null` -/
example :
    nullToBer.contentLen () = .definite 0 ∧ nullToBer.toVec () = .ok [0x05, 0x00] ∧
    fromDer nullP nullCheck [0x05, 0x00] = .ok ([], ()) ∧ fails (fromBer nullP [0x05, 0x01,
      0x00]) := by decide +kernel

/-- tests/to_der.rs:274-290 `to_der_octetstring` -/
example :
    let bytes : Bytes := [0x01, 0x02, 0x03, 0x04, 0x05, 0x06, 0x07, 0x08, 0x09, 0x0a, 0x0b, 0x0c, 0x0d, 0x0e, 0x0f]
    octetToBer.toVec bytes = .ok ([0x04, 0x0f] ++ bytes) ∧ octetToBer.contentLen bytes = .definite 15 ∧
    fromDer octetBer octetCheck ([0x04, 0x0f] ++ bytes) = .ok ([], bytes) := by decide +kernel

/-- The number in a result, or `nan`. -/
def number (r : Except SErr (Bytes × Real)) : F64 := match r with | .ok (_, v) => v.f64 testLib | _ => .nan

/-- tests/to_der.rs:293-348 `to_der_real_binary`; 3.25 is `13 * 2^-2`, 0.00390625 is `2^-8` -/
example :
    let enc := (realToBer testLib).toVec
    let dec := fun bs => number (fromDer (realP testLib) realCheck bs)
    enc (Real.ofBinary (.fin false 1 1) 2 1) = .ok [0x09, 0x03, 0x80, 0x02, 0x01] ∧
    dec [0x09, 0x03, 0x80, 0x02, 0x01] = .fin false 1 2 ∧
    enc (Real.ofBinary (.fin false 1 (-1)) 2 0) = .ok [0x09, 0x03, 0x80, 0xff, 0x01] ∧
    dec [0x09, 0x03, 0x80, 0xff, 0x01] = .fin false 1 (-1) ∧
    enc ((Real.ofBinary (.fin false 13 (-2)) 2 0).withEncBase 8) = .ok [0x09, 0x03, 0x94, 0xff, 0x0d] ∧
    dec [0x09, 0x03, 0x94, 0xff, 0x0d] = .fin false 13 (-2) ∧
    enc ((Real.ofBinary (.fin false 1 (-8)) 2 0).withEncBase 16) = .ok [0x09, 0x03, 0xa0, 0xfe, 0x01] ∧
    dec [0x09, 0x03, 0xa0, 0xfe, 0x01] = .fin false 1 (-8) ∧
    enc (Real.ofBinary (.fin false 3 0) 2 (-1020)) = .ok [0x09, 0x04, 0x81, 0xfc, 0x04, 0x03] ∧
    dec [0x09, 0x04, 0x81, 0xfc, 0x04, 0x03] = .fin false 3 (-1020) ∧
    enc (Real.ofBinary (.fin false 1 0) 2 262140) = .ok [0x09, 0x05, 0x82, 0x03, 0xff, 0xfc, 0x01] ∧
    dec [0x09, 0x05, 0x82, 0x03, 0xff, 0xfc, 0x01] = .inf false ∧
    enc (Real.ofBinary (.fin true 1 0) 2 76354972) = .ok [0x09, 0x07, 0xc3, 0x04, 0x04, 0x8d, 0x15, 0x9c, 0x01] ∧
    dec [0x09, 0x07, 0xc3, 0x04, 0x04, 0x8d, 0x15, 0x9c, 0x01] = .inf true := by decide +kernel

/-- tests/to_der.rs:351-370 `to_der_real_special` -/
example :
    (realToBer testLib).toVec .zero = .ok [0x09, 0x00] ∧
    fromDer (realP testLib) realCheck [0x09, 0x00] = .ok ([], .zero) ∧
    (realToBer testLib).toVec .infinity = .ok [0x09, 0x01, 0x40] ∧
    fromDer (realP testLib) realCheck [0x09, 0x01, 0x40] = .ok ([], .infinity) ∧
    (realToBer testLib).toVec .negInfinity = .ok [0x09, 0x01, 0x41] ∧
    fromDer (realP testLib) realCheck [0x09, 0x01, 0x41] = .ok ([], .negInfinity) := by decide +kernel

/-- tests/to_der.rs:373-380 `to_der_real_string` -/
example : (Real.new (decimalF64 12345 (-4))).map (fun r =>
    match (realToBer testLib).toVec r with
    | .ok v => fromDer (realP testLib) realCheck v == .ok ([], r)
    | .error _ => false) = some true := by decide +kernel

/-- tests/to_der.rs:383-393 `to_der_sequence`, tests/to_der.rs:396-405 `to_der_sequenceof` -/
example :
    (fromIterToDer (intToBer 4) [2, 3, 4] >>= (rawToBer 16).toVec) = .ok [0x30, 0x09, 0x02, 0x01, 0x02, 0x02, 0x01,
      0x03, 0x02, 0x01, 0x04] ∧
    (fromIterToDer (intToBer 4) [2, 3, 4]).map (·.content) = .ok [0x02, 0x01, 0x02, 0x02, 0x01, 0x03, 0x02, 0x01,
      0x04] ∧
    rawFromDer 16 [0x30, 0x09, 0x02, 0x01, 0x02, 0x02, 0x01, 0x03, 0x02, 0x01, 0x04] = .ok ([], ⟨[0x02, 0x01, 0x02,
      0x02, 0x01, 0x03, 0x02, 0x01, 0x04], false⟩) ∧
    (listToBer 16 (intToBer 4)).toVec [2, 3, 4] = .ok [0x30, 0x09, 0x02, 0x01, 0x02, 0x02, 0x01, 0x03, 0x02, 0x01,
      0x04] ∧
    seqFromDer 16 (fromDer (intBer 4) checkDerInt) [0x30, 0x09, 0x02, 0x01, 0x02, 0x02, 0x01, 0x03, 0x02, 0x01,
      0x04] = .ok ([], [2, 3, 4]) := by
  decide +kernel

/-- tests/to_der.rs:408-419 `to_der_set`, tests/to_der.rs:422-428 `to_der_set_of` -/
example :
    (fromIterToDer (uintToBer 1) [2, 3, 4] >>= (rawToBer 17).toVec) = .ok [0x31, 0x09, 0x02, 0x01, 0x02, 0x02, 0x01,
      0x03, 0x02, 0x01, 0x04] ∧
    (setToBer btreeNat (uintToBer 4)).toVec (btreeNat.ofList [2, 3, 4]) =
      .ok [0x31, 0x09, 0x02, 0x01, 0x02, 0x02, 0x01, 0x03, 0x02, 0x01, 0x04] ∧
    (listToBer 17 (intToBer 4)).toVec [2, 3, 4] = .ok [0x31, 0x09, 0x02, 0x01, 0x02, 0x02, 0x01, 0x03, 0x02, 0x01,
      0x04] ∧
    seqFromDer 17 (fromDer (intBer 4) checkDerInt) [0x31, 0x09, 0x02, 0x01, 0x02, 0x02, 0x01, 0x03, 0x02, 0x01,
      0x04] = .ok ([], [2, 3, 4]) := by
  decide +kernel

/-- tests/to_der.rs:431-446 `to_der_str`, tests/to_der.rs:449-463 `to_der_string` -/
example :
    (strToBer 12).contentLen "abcdef".toList = .definite 6 ∧
    (strToBer 12).toVec "abcdef".toList = .ok ([0x0c, 0x06] ++ ascii "abcdef") ∧
    fromDer (strBer utf8StringK) strCheck ([0x0c, 0x06] ++ ascii "abcdef") = .ok ([], "abcdef".toList) ∧
    (strToBer 12).contentLen (List.replicate 256 'a') = .definite 256 ∧
    ((strToBer 12).toVec (List.replicate 256 'a')).map List.length = .ok (4 + 256) := by decide +kernel

/-- tests/to_der.rs:466-487 `to_der_tagged_explicit` -/
example :
    let tagged := TaggedParser.newExplicit .contextSpecific 1 2
    (taggedParserExplicitToBer (uintToBer 4)).toVec tagged = .ok [0xa1, 0x03, 0x02, 0x01, 0x02] ∧
    andThen (taggedParserExplicit parseDerAny (fromDer (uintBer 4) checkDerInt) [0xa1, 0x03, 0x02, 0x01, 0x02])
      (fun r => (tagged.header.eq r.2.header, r.2.inner)) = some (true, 2) ∧
    (explicitToBer .contextSpecific 1 (fun _ => 2) (uintToBer 4)).toVec ⟨2⟩ = .ok [0xa1, 0x03, 0x02, 0x01, 0x02] ∧
    explicitFromDer .contextSpecific 1 (fromDer (uintBer 4) checkDerInt) [0xa1, 0x03, 0x02, 0x01, 0x02] = .ok ([],
      ⟨2⟩) ∧
    ((uintToBer 4).encodeTaggedExplicit .contextSpecific 1 2).exec.1 = [0xa1, 0x03, 0x02, 0x01,
      0x02] := by decide +kernel

/-- tests/to_der.rs:490-511 `to_der_tagged_implicit` -/
example :
    let tagged := TaggedParser.newImplicit .contextSpecific false 1 2
    (taggedParserImplicitToBer (uintToBer 4)).toVec tagged = .ok [0x81, 0x01, 0x02] ∧
    andThen (taggedParserImplicitDer 2 checkDerInt (tryFromAny (uintBer 4)) [0x81, 0x01, 0x02])
      (fun r => (tagged.header.eq r.2.header, r.2.inner)) = some (true, 2) ∧
    (implicitToBer .contextSpecific 1 (fun _ => false) (uintToBer 4)).toVec ⟨2⟩ = .ok [0x81, 0x01, 0x02] ∧
    implicitFromDer .contextSpecific 1 2 (tryFromAny (uintBer 4)) [0x81, 0x01, 0x02] = .ok ([], ⟨2⟩) ∧
    ((uintToBer 4).encodeTaggedImplicit .contextSpecific 1 2).exec.1 = [0x81, 0x01, 0x02] := by decide +kernel

/-- tests/to_der.rs:514-522 `to_der_tagged_implicit_optional` -/
example :
    optionToVec (implicitToBer .contextSpecific 1 (fun _ => false) integerToBer)
      ((Integer.fromInt 4 2).map TaggedValue.mk) = .ok [0x81, 0x01, 0x02] ∧
    optionFrom (tagIs 1) parseHeaderDer (implicitFromDer .contextSpecific 1 2 (tryFromAny integerBer)) [0x81, 0x01,
      0x02] =
      .ok ([], (Integer.fromInt 4 2).map TaggedValue.mk) := by decide +kernel

/-- tests/to_der.rs:530-538 `to_der_utctime` -/
example :
    utcToBer.toVec ⟨99, 12, 31, 23, 59, 59, none, .z⟩ = .ok ([0x17, 0x0d] ++ ascii "991231235959Z") ∧
    fromDer utcBer utcCheck ([0x17, 0x0d] ++ ascii "991231235959Z") = .ok ([], ⟨99, 12, 31, 23, 59, 59, none,
      .z⟩) := by
  decide +kernel

/-- tests/to_der.rs:541-559 `to_der_universalstring` -/
example :
    univToBer.contentLen "abcdef".toList = .definite (4 * 6) ∧
    univToBer.toVec "abcdef".toList = .ok [0x1c, 0x18, 0x00, 0x00, 0x00, 0x61, 0x00, 0x00, 0x00, 0x62, 0x00, 0x00,
      0x00, 0x63, 0x00, 0x00, 0x00, 0x64, 0x00, 0x00, 0x00, 0x65, 0x00, 0x00, 0x00, 0x66] ∧
    fromDer univBer strCheck [0x1c, 0x18, 0x00, 0x00, 0x00, 0x61, 0x00, 0x00, 0x00, 0x62, 0x00, 0x00, 0x00, 0x63,
      0x00, 0x00, 0x00, 0x64, 0x00, 0x00, 0x00, 0x65, 0x00, 0x00, 0x00, 0x66] =
      .ok ([], "abcdef".toList) ∧
    univToBer.contentLen (List.replicate 256 'a') = .definite (4 * 256) ∧
    (univToBer.toVec (List.replicate 256 'a')).map List.length = .ok (4 + 4 * 256) := by decide +kernel

end Asn1.Tests

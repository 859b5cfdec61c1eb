import Verif.Tests.RunPass
/-!
# The examples in the documentation, and tests/x509.rs
-/
set_option autoImplicit false
set_option synthInstance.maxSize 2000

namespace Asn1.Tests
open Asn1 Spec

/-- src/lib.rs:58-88, README.md:72-101 -/
example :
    andThen (fromBer integerBer [0x02, 0x03, 0x01, 0x00, 0x01, 0x02, 0x03, 0x01, 0x00, 0x00])
      (fun r => (decide (some r.2 = Integer.fromUint 4 65537), andThen (fromBer integerBer r.1) (fun s =>
        (s.1, decide (some s.2 = Integer.fromUint 4 65536))))) = some (true, some ([], true)) ∧
    andThen (fromBer (uintBer 4) [0x02, 0x03, 0x01, 0x00, 0x01, 0x02, 0x03, 0x01, 0x00, 0x00])
      (fun r => (r.2, fromBer (uintBer 4) r.1)) = some (65537, .ok ([], 65536)) := by decide +kernel

/-- src/lib.rs:108-141, README.md:118-149 -/
example :
    ((Integer.fromUint 4 65537).map integerToBer.toVec, (Integer.fromUint 4 65536).map integerToBer.toVec) =
      (some (.ok [0x02, 0x03, 0x01, 0x00, 0x01]), some (.ok [0x02, 0x03, 0x01, 0x00, 0x00])) ∧
    ((intToBer 4).toVec 65537, (intToBer 4).toVec 65536) = (.ok [0x02, 0x03, 0x01, 0x00, 0x01], .ok [0x02, 0x03,
      0x01, 0x00, 0x00]) := by
  decide +kernel

/-- src/asn1_types/integer.rs:322-359, src/to_der.rs:17-36 -/
example :
    (Integer.fromInt 4 4).map (·.data) = some [4] ∧ (Integer.fromInt 4 (-2)).map (·.data) = some [0xfe] ∧
    (Integer.asMachine (uintBer 4) ⟨[0x12, 0x34, 0x56, 0x78]⟩) = .ok 0x12345678 ∧
    (Integer.asMachine (uintBer 2) ⟨[0x12, 0x34, 0x56, 0x78]⟩) = .error (.error .integerTooLarge) ∧
    (Integer.fromInt 4 4).map integerToBer.toVec = some (.ok [2, 1, 4]) ∧ (intToBer 4).toVec 4 = .ok [2, 1, 4] := by
  decide +kernel

/-- src/asn1_types/iterator.rs:76-87 and 140-151: the iterator is not consumed, so the second call reads the same. -/
example : ∀ m ∈ [Rules.ber, .der],
    read ((AnyIter.new (inp [0x02, 0x03, 0x01, 0x00, 0x01, 0x02, 0x03, 0x01, 0x00,
      0x01])).tryParseCollect m.any (u32P m)) id =
      some ([], [65537, 65537]) := by decide +kernel

/-- src/asn1_types/sequence/iterator.rs:16-25, src/asn1_types/set/iterator.rs:13-22 -/
example :
    andThen (collectItems (fromDer integerBer checkDerInt) [0x02, 0x01, 0x01, 0x02, 0x01, 0x02])
      (·.map fun i => Integer.asMachine (uintBer 4) i) = some [.ok 1, .ok 2] := by decide +kernel

/-- src/asn1_types/sequence.rs:41-77 and 490-498, src/asn1_types/set.rs:38-74 and 471-479 -/
example :
    (Integer.fromUint 4 4).map integerToBer.toVec = some (.ok [2, 1, 4]) ∧
    (strToBer 12).toVec "abcd".toList = .ok [0x0c, 0x04, 0x61, 0x62, 0x63, 0x64] ∧
    andThen (fromIterToDer (intToBer 4) [2, 3, 4]) (fun s =>
      (s.content, andThen (collectItems (fromDer (uintBer 4) checkDerInt) s.content) (·.sum))) =
      some ([0x02, 0x01, 0x02, 0x02, 0x01, 0x03, 0x02, 0x01, 0x04], some 9) := by decide +kernel

/-- src/asn1_types/tagged/explicit.rs:231-238, application.rs:12-19,
  private.rs:12-19 and src/asn1_types/tagged.rs:54-63,
src/asn1_types/tagged/implicit.rs:237-243, application.rs:33-39, private.rs:33-39 -/
example : ∀ c ∈ [(Class.contextSpecific, (0xa0 : UInt8), (0x80 : UInt8)), (.application, 0x60, 0x40), (.priv, 0xe0,
  0xc0)],
    andThen (fromBerWith (explicitTryFrom c.1 0 (fromBer integerBer)) [c.2.1, 0x03, 0x2, 0x1, 0x2])
      (fun r => decide (some r.2.inner = Integer.fromInt 4 2)) = some true ∧
    andThen (fromBerWith (implicitTryFrom c.1 0 2 (tryFromAny integerBer)) [c.2.2, 0x1, 0x2])
      (fun r => decide (some r.2.inner = Integer.fromInt 4 2)) = some true := by decide +kernel

/-- src/asn1_types/tagged/builder.rs:12-25 -/
example :
    andThen ((TaggedParserBuilder.new.withClass .contextSpecific |>.withTag 0).parser
        (taggedParserExplicit parseDerAny (fromDer (uintBer 4) checkDerInt)) [0xa0, 0x03, 0x02, 0x01, 0x02])
      (fun r => (r.1, r.2.header.tag, r.2.inner)) = some ([], 0, 2) := by decide +kernel

/-- src/asn1_types/tagged/optional.rs:23-46, 91-100 and 134-143 -/
example :
    andThen ((OptTaggedParser.application 0).run parseDerAny [0x60, 0x03, 0x2, 0x1, 0x2]
      (fun _ data => fromDer integerBer checkDerInt data)) (fun r => r.2.map (·.data)) = some (some [2]) ∧
    andThen ((OptTaggedParser.tagged 0).run parseDerAny [0xa0, 0x1, 0x2]
      (fun _ data => .ok ([], (⟨data⟩ : Integer)))) (fun r => r.2.map (·.data)) = some (some [2]) ∧
    andThen ((OptTaggedParser.tagged 0).run parseBerAny [0xa0, 0x03, 0x2, 0x1, 0x2]
      (fun _ data => fromBer integerBer data)) (fun r => r.2.map (·.data)) = some (some [2]) ∧
    andThen ((OptTaggedParser.tagged 0).run parseDerAny [0xa0, 0x03, 0x2, 0x1, 0x2]
      (fun _ data => fromDer integerBer checkDerInt data)) (fun r => r.2.map (·.data)) = some (some [2]) := by
  decide +kernel

/-- src/asn1_types/tagged/optional.rs:196-210 and 226-237 -/
def optEx (tag : Nat) : Bytes → Except SErr (Bytes × Option (TaggedValue Integer)) :=
  optionFrom (tagIs tag) parseHeader (fromBerWith (explicitTryFrom .contextSpecific tag (fromBer integerBer)))
def optIm (tag : Nat) : Bytes → Except SErr (Bytes × Option (TaggedValue Integer)) :=
  optionFrom (tagIs tag) parseHeader (fromBerWith (implicitTryFrom .contextSpecific tag 2 (tryFromAny integerBer)))
example :
    andThen (optEx 0 [0xa0, 0x03, 0x2, 0x1, 0x2]) (fun r => r.2.map (·.inner.data)) = some (some [2]) ∧
    andThen (optEx 0 []) (fun r => r.2.map (·.inner.data)) = some none ∧
    andThen (optEx 1 [0xa0, 0x03, 0x2, 0x1, 0x2]) (fun r => r.2.map (·.inner.data)) = some none ∧
    andThen (optIm 0 [0x80, 0x1, 0x2]) (fun r => r.2.map (·.inner.data)) = some (some [2]) ∧
    andThen (optIm 0 []) (fun r => r.2.map (·.inner.data)) = some none := by decide +kernel

/-- src/asn1_types/strings.rs:35-42 -/
example :
    printableStringK.testValidCharset (ascii "abcd*4") ≠ .ok () ∧ visibleStringK.testValidCharset (ascii "abcd*4") = .ok () := by
  decide +kernel

/-- doc/DERIVE.md:421-433, src/derive.rs:714-724 and the like -/
example :
    ∀ tag ∈ [16, 17], andThen ((structToBer tag (.cons .untagged (uintToBer 4) (.cons .untagged (uintToBer 2)
        (.cons .untagged (uintToBer 2) .nil)))).toVec (1, 2, 3, ())) (fun output =>
      read ((structP .ber tag (.cons (.required .untagged (uintBer 4)) (.cons (.required .untagged (uintBer 2))
        (.cons (.required .untagged (uintBer 2)) .nil)))).parseBer (inp output))
        (fun v => (v.1, v.2.1, v.2.2.1))) = some (some ([], 1, 2, 3)) := by decide +kernel

/-- tests/x509.rs:141-156 `x509_decode_dn`: `AttributeTypeAndValue` and its parts, written by hand. -/
def directoryString (a : Any) : Except SErr (Text ⊕ Any) :=
  if a.header.tag = 19 then (tryFromAny (strBer printableStringK) a).map .inl
  else if a.header.tag = 12 then (tryFromAny stringBer a).map .inl
  else .ok (.inr a)
def attributeOf (bytes : Bytes) : Except SErr (Bytes × Oid × (Text ⊕ Any)) := do
  let (rem, seq) ← rawFromDer 16 bytes
  let (i, oid) ← fromDer oidP oidCheck seq.content
  let (_, any) ← anyFromDer i
  let v ← directoryString any
  pure (rem, oid, v)
example :
    andThen (seqFromDer 16 (seqFromDer 17 attributeOf) [0x30, 0x45, 0x31, 0x0b, 0x30, 0x09, 0x06, 0x03, 0x55, 0x04,
      0x06, 0x13, 0x02, 0x46, 0x52, 0x31, 0x13, 0x30, 0x11, 0x06, 0x03, 0x55, 0x04, 0x08, 0x0c, 0x0a, 0x53, 0x6f,
        0x6d, 0x65, 0x2d, 0x53, 0x74, 0x61, 0x74, 0x65, 0x31, 0x21, 0x30, 0x1f, 0x06, 0x03, 0x55, 0x04, 0x0a, 0x0c,
          0x18, 0x49, 0x6e, 0x74, 0x65, 0x72, 0x6e, 0x65, 0x74, 0x20, 0x57, 0x69, 0x64, 0x67, 0x69, 0x74, 0x73, 0x20,
            0x50, 0x74, 0x79, 0x20, 0x4c, 0x74, 0x64])
      (fun r => (r.1, r.2.map (·.map fun a => (a.1.asn1, a.2.getLeft?)))) =
      some ([], [[([0x55, 0x04, 0x06], some "FR".toList)], [([0x55, 0x04, 0x08], some "Some-State".toList)],
        [([0x55, 0x04, 0x0a], some "Internet Widgits Pty Ltd".toList)]]) := by decide +kernel

/-- tests/encode-f64-nan.rs:6-8 `test_encode_nan`: the constructor returns. -/
example : Real.new .nan = some .nan := rfl

end Asn1.Tests

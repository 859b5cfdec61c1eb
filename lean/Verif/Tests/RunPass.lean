import Verif.Tests.Src
import Verif.Model.CustomError
import Verif.Model.CheckDerive
import Verif.Spec.DeriveSlice
/-!
# tests/run-pass, and the tests of derived types in tests

Structs and enums of these tests are given to the model as the descriptions that the macros read. The test programs
for `BerParserSequence`, `BerParserSet`, `DerParserSequence` and `DerParserSet` are the same up to the rules and the
tag of the container: such groups are written once, for both rules or both tags.
-/
set_option autoImplicit false
set_option synthInstance.maxSize 2000

namespace Asn1.Tests
open Asn1 Spec

/-- A struct with one field. -/
abbrev one (m : Rules) (tag : Nat) {T : Type} (f : Field T) : Parser (Tup [T]) := structP m tag (.cons f .nil)

/-- The parsers of `u8`, `u16`, `u32`, `String`, `Vec<u32>`, `&[u8]` and `&str`. -/
def u8P : Rules → Parser Nat | .ber => uintBer 1 | .der => uintDer 1
def u16P : Rules → Parser Nat | .ber => uintBer 2 | .der => uintDer 2
def u32P : Rules → Parser Nat | .ber => uintBer 4 | .der => uintDer 4
def stringP : Rules → Parser Text | .ber => stringBer | .der => refStrDer
def vec32P : Rules → Parser (List Nat) | .ber => vecBer (uintBer 4) | .der => vecDer (uintDer 4)
def sliceP : Rules → Parser Bytes | .ber => sliceBer | .der => sliceDer
def strP : Rules → Parser Text | .ber => refStrBer | .der => refStrDer
def anyP : Rules → Parser Any | .ber => anyBer | .der => anyDer

/-! ### Aliases -/

/-- tests/run-pass/alias.rs:4-20 `derive_alias_simple`, tests/run-pass/alias.rs:22-34 `derive_alias_any`,
tests/run-pass/berparser_alias.rs:16-32 `main`, tests/run-pass/derparser_alias.rs:16-32 `main` -/
example : ∀ m ∈ [Rules.ber, .der],
    read (m.parse (aliasP (u32P m)) (inp [0x02, 0x02, 0x00, 0xaa])) (·.inner) = some ([], 0xaa) ∧
    refuses (m.parse (aliasP (u32P m)) (inp [0x04, 0x02, 0x00, 0xaa])) ∧
    read (m.parse (aliasP (anyP m)) (inp [0x02, 0x02, 0x00,
      0xaa])) (fun a => works (tryFromAny (uintBer 4) a.inner)) =
      some ([], true) := by decide +kernel

/-- tests/run-pass/alias.rs:40-63 `derive_alias_simple_encode` -/
example :
    (aliasToBer (uintToBer 4)).toVec ⟨0xaa⟩ = .ok [0x02, 0x02, 0x00, 0xaa] ∧
    ∀ m ∈ [Rules.ber, .der], read (m.parse (aliasP (u32P m)) (inp [0x02, 0x02, 0x00, 0xaa])) (·.inner) = some ([],
      0xaa) := by
  decide +kernel

/-- tests/run-pass/alias.rs:65-91 `derive_alias_any_encode` -/
example :
    read (anyBer.parseBer (inp [0x02, 0x02, 0x00, 0xaa])) (fun a => (aliasToBer anyToBer).toVec ⟨a⟩) =
      some ([], .ok [0x02, 0x02, 0x00, 0xaa]) ∧
    ∀ m ∈ [Rules.ber, .der],
      (value (m.parse (aliasP (anyP m)) (inp [0x02, 0x02, 0x00, 0xaa]))).map (·.inner) =
        value (anyBer.parseBer (inp [0x02, 0x02, 0x00, 0xaa])) := by decide +kernel

/-- tests/run-pass/der_alias.rs:7-12 `main` -/
example : andThen (aliasAnyFromDer [0x30, 0x0b, 0x02, 0x01, 0x01, 0x02, 0x01, 0x02, 0x30, 0x03, 0x02, 0x01,
  0x03]) (fun r => (r.1, r.2.inner.header.tag)) =
    some ([], 16) := by decide +kernel

/-! ### Fields with a default value -/

/-- tests/run-pass/berparser_attributes.rs:4-30 `derive_berparser_default`,
tests/run-pass/berparser_set_attributes.rs:4-30 `derive_berparser_default`,
tests/run-pass/derparser_attributes.rs:4-30 `derive_derparser_default`,
and the same in tests/run-pass/derparser_set_attributes.rs -/
example : ∀ m ∈ [Rules.ber, .der], ∀ s ∈ [((0x30 : UInt8), 16), (0x31, 17)],
    read (m.parse (one m s.2 (.default .untagged (u32P m) 0)) (inp (s.1 :: [0x04, 0x02, 0x02, 0x00, 0xaa]))) (·.1) =
      some ([], 0xaa) ∧
    read (m.parse (one m s.2 (.default .untagged (u32P m) 0)) (inp (s.1 :: [0x00]))) (·.1) = some ([], 0) ∧
    read (m.parse (one m s.2 (.default .untagged (u32P m) 0)) (inp (s.1 :: [0x04, 0x04, 0x02, 0x00, 0xaa]))) (·.1) =
      some ([], 0) := by decide +kernel

/-! ### CHOICE -/

/-- The three variants `u8`, `String`, `u32`. -/
def choice3 (m : Rules) (k : ChoiceKind) : Parser (HSum [Nat, Text, Nat]) :=
  choiceP m k (.cons 0 (u8P m) (.cons 1 (stringP m) (.cons 2 (u32P m) .nil)))
def sum3 : HSum [Nat, Text, Nat] → Nat ⊕ Text ⊕ Nat ⊕ Empty := id

/-- tests/run-pass/berparser_choice_simple.rs:4-39 `derive_berparser_choice_explicit`,
tests/run-pass/derparser_choice_simple.rs:4-39 `derive_derparser_choice_explicit` -/
example : ∀ m ∈ [Rules.ber, .der],
    read (m.parse (choice3 m .explicit) (inp [0xa0, 0x03, 0x02, 0x01, 0x08])) sum3 = some ([], .inl 8) ∧
    refuses (m.parse (choice3 m .explicit) (inp [0xa0, 0x03, 0x01, 0x01, 0xff])) ∧
    read (m.parse (choice3 m .explicit) (inp [0xa1, 0x03, 0x0c, 0x01, 0x41])) sum3 = some ([], .inr (.inl ['A'])) ∧
    refuses (m.parse (choice3 m .explicit) (inp [0xa5, 0x03, 0x01, 0x01, 0xff])) ∧
    refuses (m.parse (choice3 m .explicit) (inp [0x80, 0x03, 0x02, 0x01, 0x08])) := by decide +kernel

/-- tests/run-pass/berparser_choice_simple.rs:41-72 `derive_berparser_choice_implicit`,
tests/run-pass/derparser_choice_simple.rs:41-72 `derive_derparser_choice_implicit`,
tests/run-pass/derparser_choice_simple.rs:74-94 `derive_derparser_choice_and_berparser` -/
example : ∀ m ∈ [Rules.ber, .der],
    read (m.parse (choice3 m .implicit) (inp [0x80, 0x01, 0x08])) sum3 = some ([], .inl 8) ∧
    read (m.parse (choice3 m .implicit) (inp [0x81, 0x01, 0x41])) sum3 = some ([], .inr (.inl ['A'])) ∧
    refuses (m.parse (choice3 m .implicit) (inp [0x85, 0x01, 0xff])) ∧
    refuses (m.parse (choice3 m .implicit) (inp [0xa0, 0x01, 0x08])) := by decide +kernel

/-- The variants `u8`, `String`, `Vec<u32>`. -/
def untagged3 (m : Rules) : Parser (HSum [Nat, Text, List Nat]) :=
  choiceP m .untagged (.cons 0 (u8P m) (.cons 1 (stringP m) (.cons 2 (vec32P m) .nil)))
def sumU3 : HSum [Nat, Text, List Nat] → Nat ⊕ Text ⊕ List Nat ⊕ Empty := id

/-- tests/run-pass/choice.rs:4-40 `derive_choice_untagged` -/
example : ∀ m ∈ [Rules.ber, .der],
    read (m.parse (untagged3 m) (inp [0x02, 0x01, 0x08])) sumU3 = some ([], .inl 8) ∧
    read (m.parse (untagged3 m) (inp [0x30, 0x03, 0x02, 0x01, 0x01])) sumU3 = some ([], .inr (.inr (.inl [1]))) ∧
    refuses (m.parse (untagged3 m) (inp [0x10, 0x03, 0x02, 0x01, 0x01])) ∧
    refuses (m.parse (untagged3 m) (inp [0x01, 0x01, 0xff])) := by decide +kernel

/-- tests/run-pass/choice.rs:42-60 `derive_choice_untagged_lifetime` -/
example : ∀ m ∈ [Rules.ber, .der],
    read (m.parse (choiceP m .untagged (.cons 0 (u8P m) (.cons 1 (sliceP m) .nil))) (inp [0x04, 0x03, 0x01, 0x02,
      0x03]))
        (fun v => (show Nat ⊕ Bytes ⊕ Empty from v)) = some ([], .inr (.inl [1, 2, 3])) := by decide +kernel

/-- The variants `u8`, `String`, `u32`, `Vec<u32>` with the given tags. -/
def choice4 (m : Rules) (k : ChoiceKind) (t2 t3 : Nat) : Parser (HSum [Nat, Text, Nat, List Nat]) :=
  choiceP m k (.cons 0 (u8P m) (.cons 1 (stringP m) (.cons t2 (u32P m) (.cons t3 (vec32P m) .nil))))
def sum4 : HSum [Nat, Text, Nat, List Nat] → Nat ⊕ Text ⊕ Nat ⊕ List Nat ⊕ Empty := id

/-- The tags that the macro gives to these variants, without `tag` attributes and with `tag(4)` and `tag(0x22)`. -/
example :
    choiceTags 0 [none, none, none, none] [] = some [0, 1, 2, 3] ∧
    choiceTags 0 [none, none, some 4, some 0x22] [] = some [0, 1, 4, 0x22] := by decide +kernel

/-- tests/run-pass/choice.rs:62-92 `derive_choice_tagged_explicit` -/
example : ∀ m ∈ [Rules.ber, .der],
    read (m.parse (choice4 m .explicit 2 3) (inp [0xa0, 0x03, 0x02, 0x01, 0x08])) sum4 = some ([], .inl 8) ∧
    refuses (m.parse (choice4 m .explicit 2 3) (inp [0xa0, 0x03, 0x01, 0x01, 0xff])) ∧
    refuses (m.parse (choice4 m .explicit 2 3) (inp [0x80, 0x03, 0x01, 0x01, 0xff])) := by decide +kernel

/-- tests/run-pass/choice.rs:94-128 `derive_choice_attribute_tag_explicit` -/
example : ∀ m ∈ [Rules.ber, .der],
    read (m.parse (choice4 m .explicit 4 0x22) (inp [0xa4, 0x03, 0x02, 0x01, 0x08])) sum4 = some ([],
      .inr (.inr (.inl 8))) ∧
    read (m.parse (choice4 m .explicit 4 0x22) (inp [0xbf, 0x22, 0x05, 0x30, 0x03, 0x02, 0x01, 0x08])) sum4 =
      some ([], .inr (.inr (.inr (.inl [8])))) ∧
    refuses (m.parse (choice4 m .explicit 4 0x22) (inp [0xa2, 0x03, 0x02, 0x01, 0x08])) := by decide +kernel

/-- tests/run-pass/choice.rs:130-164 `derive_choice_tagged_implicit` -/
example : ∀ m ∈ [Rules.ber, .der],
    read (m.parse (choice4 m .implicit 2 3) (inp [0x80, 0x01, 0x08])) sum4 = some ([], .inl 8) ∧
    refuses (m.parse (choice4 m .implicit 2 3) (inp [0xa0, 0x01, 0x08])) ∧
    read (m.parse (choice4 m .implicit 2 3) (inp [0xa3, 0x09, 0x02, 0x01, 0x10, 0x02, 0x01, 0x20, 0x02, 0x01,
      0x40])) sum4 =
      some ([], .inr (.inr (.inr (.inl [16, 32, 64])))) := by decide +kernel

/-- tests/run-pass/choice.rs:166-200 `derive_choice_attribute_tag_implicit` -/
example : ∀ m ∈ [Rules.ber, .der],
    read (m.parse (choice4 m .implicit 4 0x22) (inp [0x84, 0x01, 0x08])) sum4 = some ([], .inr (.inr (.inl 8))) ∧
    read (m.parse (choice4 m .implicit 4 0x22) (inp [0xbf, 0x22, 0x03, 0x02, 0x01, 0x08])) sum4 =
      some ([], .inr (.inr (.inr (.inl [8])))) ∧
    refuses (m.parse (choice4 m .implicit 4 0x22) (inp [0x82, 0x01, 0x08])) := by decide +kernel

/-- The encoders of the same types. `class`, `constructed` and `tag` of the payloads are those of their types. -/
def untagged3E : ToBer (HSum [Nat, Text, List Nat]) :=
  choiceToBer .untagged (.cons 0 (fun _ => (.universal, false, 2)) (uintToBer 1)
    (.cons 1 (fun _ => (.universal, false, 12)) (strToBer 12)
      (.cons 2 (fun _ => (.universal, true, 16)) (listToBer 16 (uintToBer 4)) .nil)))
def choice4E (k : ChoiceKind) (t2 t3 : Nat) : ToBer (HSum [Nat, Text, Nat, List Nat]) :=
  choiceToBer k (.cons 0 (fun _ => (.universal, false, 2)) (uintToBer 1)
    (.cons 1 (fun _ => (.universal, false, 12)) (strToBer 12)
      (.cons t2 (fun _ => (.universal, false, 2)) (uintToBer 4)
        (.cons t3 (fun _ => (.universal, true, 16)) (listToBer 16 (uintToBer 4)) .nil))))

/-- tests/run-pass/choice.rs:206-256 `derive_choice_untagged_encode` -/
example :
    untagged3E.toVec (.inl 8) = .ok [0x02, 0x01, 0x08] ∧
    untagged3E.toVec (.inr (.inr (.inl [1]))) = .ok [0x30, 0x03, 0x02, 0x01, 0x01] ∧
    ∀ m ∈ [Rules.ber, .der],
      read (m.parse (untagged3 m) (inp [0x02, 0x01, 0x08])) sumU3 = some ([], .inl 8) ∧
      read (m.parse (untagged3 m) (inp [0x30, 0x03, 0x02, 0x01, 0x01])) sumU3 = some ([],
        .inr (.inr (.inl [1]))) := by
  decide +kernel

/-- tests/run-pass/choice.rs:258-286 `derive_choice_tagged_explicit_encode`,
tests/run-pass/choice.rs:288-311 `derive_choice_attribute_tag_explicit_encode`,
tests/run-pass/choice.rs:313-346 `derive_choice_tagged_implicit_encode`,
tests/run-pass/choice.rs:348-371 `derive_choice_attribute_tag_implicit_encode` -/
example :
    (choice4E .explicit 2 3).toVec (.inl 8) = .ok [0xa0, 0x03, 0x02, 0x01, 0x08] ∧
    (choice4E .explicit 4 0x22).toVec (.inr (.inr (.inl 8))) = .ok [0xa4, 0x03, 0x02, 0x01, 0x08] ∧
    (choice4E .implicit 2 3).toVec (.inl 8) = .ok [0x80, 0x01, 0x08] ∧
    (choice4E .implicit 2 3).toVec (.inr (.inr (.inr (.inl [16, 32, 64])))) = .ok [0xa3, 0x09, 0x02, 0x01, 0x10,
      0x02, 0x01, 0x20, 0x02, 0x01, 0x40] ∧
    (choice4E .implicit 4 0x22).toVec (.inr (.inr (.inl 8))) = .ok [0x84, 0x01, 0x08] := by decide +kernel

/-! ### Own error types -/

/-- A type of errors to which every error is converted. -/
inductive MyError where
  | notYetImplemented
  deriving DecidableEq

/-- What the tests look at. -/
def readG {ε α β : Type} (r : GRes ε α) (f : α → β) : Except (NErr ε) (Bytes × β) :=
  match r with
  | .ok (rem, v) => .ok (rem.data, f v)
  | .error e => .error e

/-- `struct AA { a: u32 }` with `error(MyError)`, with and without `map_err(MyError::from)` (the same function). -/
def myStruct (m : Rules) (tag : Nat) : GParser MyError (Tup [Nat]) :=
  structG m tag (fun _ => .notYetImplemented)
    (.cons (.required (fun _ => .notYetImplemented) .untagged (u32P m).plain) .nil)

/-- tests/run-pass/berparser_custom_error.rs:40-52 `derive_berparser_custom_error`,
tests/run-pass/berparser_custom_error.rs:54-67 `derive_berparser_map_err`,
tests/run-pass/berparser_set_custom_error.rs:40-52 `derive_berparser_custom_error`,
tests/run-pass/berparser_set_custom_error.rs:54-67 `derive_berparser_map_err`,
tests/run-pass/derparser_custom_error.rs:40-52 `derive_derparser_custom_error`,
tests/run-pass/derparser_custom_error.rs:54-67 `derive_derparser_map_err`,
and the same in tests/run-pass/derparser_set_custom_error.rs -/
example : ∀ m ∈ [Rules.ber, .der], ∀ s ∈ [((0x30 : UInt8), 16), (0x31, 17)],
    readG (m.parseG (myStruct m s.2) (inp (s.1 :: [0x04, 0x02, 0x02, 0x00, 0xaa]))) (·.1) = .ok ([],
      0xaa) := by decide +kernel

/-- tests/run-pass/sequence_custom_error.rs:35-51 `derive_sequence_custom_error` -/
example :
    readG ((myStruct .ber 16).parseBer (inp [0x30, 0x04, 0x02, 0x02, 0x00, 0xaa])) (·.1) = .ok ([], 0xaa) ∧
    readG ((myStruct .ber 16).parseBer (inp [0x10, 0x04, 0x02, 0x02, 0x00,
      0xaa])) (·.1) = .error (.error .notYetImplemented) ∧
    readG ((myStruct .ber 16).parseBer (inp [0x31, 0x04, 0x02, 0x02, 0x00,
      0xaa])) (·.1) = .error (.error .notYetImplemented) := by
  decide +kernel

/-- tests/run-pass/sequence_custom_error.rs:53-84 `derive_sequence_map_err`: a field of that type, with `map_err`. -/
def myOuter : GParser BerErr (Tup [Tup [Nat]]) :=
  structG .ber 16 id (.cons (.required (fun _ => ⟨inp [], .unsupported⟩) .untagged (myStruct .ber 16)) .nil)
example :
    readG (myOuter.parseBer (inp [0x30, 0x06, 0x30, 0x04, 0x02, 0x02, 0x00, 0xaa])) (·.1.1) = .ok ([], 0xaa) ∧
    readG (myOuter.parseBer (inp [0x30, 0x04, 0x02, 0x02, 0x00, 0xaa])) (·.1.1) = .error (.error ⟨inp [],
      .unsupported⟩) := by
  decide +kernel

/-- tests/run-pass/der_sequence_map_err.rs:88-101 `main`,
  tests/run-pass/custom_errors.rs:40-53 `main`: `struct AttrValue` with its
error type, in the byte-slice API; derived (first) and written by hand. -/
inductive X509Error where
  | notYetImplemented
  | derError (e : Error)
  deriving DecidableEq
def attrValue : Bytes → Except (NErr X509Error) (Bytes × Tup [Oid, Any]) :=
  structFromDerG 16 .derError
    (.cons (.required .derError .untagged (derSlice oidC).plain)
      (.cons (.required .derError .untagged
        (SliceType.plain ⟨anyFromDer, .ok, 0, fun _ => true⟩)) .nil))
example :
    andThen (attrValue [0x30, 0x14, 0x06, 0x03, 0x55, 0x04, 0x0a, 0x13, 0x0d, 0x4c, 0x65, 0x74, 0x27, 0x73, 0x20,
      0x45, 0x6e, 0x63, 0x72, 0x79, 0x70, 0x74])
      (fun r => (r.1, r.2.1.asn1, tryFromAny (strBer printableStringK) r.2.2.1)) =
      some ([], [0x55, 0x04, 0x0a], .ok "Let's Encrypt".toList) ∧
    andThen (rawAndThen (rawFromDer 16) (fun i => do
        let (i, t) ← fromDer oidP oidCheck i
        let (i, v) ← anyFromDer i
        pure (i, (t, v))) [0x30, 0x14, 0x06, 0x03, 0x55, 0x04, 0x0a, 0x13, 0x0d, 0x4c, 0x65, 0x74, 0x27, 0x73, 0x20,
          0x45, 0x6e, 0x63, 0x72, 0x79, 0x70, 0x74])
      (fun r => (r.1, r.2.1.asn1, tryFromAny (strBer printableStringK) r.2.2)) =
      some ([], [0x55, 0x04, 0x0a], .ok "Let's Encrypt".toList) := by decide +kernel

/-! ### References into the input -/

/-- tests/run-pass/berparser_lifetimes.rs:4-15 `derive_berparser_lifetime`,
tests/run-pass/berparser_lifetimes.rs:17-35 `derive_berparser_lifetimes`, and the same in
tests/run-pass/berparser_set_lifetimes.rs, derparser_lifetimes.rs and derparser_set_lifetimes.rs -/
example : ∀ m ∈ [Rules.ber, .der], ∀ s ∈ [((0x30 : UInt8), 16), (0x31, 17)],
    read (m.parse (one m s.2 (.required .untagged (sliceP m))) (inp (s.1 :: [0x04, 0x04, 0x02, 0x01, 0x02]))) (·.1) =
      some ([], [1, 2]) ∧
    read (m.parse (structP m s.2 (.cons (.required .untagged (sliceP m)) (.cons (.required .untagged (strP m)) .nil)))
        (inp (s.1 :: [0x08, 0x04, 0x02, 0x01, 0x02, 0x0c, 0x02, 0x31, 0x32]))) (fun v => (v.1, v.2.1)) = some ([],
          [1, 2], ['1', '2']) := by
  decide +kernel

/-- tests/run-pass/data_outlives_object.rs:26-38 `main` -/
example :
    read (integerDer.parseDer (inp [0x02, 0x02, 0x01, 0x23])) (·.data) = some ([], [0x01, 0x23]) ∧
    read ((strDer utf8StringK).parseDer (inp [0x0c, 0x0a, 0x53, 0x6f, 0x6d, 0x65, 0x2d, 0x53, 0x74, 0x61, 0x74,
      0x65])) id =
      some ([], "Some-State".toList) := by decide +kernel

/-! ### SEQUENCE and SET, the parsers -/

/-- tests/run-pass/berparser_simple.rs:4-24 `derive_berparser_simple`,
tests/run-pass/berparser_simple.rs:26-47 `derive_berparser_container`,
tests/run-pass/berparser_simple.rs:49-88 `derive_berparser_and_fromber`,
tests/run-pass/derparser_simple.rs:4-24 `derive_derparser_simple`,
tests/run-pass/derparser_simple.rs:26-47 `derive_derparser_container`,
tests/run-pass/derparser_simple.rs:49-88 `derive_derparser_and_fromder`,
tests/run-pass/derparser_and_berparser.rs:4-22 `derive_derparser_and_berparser`,
tests/run-pass/berparser_set_simple.rs:4-24 `derive_berparser_simple`,
tests/run-pass/berparser_set_simple.rs:26-47 `derive_berparser_container`,
tests/run-pass/berparser_set_simple.rs:49-88 `derive_berparser_and_fromber`,
tests/run-pass/sequence.rs:4-24 `derive_sequence_simple`, tests/run-pass/set.rs:4-24 `derive_set_simple`,
and the same in tests/run-pass/derparser_set_simple.rs. The tuples: first octet of a container that is right, of one
that is not constructed, of one with the other tag; the tag. -/
example : ∀ m ∈ [Rules.ber, .der], ∀ s ∈ [((0x30 : UInt8), (0x10 : UInt8), (0x31 : UInt8), 16), (0x31, 0x11, 0x30,
  17)],
    read (m.parse (one m s.2.2.2 (.required .untagged (u32P m))) (inp (s.1 :: [0x04, 0x02, 0x02, 0x00,
      0xaa]))) (·.1) =
      some ([], 0xaa) ∧
    refuses (m.parse (one m s.2.2.2 (.required .untagged (u32P m))) (inp (s.2.1 :: [0x04, 0x02, 0x02, 0x00, 0xaa]))) ∧
    refuses (m.parse (one m s.2.2.2 (.required .untagged (u32P m))) (inp (s.2.2.1 :: [0x04, 0x02, 0x02, 0x00,
      0xaa]))) ∧
    read (m.parse (one m s.2.2.2 (.required .untagged (one m s.2.2.2 (.required .untagged (u32P m)))))
      (inp (s.1 :: 0x06 :: s.1 :: [0x04, 0x02, 0x02, 0x00, 0xaa]))) (·.1.1) = some ([], 0xaa) ∧
    andThen (fromBerWith (structTryFrom s.2.2.2 (.cons (.required .untagged (berSlice (uintC 4))) .nil))
      (s.1 :: [0x04, 0x02, 0x02, 0x00, 0xaa])) (fun r => (r.1, r.2.1)) = some ([], 0xaa) ∧
    andThen (structFromDer s.2.2.2 (.cons (.required .untagged (derSlice (uintC 4))) .nil)
      (s.1 :: [0x04, 0x02, 0x02, 0x00, 0xaa])) (fun r => (r.1, r.2.1)) = some ([], 0xaa) := by decide +kernel

/-- tests/run-pass/berparser_tagged.rs:4-40 `derive_berparser_tagged`,
tests/run-pass/berparser_tagged.rs:42-79 `derive_berparser_opttagged`,
tests/run-pass/berparser_tagged.rs:81-115 `derive_berparser_opttagged_default`,
tests/run-pass/berparser_set_tagged.rs:4-40 `derive_berparser_tagged`,
tests/run-pass/berparser_set_tagged.rs:42-79 `derive_berparser_opttagged`,
tests/run-pass/berparser_set_tagged.rs:81-115 `derive_berparser_opttagged_default`,
tests/run-pass/derparser_tagged.rs:4-40 `derive_derparser_tagged`,
tests/run-pass/derparser_tagged.rs:42-79 `derive_derparser_opttagged`,
tests/run-pass/derparser_tagged.rs:81-115 `derive_derparser_opttagged_default`,
tests/run-pass/derparser_set_tagged.rs:4-40 `derive_derparser_tagged`,
tests/run-pass/derparser_set_tagged.rs:42-79 `derive_derparser_opttagged`,
tests/run-pass/derparser_set_tagged.rs:81-115 `derive_derparser_opttagged_default` -/
example : ∀ m ∈ [Rules.ber, .der], ∀ s ∈ [((0x30 : UInt8), 16), (0x31, 17)],
    read (m.parse (one m s.2 (.required .untagged (explicitP .contextSpecific 0 (m.parse (u32P m)))))
      (inp (s.1 :: [0x06, 0xa0, 0x04, 0x02, 0x02, 0x00, 0xaa]))) (·.1.inner) = some ([], 0xaa) ∧
    read (m.parse (one m s.2 (.required (.explicit .contextSpecific 0) (u32P m)))
      (inp (s.1 :: [0x06, 0xa0, 0x04, 0x02, 0x02, 0x00, 0xaa]))) (·.1) = some ([], 0xaa) ∧
    read (m.parse (one m s.2 (.optional .untagged (explicitP .contextSpecific 0 (m.parse (u32P m)))))
      (inp (s.1 :: [0x06, 0xa0, 0x04, 0x02, 0x02, 0x00, 0xaa]))) (fun v => v.1.map (·.inner)) = some ([], some 0xaa) ∧
    read (m.parse (one m s.2 (.optional (.explicit .contextSpecific 0) (u32P m)))
      (inp (s.1 :: [0x06, 0xa0, 0x04, 0x02, 0x02, 0x00, 0xaa]))) (·.1) = some ([], some 0xaa) ∧
    read (m.parse (one m s.2 (.default (.explicit .contextSpecific 0) (u32P m) 0))
      (inp (s.1 :: [0x06, 0xa0, 0x04, 0x02, 0x02, 0x00, 0xaa]))) (·.1) = some ([], 0xaa) ∧
    read (m.parse (one m s.2 (.default (.explicit .contextSpecific 0) (u32P m) 0)) (inp (s.1 :: [0x00]))) (·.1) =
      some ([], 0) ∧
    read (m.parse (one m s.2 (.default (.explicit .contextSpecific 0) (u32P m) 0))
      (inp (s.1 :: [0x06, 0xa1, 0x04, 0x02, 0x02, 0x00, 0xaa]))) (·.1) = some ([], 0) ∧
    refuses (m.parse (one m s.2 (.default (.explicit .contextSpecific 0) (u32P m) 0))
      (inp (s.1 :: [0x06, 0xa0, 0x04, 0x04, 0x02, 0x00, 0xaa]))) := by decide +kernel

/-- tests/run-pass/sequence.rs:26-58 `derive_sequence_attribute_parse` -/
example :
    read ((one .der 16 (.custom fun i => .ok (i, 0xff))).parseDer (inp [0x30, 0x04, 0x02, 0x02, 0x00,
      0xaa])) (fun v => (v.1 : Nat)) =
      some ([], 0xff) := by decide +kernel

/-- tests/run-pass/sequence.rs:60-76 `derive_sequence_attribute_orig_input` -/
example :
    readG ((structG (ε := BerErr) .der 16 id (.cons (.required id .untagged (uintDer 4).plain)
        (.cons (.custom fun _ orig i => .ok (i, orig)) .nil))).parseDer (inp [0x30, 0x04, 0x02, 0x02, 0x00, 0xaa]))
      (fun v => (v.1, v.2.1.start, v.2.1.stop)) = .ok ([], 0xaa, 2, 6) := by decide +kernel

/-- tests/run-pass/sequence_tagged.rs:4-31 `derive_sequence_tag_explicit` -/
example :
    read ((one .der 16 (.required (.explicit .contextSpecific 0) (uintDer 4))).parseDer
      (inp [0x30, 0x06, 0xa0, 0x04, 0x02, 0x02, 0x00, 0xaa])) (·.1) = some ([], 0xaa) ∧
    refuses ((one .ber 16 (.required (.explicit .contextSpecific 0) (uintBer 4))).parseBer
      (inp [0x30, 0x06, 0x80, 0x04, 0x02, 0x02, 0x00, 0xaa])) ∧
    refuses ((one .ber 16 (.required (.explicit .contextSpecific 0) (uintBer 4))).parseBer
      (inp [0x30, 0x06, 0xa1, 0x04, 0x02, 0x02, 0x00, 0xaa])) ∧
    refuses ((one .ber 16 (.required (.explicit .contextSpecific 0) (uintBer 4))).parseBer
      (inp [0x30, 0x06, 0xa1, 0x03, 0x01, 0x01, 0xff])) := by decide +kernel

/-- tests/run-pass/sequence_tagged.rs:33-56 `derive_sequence_tag_implicit` -/
example :
    read ((one .der 16 (.required (.implicit .contextSpecific 0) (uintDer 4))).parseDer
      (inp [0x30, 0x04, 0x80, 0x02, 0x00, 0xaa])) (·.1) = some ([], 0xaa) ∧
    refuses ((one .ber 16 (.required (.implicit .contextSpecific 0) (uintBer 4))).parseBer
      (inp [0x30, 0x04, 0xa0, 0x02, 0x00, 0xaa])) ∧
    refuses ((one .ber 16 (.required (.implicit .contextSpecific 0) (uintBer 4))).parseBer
      (inp [0x30, 0x04, 0x81, 0x02, 0x00, 0xaa])) := by decide +kernel

/-! ### The byte-slice API -/

/-- Fields of type `u16`, `u32`, for `from_der`. -/
abbrev d16 : SliceType Nat := derSlice (uintC 2)
abbrev d32 : SliceType Nat := derSlice (uintC 4)

/-- A struct as a field type: `FromDer`, `TryFrom<Any>`, `TAG`, `accept_tag`. -/
def structSlice (tag : Nat) {Ts : List Type} (ber der : SliceFields Ts) : SliceType (Tup Ts) :=
  ⟨structFromDer tag der, structTryFrom tag ber, tag, tagIs tag⟩

/-- `struct T2 { a: u16 }`. -/
def t2 (tag : Nat) : SliceType (Tup [Nat]) :=
  structSlice tag (.cons (.required .untagged (berSlice (uintC 2))) .nil) (.cons (.required .untagged d16) .nil)

/-- tests/run-pass/der_sequence_compound.rs:16-28 `main`, tests/run-pass/der_set_compound.rs:16-28 `main` -/
example : ∀ s ∈ [((0x30 : UInt8), 16), (0x31, 17)],
    andThen (structFromDer s.2 (.cons (.required .untagged d32) (.cons (.required .untagged d16)
        (.cons (.required .untagged (t2 s.2)) .nil))) ((s.1 :: [0x0b, 0x02, 0x01, 0x01, 0x02, 0x01,
          0x02]) ++ (s.1 :: [0x03, 0x02, 0x01, 0x03])))
      (fun r => (r.1, r.2.1, r.2.2.1, r.2.2.2.1.1)) = some ([], 1, 2, 3) := by decide +kernel

/-- tests/run-pass/der_sequence_default.rs:21-45 `main` -/
example :
    andThen (structFromDer 16 (.cons (.default .untagged d16 0) .nil) [0x30, 0x03, 0x02, 0x01, 0x03]) (fun r => (r.1,
      r.2.1)) =
      some ([], 3) ∧
    andThen (structFromDer 16 (.cons (.default .untagged d16 0) .nil) [0x30, 0x00]) (fun r => (r.1, r.2.1)) =
      some ([], 0) ∧
    andThen (structFromDer 16 (.cons (.default (.explicit .contextSpecific 0) d16 0) .nil) [0x30, 0x05, 0xa0, 0x03,
      0x02, 0x01, 0x03])
      (fun r => (r.1, r.2.1)) = some ([], 3) ∧
    andThen (structFromDer 16 (.cons (.default (.explicit .contextSpecific 0) d16 0) .nil) [0x30, 0x00])
      (fun r => (r.1, r.2.1)) = some ([], 0) := by decide +kernel

/-- tests/run-pass/der_sequence_lifetime.rs:23-28 `main`,
  tests/toder_sequence_lifetime.rs:16-32 `toder_sequence_lifetime` -/
example :
    andThen (structFromDer 16 (.cons (.required .untagged d32) (.cons (.required .untagged d16)
        (.cons (.required .untagged d16) (.cons (.required .untagged (derSlice refStrC)) .nil))))
        [0x30, 0x0f, 0x02, 0x01, 0x01, 0x02, 0x01, 0x02, 0x02, 0x01, 0x03, 0x0c, 0x04, 0x61, 0x62, 0x63,
          0x64]) (fun r => (r.1, r.2.1, r.2.2.1, r.2.2.2.1, r.2.2.2.2.1)) =
      some ([], 1, 2, 3, "abcd".toList) ∧
    (structToBer 16 (.cons .untagged (uintToBer 4) (.cons .untagged (uintToBer 2) (.cons .untagged (uintToBer 2)
      (.cons .untagged (strToBer 12) .nil))))).toVec (1, 2, 3, "abcd".toList, ()) =
      .ok [0x30, 0x0f, 0x02, 0x01, 0x01, 0x02, 0x01, 0x02, 0x02, 0x01, 0x03, 0x0c, 0x04, 0x61, 0x62, 0x63,
        0x64] := by decide +kernel

/-- tests/run-pass/der_sequence_optional.rs:25-53 `main` -/
example :
    andThen (structFromDer 16 (.cons (.required .untagged d16) (.cons (.optional .untagged d16) .nil))
      [0x30, 0x06, 0x02, 0x01, 0x03, 0x02, 0x01, 0x03]) (fun r => (r.1, r.2.1, r.2.2.1)) = some ([], 3, some 3) ∧
    andThen (structFromDer 16 (.cons (.required .untagged d16) (.cons (.optional .untagged d16) .nil))
      [0x30, 0x03, 0x02, 0x01, 0x03]) (fun r => (r.1, r.2.1, r.2.2.1)) = some ([], 3, none) ∧
    (∀ i ∈ [[0x30, 0x08, 0xa1, 0x03, 0x02, 0x01, 0x03, 0x02, 0x01, 0x03], [0x30, 0x08, 0xa0, 0x02, 0x02, 0x01, 0x03,
      0x02, 0x01, 0x03], [0x30, 0x08, 0xa0, 0x03, 0x02, 0x04, 0x03, 0x02, 0x01, 0x03]],
      fails (structFromDer 16 (.cons (.required .untagged d16) (.cons (.optional .untagged d16) .nil)) i)) ∧
    andThen (structFromDer 16 (.cons (.optional (.explicit .contextSpecific 0) d16) .nil) [0x30, 0x00])
      (fun r => (r.1, r.2.1)) = some ([], none) := by decide +kernel

/-- tests/run-pass/der_sequence_simple.rs:11-20 `main`, tests/run-pass/der_set_simple.rs:11-16 `main`,
tests/toder_sequence_simple.rs:17-25 `toder_sequence` -/
example :
    (∀ s ∈ [((0x30 : UInt8), 16), (0x31, 17)],
      andThen (structFromDer s.2 (.cons (.required .untagged d32) (.cons (.required .untagged d16)
          (.cons (.required .untagged d16) .nil))) (s.1 :: [0x09, 0x02, 0x01, 0x01, 0x02, 0x01, 0x02, 0x02, 0x01,
            0x03]))
        (fun r => (r.1, r.2.1, r.2.2.1, r.2.2.2.1)) = some ([], 1, 2, 3)) ∧
    (structToBer 16 (.cons .untagged (uintToBer 4) (.cons .untagged (uintToBer 2)
      (.cons .untagged (uintToBer 2) .nil)))).toVec (1, 2, 3, ()) = .ok [0x30, 0x09, 0x02, 0x01, 0x01, 0x02, 0x01,
        0x02, 0x02, 0x01, 0x03] := by
  decide +kernel

/-- tests/run-pass/der_sequence_tagged.rs:49-69 `main`: fields of type `TaggedExplicit<T2, Error, 0>` and
`OptTaggedImplicit<Vec<T2>, Error, N>`, that is `Option<TaggedImplicit<Vec<T2>, Error, N>>`. -/
def explicitSlice {α : Type} (cls : Class) (tag : Nat) (ty : SliceType α) (ber : Bytes → Except SErr (Bytes × α)) :
    SliceType (TaggedValue α) :=
  ⟨explicitFromDer cls tag ty.from_, explicitTryFrom cls tag ber, tag, tagIs tag⟩
def implicitSlice {α : Type} (cls : Class) (tag : Nat) (ty : SliceType α) : SliceType (TaggedValue α) :=
  ⟨implicitFromDer cls tag ty.tag ty.tryFrom, implicitTryFrom cls tag ty.tag ty.tryFrom, tag, tagIs tag⟩
def vecSlice {α : Type} (ty : SliceType α) : SliceType (List α) :=
  ⟨seqFromDer 16 ty.from_, seqTryFrom 16 (fromBerWith ty.tryFrom), 16, tagIs 16⟩
example :
    andThen (structFromDer 16 (.cons (.required .untagged d32) (.cons (.required .untagged d16)
        (.cons (.required .untagged (explicitSlice .contextSpecific 0 (t2 16) (fromBerWith (t2 16).tryFrom))) .nil)))
        [0x30, 0x0d, 0x02, 0x01, 0x01, 0x02, 0x01, 0x02, 0xa0, 0x05, 0x30, 0x03, 0x02, 0x01, 0x03]) (fun r => (r.1,
          r.2.1, r.2.2.1, r.2.2.2.1.inner.1)) =
      some ([], 1, 2, 3) ∧
    andThen (structFromDer 16 (.cons (.required .untagged d32) (.cons (.required .untagged d16)
        (.cons (.optional .untagged (implicitSlice .contextSpecific 0 (vecSlice (t2 16))))
          (.cons (.optional .untagged (implicitSlice .contextSpecific 1 (vecSlice (t2 16)))) .nil))))
        [0x30, 0x0d, 0x02, 0x01, 0x01, 0x02, 0x01, 0x02, 0xa1, 0x05, 0x30, 0x03, 0x02, 0x01, 0x03])
      (fun r => (r.1, r.2.1, r.2.2.1, r.2.2.2.1.map (·.inner.map (·.1)), r.2.2.2.2.1.map (·.inner.map (·.1)))) =
      some ([], 1, 2, none, some [3]) := by decide +kernel

/-- tests/run-pass/der_sequence_tagged_explicit.rs:1-19 `test_tag_explicit`,
tests/run-pass/der_sequence_tagged_explicit.rs:21-69 `test_tag_explicit_optional`,
tests/run-pass/der_sequence_tagged_explicit.rs:71-89 `test_tag_explicit_application`,
tests/run-pass/der_sequence_tagged_explicit.rs:91-109 `test_tag_explicit_private`,
and the same in tests/run-pass/der_set_tagged_explicit.rs -/
example : ∀ s ∈ [((0x30 : UInt8), 16), (0x31, 17)],
    (∀ c ∈ [(Class.contextSpecific, (0xa0 : UInt8), (0xa1 : UInt8)), (.application, 0x60, 0x61), (.priv, 0xe0, 0xe1)],
      andThen (structFromDer s.2 (.cons (.required (.explicit c.1 0) d16) .nil)
        (s.1 :: 0x05 :: c.2.1 :: [0x03, 0x02, 0x01, 0x03])) (fun r => (r.1, r.2.1)) = some ([], 3) ∧
      fails (structFromDer s.2 (.cons (.required (.explicit c.1 0) d16) .nil)
        (s.1 :: 0x05 :: c.2.2 :: [0x03, 0x02, 0x01, 0x03]))) ∧
    andThen (structFromDer s.2 (.cons (.optional (.explicit .contextSpecific 0) d16)
      (.cons (.required .untagged d16) .nil)) (s.1 :: [0x08, 0xa0, 0x03, 0x02, 0x01, 0x03, 0x02, 0x01,
        0x03])) (fun r => (r.1, r.2.1, r.2.2.1)) =
      some ([], some 3, 3) ∧
    andThen (structFromDer s.2 (.cons (.optional (.explicit .contextSpecific 0) d16)
      (.cons (.required .untagged d16) .nil)) (s.1 :: [0x03, 0x02, 0x01, 0x03])) (fun r => (r.1, r.2.1, r.2.2.1)) =
      some ([], none, 3) ∧
    (∀ i ∈ [[0x08, 0xa1, 0x03, 0x02, 0x01, 0x03, 0x02, 0x01, 0x03], [0x08, 0xa0, 0x02, 0x02, 0x01, 0x03, 0x02, 0x01,
      0x03], [0x08, 0xa0, 0x03, 0x02, 0x04, 0x03, 0x02, 0x01, 0x03]],
      fails (structFromDer s.2 (.cons (.optional (.explicit .contextSpecific 0) d16)
        (.cons (.required .untagged d16) .nil)) (s.1 :: i))) ∧
    andThen (structFromDer s.2 (.cons (.optional (.explicit .contextSpecific 0) d16) .nil) (s.1 :: [0x00]))
      (fun r => (r.1, r.2.1)) = some ([], none) := by decide +kernel

/-- tests/run-pass/der_sequence_tagged_implicit.rs:1-19 `test_tag_implicit`,
tests/run-pass/der_sequence_tagged_implicit.rs:21-69 `test_tag_implicit_optional`,
tests/run-pass/der_sequence_tagged_implicit.rs:71-89 `test_tag_implicit_application`,
tests/run-pass/der_sequence_tagged_implicit.rs:91-109 `test_tag_implicit_private` -/
example :
    (∀ c ∈ [(Class.contextSpecific, (0x80 : UInt8), (0x81 : UInt8)), (.application, 0x40, 0x41), (.priv, 0xc0, 0xc1)],
      andThen (structFromDer 16 (.cons (.required (.implicit c.1 0) d16) .nil)
        (0x30 :: 0x03 :: c.2.1 :: [0x01, 0x03])) (fun r => (r.1, r.2.1)) = some ([], 3) ∧
      fails (structFromDer 16 (.cons (.required (.implicit c.1 0) d16) .nil)
        (0x30 :: 0x03 :: c.2.2 :: [0x01, 0x03]))) ∧
    andThen (structFromDer 16 (.cons (.optional (.implicit .contextSpecific 0) d16)
      (.cons (.required .untagged d16) .nil)) [0x30, 0x06, 0x80, 0x01, 0x03, 0x02, 0x01, 0x03]) (fun r => (r.1,
        r.2.1, r.2.2.1)) =
      some ([], some 3, 3) ∧
    andThen (structFromDer 16 (.cons (.optional (.implicit .contextSpecific 0) d16)
      (.cons (.required .untagged d16) .nil)) [0x30, 0x03, 0x02, 0x01, 0x03]) (fun r => (r.1, r.2.1, r.2.2.1)) =
      some ([], none, 3) ∧
    (∀ i ∈ [[0x30, 0x06, 0x81, 0x01, 0x03, 0x02, 0x01, 0x03], [0x30, 0x06, 0x80, 0x02, 0x03, 0x02, 0x01, 0x03],
      [0x30, 0x06, 0x80, 0x04, 0x03, 0x02, 0x01, 0x03]],
      fails (structFromDer 16 (.cons (.optional (.implicit .contextSpecific 0) d16)
        (.cons (.required .untagged d16) .nil)) i)) ∧
    andThen (structFromDer 16 (.cons (.optional (.implicit .contextSpecific 0) d16) .nil) [0x30, 0x00])
      (fun r => (r.1, r.2.1)) = some ([], none) := by decide +kernel

/-- `struct T1 { a: u32, b: u16, c: u16 }` -/
def t1 : SliceType (Tup [Nat, Nat, Nat]) :=
  structSlice 16
    (.cons (.required .untagged (berSlice (uintC 4))) (.cons (.required .untagged (berSlice (uintC 2)))
      (.cons (.required .untagged (berSlice (uintC 2))) .nil)))
    (.cons (.required .untagged d32) (.cons (.required .untagged d16) (.cons (.required .untagged d16) .nil)))

/-- tests/run-pass/der_structured.rs:24-40 `main` -/
example :
    andThen (structFromDer 16 (.cons (.required .untagged (vecSlice t1)) .nil)
        [0x30, 0x18, 0x30, 0x16, 0x30, 0x09, 0x02, 0x01, 0x01, 0x02, 0x01, 0x02, 0x02, 0x01, 0x03, 0x30, 0x09, 0x02,
          0x01, 0x01, 0x02, 0x01, 0x02, 0x02, 0x01, 0x03])
      (fun r => (r.1, r.2.1.map fun v => (v.1, v.2.1, v.2.2.1))) = some ([], [(1, 2, 3), (1, 2, 3)]) := by
  decide +kernel

/-- tests/issue-27-option-struct-derive.rs -/
example :
    andThen (structFromDer 16 (.cons (.required .untagged d16) (.cons (.optional .untagged (derSlice boolC))
      (.cons (.required .untagged d32) .nil))) [48, 8, 2, 2, 18, 52, 2, 2, 86, 120])
      (fun r => (r.2.1, r.2.2.1, r.2.2.2.1)) = some (0x1234, none, 0x5678) ∧
    andThen (structFromDer 16 (.cons (.required .untagged d16) (.cons (.optional .untagged (derSlice boolC))
      (.cons (.required .untagged d32) .nil))) [48, 11, 2, 2, 18, 52, 1, 1, 255, 2, 2, 86, 120])
      (fun r => (r.2.1, r.2.2.1, r.2.2.2.1)) = some (0x1234, some true, 0x5678) ∧
    andThen (structFromDer 16 (.cons (.required .untagged d16) (.cons (.optional .untagged d32)
      (.cons (.required .untagged (derSlice boolC)) .nil))) [48, 7, 2, 2, 18, 52, 1, 1, 255])
      (fun r => (r.2.1, r.2.2.1, r.2.2.2.1)) = some (0x1234, none, true) ∧
    andThen (structFromDer 16 (.cons (.required .untagged d16) (.cons (.optional .untagged d32)
      (.cons (.required .untagged (derSlice boolC)) .nil))) [48, 11, 2, 2, 18, 52, 2, 2, 86, 120, 1, 1, 255])
      (fun r => (r.2.1, r.2.2.1, r.2.2.2.1)) = some (0x1234, some 0x5678, true) := by decide +kernel

/-! ### ENUMERATED -/

/-- The values of `enum MyEnum { Zero = 0, Four = 4, Five }`. -/
def enumValues : List Nat := discriminants 0 [some 0, some 4, none]
def enumeratedP : Rules → Parser Nat | .ber => enumeratedBer | .der => enumeratedDer

/-- tests/run-pass/enumerated.rs:4-42 `derive_enumerated`,
  tests/run-pass/enumerated.rs:48-75 `derive_enumerated_encode` -/
example :
    enumValues = [0, 4, 5] ∧ (enumToBer enumValues).toVec ⟨1, by decide⟩ = .ok [0x0a, 0x01, 0x04] ∧
    ∀ m ∈ [Rules.ber, .der],
      read (m.parse (enumP (enumeratedP m) enumValues) (inp [0x0a, 0x01, 0x00])) (·.val) = some ([], 0) ∧
      refuses (m.parse (enumP (enumeratedP m) enumValues) (inp [0x0b, 0x01, 0x00])) ∧
      read (m.parse (enumP (enumeratedP m) enumValues) (inp [0x0a, 0x01, 0x05])) (·.val) = some ([], 2) ∧
      refuses (m.parse (enumP (enumeratedP m) enumValues) (inp [0x0b, 0x01, 0x02])) ∧
      refuses (m.parse (enumP (enumeratedP m) enumValues) (inp [0x0a, 0x01, 0x02])) ∧
      read (m.parse (enumP (enumeratedP m) enumValues) (inp [0x0a, 0x01, 0x04])) (·.val) = some ([],
        1) := by decide +kernel

/-! ### Encoders of structs -/

/-- tests/run-pass/tober_lifetime.rs:4-16 `derive_tober_lifetime` -/
example : (structToBer 16 (.cons .untagged octetToBer .nil)).toVec ([1, 2], ()) = .ok [0x30, 0x04, 0x04, 0x02, 0x01,
  0x02] := by
  decide +kernel

/-- tests/run-pass/tober_simple.rs:4-16 `derive_tober_simple`,
  tests/run-pass/tober_simple.rs:18-39 `derive_tober_container`,
tests/run-pass/tober_simple.rs:41-55 `derive_tober_and_toder`,
  tests/run-pass/tober_set_simple.rs:4-16 `derive_tober_simple`,
tests/run-pass/tober_set_simple.rs:18-39 `derive_tober_container`,
tests/run-pass/tober_set_simple.rs:41-55 `derive_tober_and_toder`,
tests/run-pass/sequence.rs:82-106 `derive_sequence_simple_encode`,
  tests/run-pass/set.rs:30-54 `derive_set_simple_encode` -/
example : ∀ s ∈ [((0x30 : UInt8), 16), (0x31, 17)],
    (structToBer s.2 (.cons .untagged (uintToBer 4) .nil)).toVec (0xaa, ()) = .ok (s.1 :: [0x04, 0x02, 0x02, 0x00,
      0xaa]) ∧
    (structToBer s.2 (.cons .untagged (structToBer s.2 (.cons .untagged (uintToBer 4) .nil)) .nil)).toVec
      ((0xaa, ()), ()) = .ok (s.1 :: 0x06 :: s.1 :: [0x04, 0x02, 0x02, 0x00, 0xaa]) ∧
    ∀ m ∈ [Rules.ber, .der],
      read (m.parse (one m s.2 (.required .untagged (u32P m))) (inp (s.1 :: [0x04, 0x02, 0x02, 0x00, 0xaa]))) (·.1) =
        some ([], 0xaa) := by decide +kernel

/-- tests/run-pass/sequence_tagged.rs:62-87 `derive_sequence_tag_explicit_encode`,
tests/run-pass/sequence_tagged.rs:89-114 `derive_sequence_tag_implicit_encode` -/
example :
    (structToBer 16 (.cons (.explicit .contextSpecific 0) (uintToBer 4) .nil)).toVec (0xaa, ()) =
      .ok [0x30, 0x06, 0xa0, 0x04, 0x02, 0x02, 0x00, 0xaa] ∧
    (structToBer 16 (.cons (.implicit .contextSpecific 0) (uintToBer 4) .nil)).toVec (0xaa, ()) =
      .ok [0x30, 0x04, 0x80, 0x02, 0x00, 0xaa] ∧
    ∀ m ∈ [Rules.ber, .der],
      read (m.parse (one m 16 (.required (.explicit .contextSpecific 0) (u32P m))) (inp [0x30, 0x06, 0xa0, 0x04,
        0x02, 0x02, 0x00, 0xaa]))
        (·.1) = some ([], 0xaa) ∧
      read (m.parse (one m 16 (.required (.implicit .contextSpecific 0) (u32P m))) (inp [0x30, 0x04, 0x80, 0x02,
        0x00, 0xaa]))
        (·.1) = some ([], 0xaa) := by decide +kernel

/-! ### Other tests -/

/-- tests/issue-18-constructed-bit-sequence.rs:15-27 `issue_18_1` -/
example :
    andThen ((implicitToBer .universal 2 (fun _ => true) (rawToBer 16)).toVec ⟨⟨[2, 2, 18, 52, 2, 2, 86, 12], true⟩⟩)
      (fun v => andThen (wrapBerParser parseHeaderDer v) (·.2.constructed)) = some (some true) := by decide +kernel

/-- tests/issue-43-encoding-large-tags.rs:6-16 `encode_large_tag` -/
example :
    ((Integer.fromInt 4 1).map fun i => andThen (integerToBer.toVec i) fun data =>
      andThen (anyToBer.toVec (Any.fromTagAndData 0x41424344 (inp data))) fun tmp =>
        andThen (anyFromDer tmp) fun r => r.2.header.tag) = some (some (some (some 0x41424344))) := by decide +kernel

/-- tests/krb5.rs:93-102 `krb5_principalname`, tests/krb5.rs:105-114 `to_der_krb5_principalname`: `PrincipalName`,
  written by hand. -/
def principalName (bytes : Bytes) : Except SErr (Bytes × Nat × List Text) := do
  let (rem, seq) ← fromBerWith (rawTryFrom 16) bytes
  let (i, t) ← parseDerTagged 0 (taggedParserExplicit parseDerAny (fromDer (uintBer 4) checkDerInt)) seq.content
  let (_, s) ← parseDerTagged 1 (taggedParserExplicit parseDerAny
    (seqFromDer 16 (fromDer (strBer generalStringK) strCheck))) i
  pure (rem, t.inner, s.inner)
example :
    principalName [0x30, 0x81, 0x11, 0xa0, 0x03, 0x02, 0x01, 0x00, 0xa1, 0x0a, 0x30, 0x81, 0x07, 0x1b, 0x05, 0x4a,
      0x6f, 0x6e, 0x65, 0x73] =
      .ok ([], 0, ["Jones".toList]) ∧
    andThen ((taggedParserExplicitToBer (intToBer 4)).toVec (.newExplicit .contextSpecific 0 0)) (fun a =>
      andThen ((taggedParserExplicitToBer (listToBer 16 (strToBer 27))).toVec
          (.newExplicit .contextSpecific 1 ["Jones".toList])) (fun b =>
        ((intToBer 4).totalLen 0, (listToBer 16 (strToBer 12)).totalLen ["Jones".toList], a, b,
          principalName ([0x30, UInt8.ofNat (a.length + b.length)] ++ a ++ b)))) =
      some (some (.definite 3, .definite 9, [0xa0, 0x03, 0x02, 0x01, 0x00], [0xa1, 0x09, 0x30, 0x07, 0x1b, 0x05,
        0x4a, 0x6f, 0x6e, 0x65, 0x73],
        .ok ([], 0, ["Jones".toList]))) := by decide +kernel

/-! ### Programs that must not compile -/

/-- tests/compile-fail/der_sequence_tag_errors.rs:1-21 `test_tag_errors`: the macro panics. -/
example :
    (FieldInfo.ofAttrs (E := Unit) [{ path := "tag_explicit", toks := some [.int 0] },
      { path := "tag_implicit", toks := some [.int 0] }]).isOk = false ∧
    (FieldInfo.ofAttrs (E := Unit) [{ path := "tag_explicit", toks := some [.int 0] },
      { path := "tag_explicit", toks := some [.int 1] }]).isOk = false ∧
    (FieldInfo.ofAttrs (E := Unit) [{ path := "tag_explicit", toks := some [.int 0] }]).isOk = true := by
  decide +kernel

/-- tests/compile-fail/berparser_attributes_no_der.rs:4-23 `derive_choice_explicit_attributes_no_der`: there is `parse_ber`,
there is no `parse_der`. -/
example :
    andThen (Options.ofAttrs (E := Unit) [{ path := "tagged_explicit" },
        { path := "asn1", items := some [⟨"parse", some (.str (some ["BER"]) none)⟩] }])
      (fun o => (Macro.generates o [] .choice).filter fun g =>
        g = .impl (.parser .ber) ∨ g = .impl (.parser .der)) = some [.impl (.parser .ber)] := by decide +kernel

end Asn1.Tests

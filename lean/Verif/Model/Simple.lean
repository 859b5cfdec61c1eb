import Verif.Model.Integer
/-!
# BOOLEAN, NULL, ENUMERATED, end-of-contents

src/asn1_types/{boolean,null,enumerated,end_of_content}.rs
-/
namespace Asn1

/-- src/tag.rs tag numbers. -/
def tagBoolean : Nat := 1
/-- src/tag.rs `Tag::Null`. -/
def tagNull : Nat := 5
/-- src/tag.rs `Tag::Enumerated`. -/
def tagEnumerated : Nat := 10

/-- src/asn1_types/boolean.rs:41-53 `BerParser for Boolean`: the value byte. -/
def booleanContent (h : Header) (input : Input) : PRes UInt8 := do
  h.assertPrimitive input
  if h.length ≠ .definite 1 then nomErr input .invalidLength
  else beU8 input

/-- src/asn1_types/boolean.rs:59-72 `DerParser for Boolean`. -/
def booleanDerContent (h : Header) (input : Input) : PRes UInt8 := do
  let (rem, b) ← booleanContent h input
  if !(b = 0 || b = 0xff) then nomErr rem (.derConstraintFailed .invalidBoolean)
  else pure (rem, b)

/-- `BerParser for Boolean`. -/
def booleanBer : Parser UInt8 := ⟨tagIs tagBoolean, booleanContent⟩
/-- `DerParser for Boolean`. -/
def booleanDer : Parser UInt8 := ⟨tagIs tagBoolean, booleanDerContent⟩

/-- `.map(|(rem, b)| (rem, f b))` on a content parser. -/
def Parser.map {α β : Type} (p : Parser α) (f : α → β) : Parser β where
  acceptTag := p.acceptTag
  content h i :=
    match p.content h i with
    | .ok (rem, a) => .ok (rem, f a)
    | .error e => .error e

/-- src/asn1_types/boolean.rs:31-33 `Boolean::bool`. -/
def booleanBool (b : UInt8) : Bool := b != 0

/-- src/asn1_types/boolean.rs:147-155 `BerParser for bool`. -/
def boolBer : Parser Bool := booleanBer.map booleanBool
/-- src/asn1_types/boolean.rs:158-166 `DerParser for bool`. -/
def boolDer : Parser Bool := booleanDer.map booleanBool

/-- src/asn1_types/boolean.rs:74-83 and 136-145 `check_constraints` of `Boolean` and `bool`:
`as_bytes()[0]` panics on an empty content. -/
def booleanCheck (a : Any) : Except SErr Unit :=
  match a.data.data with
  | [] => .error .panic
  | c :: _ =>
    if !(c = 0 || c = 0xff) then .error (.error (.derConstraintFailed .invalidBoolean)) else .ok ()

/-- src/asn1_types/boolean.rs:96-110 `ToBer for Boolean`. -/
def booleanToBer : ToBer UInt8 where
  encoder := .primitive tagBoolean
  contentLen _ := .definite 1
  tagInfo _ := (.universal, false, tagBoolean)
  writeContent v := do
    Wr.writeAll [v]
    pure 1

/-- src/asn1_types/boolean.rs:112-127 `ToDer for Boolean`. -/
def booleanToDer : ToBer UInt8 where
  encoder := .primitive tagBoolean
  contentLen _ := .definite 1
  tagInfo _ := (.universal, false, tagBoolean)
  writeContent v := do
    Wr.writeAll [if v ≠ 0 then 0xff else 0x00]
    pure 1

/-- src/asn1_types/boolean.rs:178-213 `ToBer`/`ToDer` for `bool`. -/
def boolToBer : ToBer Bool where
  encoder := .primitive tagBoolean
  contentLen _ := .definite 1
  tagInfo _ := (.universal, false, tagBoolean)
  writeContent v := do
    Wr.writeAll [if v then 0xff else 0x00]
    pure 1

/-- src/asn1_types/null.rs:24-38 `BerParser for Null`; 41-51 `DerParser`, and 88-110 for `()`,
are the same. -/
def nullContent (h : Header) (input : Input) : PRes Unit := do
  h.assertPrimitive input
  if !h.length.isNull then nomErr input .invalidLength
  else pure (input, ())

/-- Parsers of NULL. -/
def nullP : Parser Unit := ⟨tagIs tagNull, nullContent⟩

/-- src/asn1_types/null.rs:53-57 `check_constraints`. -/
def nullCheck (_ : Any) : Except SErr Unit := .ok ()

/-- src/asn1_types/null.rs:69-85 `ToBer`/`ToDer` for `Null` (the same for `()`). -/
def nullToBer : ToBer Unit where
  encoder := .primitive tagNull
  contentLen _ := .definite 0
  tagInfo _ := (.universal, false, tagNull)
  writeContent _ := pure 0

/-- src/asn1_types/enumerated.rs:22-32 `BerParser for Enumerated`. -/
def enumeratedBer : Parser Nat where
  acceptTag := tagIs tagEnumerated
  content h input := do
    h.assertPrimitive input
    (uintBer 4).content h input

/-- src/asn1_types/enumerated.rs:35-47 `DerParser for Enumerated`. -/
def enumeratedDer : Parser Nat where
  acceptTag := tagIs tagEnumerated
  content h input := do
    h.assertPrimitive input
    (uintDer 4).content h input

/-- src/asn1_types/enumerated.rs:50-55 `check_constraints`: only the length form. -/
def enumeratedCheck (a : Any) : Except SErr Unit := assertDefiniteS a.header.length

/-- src/asn1_types/enumerated.rs:67-88 `ToBer`/`ToDer` for `Enumerated`. -/
def enumeratedToBer : ToBer Nat where
  encoder := .primitive tagEnumerated
  contentLen v := lenBytes ((Integer.fromUint 4 v).map (·.data))
  tagInfo _ := (.universal, false, tagEnumerated)
  writeContent v := writeBytes ((Integer.fromUint 4 v).map (·.data))

/-- src/asn1_types/end_of_content.rs:30-42 `BerParser for EndOfContent`. -/
def endOfContentBer : Parser Unit where
  acceptTag := tagIs tagEndOfContent
  content h input :=
    if !h.length.isNull then nomErr input .invalidLength else .ok (input, ())

end Asn1

import Verif.Model.Typed
/-!
# INTEGER: src/asn1_types/integer.rs

Machine integers are natural numbers / integers together with the number `N` of bytes of the
type (`u8`: 1, ..., `u128`: 16, `usize`: 8), so that one model covers every width.
-/
namespace Asn1

/-- src/tag.rs `Tag::Integer`. -/
def tagInteger : Nat := 2

/-- src/asn1_types/integer.rs:27-30: `bytes.windows(2).position(|s| !(a == 0xff && b >= 0x80))`. -/
def ffPosition : Bytes → Option Nat
  | a :: b :: rest =>
    if !(a = 0xff && b ≥ 0x80) then some 0 else (ffPosition (b :: rest)).map (· + 1)
  | _ => none

/-- `bytes.iter().position(|&b| b != 0)`. -/
def nonZeroPosition : Bytes → Option Nat
  | [] => none
  | b :: rest => if b != 0 then some 0 else (nonZeroPosition rest).map (· + 1)

/-- src/asn1_types/integer.rs:13-39 `trim_slice`. The slices are within bounds by
construction of the positions. -/
def trimSlice (bytes : Bytes) : Bytes :=
  match bytes with
  | [] => bytes
  | b0 :: _ =>
    if b0 ≠ 0x00 ∧ b0 ≠ 0xff then bytes
    else
      match nonZeroPosition bytes with
      | none => bytes.drop (bytes.length - 1)
      | some (first + 1) => bytes.drop (first + 1)
      | some 0 =>
        match ffPosition bytes with
        | some 0 => bytes
        | none => bytes.drop (bytes.length - 1)
        | some first => bytes.drop first

/-- src/asn1_types/integer.rs:77-82 `is_highest_bit_set`. -/
def isHighestBitSet (bytes : Bytes) : Bool :=
  match bytes.head? with
  | some b => (b &&& 0x80) != 0
  | none => false

/-- src/asn1_types/integer.rs:43-58 `decode_array_uint`. -/
def decodeArrayUint (N : Nat) (bytes : Bytes) : Except InnerError Bytes :=
  if isHighestBitSet bytes then .error .integerNegative
  else
    let input := trimSlice bytes
    if input.length > N then .error .integerTooLarge
    else .ok (List.replicate (N - input.length) 0 ++ input)

/-- src/asn1_types/integer.rs:63-73 `decode_array_int`. -/
def decodeArrayInt (N : Nat) (bytes : Bytes) : Except InnerError Bytes :=
  if bytes.length > N then .error .integerTooLarge
  else .ok (List.replicate (N - bytes.length) 0xff ++ bytes)

/-- Lift a `Result<_, Error>` at position `input`. -/
def liftErr {α : Type} (input : Input) : Except InnerError α → Except PErr α
  | .ok a => .ok a
  | .error e => nomErr input e

/-- src/asn1_types/integer.rs:624-634 `check_der_int_constraints_input`. -/
def checkDerIntBytes (bytes : Bytes) : Except DerConstraint Unit :=
  match bytes with
  | [] => .error .integerEmpty
  | [b] => if b = 0 then .ok () else .ok ()
  | a :: b :: _ =>
    if a = 0 ∧ b < 0x80 then .error .integerLeadingZeroes
    else if a = 0xff ∧ b ≥ 0x80 then .error .integerLeadingFF
    else .ok ()

/-- `check_der_int_constraints_input(&input).map_err(...)` (lines 125-127). -/
def checkDerIntInput (input : Input) : Except PErr Unit :=
  match checkDerIntBytes input.data with
  | .ok () => .ok ()
  | .error c => nomErr input (.derConstraintFailed c)

/-- src/asn1_types/integer.rs:606-622 `check_der_int_constraints`. -/
def checkDerInt (any : Any) : Except SErr Unit := do
  assertPrimitiveS any.header
  assertDefiniteS any.header.length
  match checkDerIntBytes any.data.data with
  | .ok () => .ok ()
  | .error c => .error (.error (.derConstraintFailed c))

/-- src/asn1_types/integer.rs:199-212 `BerParser for $uint`: `from_ber_content`. -/
def uintContent (N : Nat) (h : Header) (input : Input) : PRes Nat := do
  h.assertPrimitive input
  let ar ← liftErr input (decodeArrayUint N input.data)
  let e ← input.atEnd
  pure (e, beNat ar)

/-- `u as $int`: reinterpretation of an N-byte unsigned number as signed. -/
def asSigned (N : Nat) (u : Nat) : Int :=
  if u < 2 ^ (8 * N - 1) then (u : Int) else (u : Int) - (2 ^ (8 * N) : Nat)

/-- src/asn1_types/integer.rs:98-111: the value read by the signed parser. -/
def intValue (N : Nat) (input : Input) : Except PErr Nat :=
  if isHighestBitSet input.data then do
    let ar ← liftErr input (decodeArrayInt N input.data)
    pure (beNat ar)
  else do
    let ar ← liftErr input (decodeArrayUint N input.data)
    let u := beNat ar
    if u > 2 ^ (8 * N - 1) - 1 then nomErr input .integerTooLarge
    else pure u

/-- src/asn1_types/integer.rs:91-114 `BerParser for $int`: `from_ber_content`. -/
def intContent (N : Nat) (h : Header) (input : Input) : PRes Int := do
  h.assertPrimitive input
  let uint ← intValue N input
  let e ← input.atEnd
  pure (e, asSigned N uint)

/-- `BerParser` for an unsigned type of `N` bytes. -/
def uintBer (N : Nat) : Parser Nat := ⟨tagIs tagInteger, uintContent N⟩

/-- src/asn1_types/integer.rs:215-229 `DerParser for $uint`. -/
def uintDer (N : Nat) : Parser Nat where
  acceptTag := tagIs tagInteger
  content h input := do
    checkDerIntInput input
    uintContent N h input

/-- `BerParser` for a signed type of `N` bytes. -/
def intBer (N : Nat) : Parser Int := ⟨tagIs tagInteger, intContent N⟩

/-- src/asn1_types/integer.rs:117-131 `DerParser for $int`. -/
def intDer (N : Nat) : Parser Int where
  acceptTag := tagIs tagInteger
  content h input := do
    checkDerIntInput input
    intContent N h input

/-- src/asn1_types/integer.rs:361-364 `Integer`: the content octets. -/
structure Integer where
  data : Bytes
  deriving DecidableEq, Repr

/-- src/asn1_types/integer.rs:426-432: number of leading zero bytes to drop (the loop over
`idx`). -/
def dropZeros : Bytes → Bytes
  | a :: b :: rest => if a = 0 ∧ b < 0x80 then dropZeros (b :: rest) else a :: b :: rest
  | bs => bs

/-- src/asn1_types/integer.rs:412-438 `from_const_array`. `b.len() - 1` underflows for an empty
array: `none` is that panic. -/
def Integer.fromConstArray (b : Bytes) : Option Integer :=
  if isHighestBitSet b then some ⟨0 :: b⟩
  else if b = [] then none
  else some ⟨dropZeros b⟩

/-- src/asn1_types/integer.rs:444-450: leading `ff` bytes to drop. -/
def dropFFs : Bytes → Bytes
  | a :: b :: rest => if a = 0xff ∧ b ≥ 0x80 then dropFFs (b :: rest) else a :: b :: rest
  | bs => bs

/-- src/asn1_types/integer.rs:440-461 `from_const_array_negative` (the case `idx == b.len()`
cannot happen). -/
def Integer.fromConstArrayNegative (b : Bytes) : Option Integer :=
  if b = [] then none else some ⟨dropFFs b⟩

/-- src/asn1_types/integer.rs:520-522 `Integer::from_u8` ... `from_u128`. -/
def Integer.fromUint (N : Nat) (v : Nat) : Option Integer := Integer.fromConstArray (toBE N v)

/-- `i.to_be_bytes()` of an N-byte signed integer: the bytes of `v mod 2^(8N)`. -/
def toBEInt (N : Nat) (v : Int) : Bytes := toBE N (v % (2 ^ (8 * N) : Nat)).toNat

/-- src/asn1_types/integer.rs:501-508 `Integer::from_i8` ... `from_i128`. -/
def Integer.fromInt (N : Nat) (v : Int) : Option Integer :=
  if v ≥ 0 then Integer.fromConstArray (toBEInt N v)
  else Integer.fromConstArrayNegative (toBEInt N v)

/-- src/asn1_types/integer.rs:377-379 `Integer::any`. -/
def Integer.any (i : Integer) : Any := Any.fromTagAndData tagInteger (Input.fromSlice i.data)

/-- src/asn1_types/integer.rs:486-489 `Integer::as_u8` ... (`p` = `uintBer N` or `intBer N`). -/
def Integer.asMachine {α : Type} (p : Parser α) (i : Integer) : Except SErr α :=
  tryFromAny p i.any

/-- src/asn1_types/integer.rs:558-582 `BerParser for Integer`. -/
def integerContent (h : Header) (input : Input) : PRes Integer := do
  h.assertPrimitive input
  let (rem, content) ← derContent h input
  if content.isEmpty then nomErr content .invalidLength
  else pure (rem, ⟨content.data⟩)

/-- `BerParser for Integer`. -/
def integerBer : Parser Integer := ⟨tagIs tagInteger, integerContent⟩

/-- src/asn1_types/integer.rs:588-597 `DerParser for Integer`. -/
def integerDer : Parser Integer where
  acceptTag := tagIs tagInteger
  content h input := do
    checkDerIntInput input
    integerContent h input

/-- Write an optional byte string (`none` is a panic). -/
def writeBytes (o : Option Bytes) : Wr Nat :=
  match o with
  | none => .fail .panic
  | some bs => do
    Wr.writeAll bs
    pure bs.length

/-- Length of an optional byte string; a panic is represented by 0 and shows up again in
`writeBytes`. -/
def lenBytes (o : Option Bytes) : Length :=
  .definite ((o.map List.length).getD 0)

/-- src/asn1_types/integer.rs:247-286 `ToBer`/`ToDer` for unsigned integers. -/
def uintToBer (N : Nat) : ToBer Nat where
  encoder := .primitive tagInteger
  contentLen v := lenBytes ((Integer.fromUint N v).map (·.data))
  tagInfo _ := (.universal, false, tagInteger)
  writeContent v := writeBytes ((Integer.fromUint N v).map (·.data))

/-- src/asn1_types/integer.rs:149-188 `ToBer`/`ToDer` for signed integers. -/
def intToBer (N : Nat) : ToBer Int where
  encoder := .primitive tagInteger
  contentLen v := lenBytes ((Integer.fromInt N v).map (·.data))
  tagInfo _ := (.universal, false, tagInteger)
  writeContent v := writeBytes ((Integer.fromInt N v).map (·.data))

/-- src/asn1_types/integer.rs:646-664 `ToBer`/`ToDer` for `Integer`. -/
def integerToBer : ToBer Integer where
  encoder := .primitive tagInteger
  contentLen i := .definite i.data.length
  tagInfo _ := (.universal, false, tagInteger)
  writeContent i := writeBytes (some i.data)

end Asn1

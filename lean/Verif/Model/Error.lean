import Verif.Base.Bytes
/-!
# Errors, classes, tags, lengths, parser input
-/
namespace Asn1

/-- src/class.rs:10-19 `Class`. -/
inductive Class where
  | universal | application | contextSpecific | priv
  deriving DecidableEq, Repr, Inhabited

/-- src/class.rs:10-19: `class as u8`. -/
def Class.toNat : Class → Nat
  | .universal => 0 | .application => 1 | .contextSpecific => 2 | .priv => 3

/-- src/class.rs:66-79 `TryFrom<u8> for Class`. -/
def Class.tryFrom (v : UInt8) : Option Class :=
  if v = 0 then some .universal
  else if v = 1 then some .application
  else if v = 2 then some .contextSpecific
  else if v = 3 then some .priv
  else none

/-! src/tag.rs:9 `Tag(pub u32)`: a tag number is a `Nat`, below `2^32` in the code. -/

/-- src/error.rs:19-40 `DerConstraint`. -/
inductive DerConstraint where
  | indefiniteLength | constructed | notConstructed | missingTimeZone | missingSeconds
  | unusedBitsNotZero | invalidBoolean | integerEmpty | integerLeadingZeroes | integerLeadingFF
  deriving DecidableEq, Repr

/-- nom's `ErrorKind`: an enumeration without data; only its discriminant is kept. -/
structure ErrorKind where
  code : Nat
  deriving DecidableEq, Repr

/-- nom's `Needed`. -/
inductive Needed where
  | unknown
  | size (n : Nat)
  deriving DecidableEq, Repr

/-- src/error.rs:268-322 `InnerError`. -/
inductive InnerError where
  | berTypeError
  | berValueError
  | invalidLength
  | invalidValue (tag : Nat) (msg : String)
  | invalidTag
  | unknownTag (t : Nat)
  | unexpectedTag (expected : Option Nat) (actual : Nat)
  | unexpectedClass (expected : Option Class) (actual : Class)
  | indefiniteLengthUnexpected
  | constructExpected
  | constructUnexpected
  | integerTooLarge
  | integerNegative
  | berMaxDepth
  | stringInvalidCharset
  | invalidDateTime
  | derConstraintFailed (c : DerConstraint)
  | nom (k : ErrorKind)
  | lifetimeError
  | unsupported
  | incomplete (n : Needed)
  deriving DecidableEq, Repr

/-- src/error.rs:45-99 `Error`. -/
inductive Error where
  | berTypeError
  | berValueError
  | invalidLength
  | invalidValue (tag : Nat) (msg : String)
  | invalidTag
  | unknownTag (t : Nat)
  | unexpectedTag (expected : Option Nat) (actual : Nat)
  | unexpectedClass (expected : Option Class) (actual : Class)
  | indefiniteLengthUnexpected
  | constructExpected
  | constructUnexpected
  | integerTooLarge
  | integerNegative
  | berMaxDepth
  | stringInvalidCharset
  | invalidDateTime
  | derConstraintFailed (c : DerConstraint)
  | lifetimeError
  | unsupported
  | incomplete (n : Needed)
  | nomError (k : ErrorKind)
  deriving DecidableEq, Repr

/-- src/error.rs:351-379 `From<Error> for InnerError`. -/
def InnerError.ofError : Error → InnerError
  | .berTypeError => .berTypeError
  | .berValueError => .berValueError
  | .invalidLength => .invalidLength
  | .invalidValue tag msg => .invalidValue tag msg
  | .invalidTag => .invalidTag
  | .unknownTag t => .unknownTag t
  | .unexpectedTag expected actual => .unexpectedTag expected actual
  | .unexpectedClass expected actual => .unexpectedClass expected actual
  | .indefiniteLengthUnexpected => .indefiniteLengthUnexpected
  | .constructExpected => .constructExpected
  | .constructUnexpected => .constructUnexpected
  | .integerTooLarge => .integerTooLarge
  | .integerNegative => .integerNegative
  | .berMaxDepth => .berMaxDepth
  | .stringInvalidCharset => .stringInvalidCharset
  | .invalidDateTime => .invalidDateTime
  | .derConstraintFailed c => .derConstraintFailed c
  | .lifetimeError => .lifetimeError
  | .unsupported => .unsupported
  | .incomplete n => .incomplete n
  | .nomError k => .nom k

/-- src/error.rs:457-489 `From<InnerError> for Error`. -/
def Error.ofInner : InnerError → Error
  | .berTypeError => .berTypeError
  | .berValueError => .berValueError
  | .invalidLength => .invalidLength
  | .invalidValue tag msg => .invalidValue tag msg
  | .invalidTag => .invalidTag
  | .unknownTag t => .unknownTag t
  | .unexpectedTag expected actual => .unexpectedTag expected actual
  | .unexpectedClass expected actual => .unexpectedClass expected actual
  | .indefiniteLengthUnexpected => .indefiniteLengthUnexpected
  | .constructExpected => .constructExpected
  | .constructUnexpected => .constructUnexpected
  | .integerTooLarge => .integerTooLarge
  | .integerNegative => .integerNegative
  | .berMaxDepth => .berMaxDepth
  | .stringInvalidCharset => .stringInvalidCharset
  | .invalidDateTime => .invalidDateTime
  | .derConstraintFailed c => .derConstraintFailed c
  | .nom k => .nomError k
  | .lifetimeError => .lifetimeError
  | .unsupported => .unsupported
  | .incomplete n => .incomplete n

/-- src/length.rs:8-13 `Length`. `usize` is a natural number (see DESIGN.md). -/
inductive Length where
  | definite (n : Nat)
  | indefinite
  deriving DecidableEq, Repr

/-- src/length.rs:18-20 `is_null`. -/
def Length.isNull (l : Length) : Bool := l = .definite 0

/-- src/length.rs:42-44 `is_definite`. -/
def Length.isDefinite : Length → Bool
  | .definite _ => true
  | .indefinite => false

/-- src/length.rs:71-83 `Add<Length> for Length` (no `usize` overflow, see DESIGN.md). -/
def Length.add (a b : Length) : Length :=
  match a with
  | .indefinite => a
  | .definite lhs =>
    match b with
    | .indefinite => b
    | .definite rhs => .definite (lhs + rhs)

/-- src/length.rs:85-93 `AddAssign<Length> for Length`. -/
def Length.addAssign (a b : Length) : Length :=
  match a, b with
  | .definite lhs, .definite r => .definite (lhs + r)
  | .indefinite, _ => a
  | _, .indefinite => b

/-- src/length.rs:95-104 `Add<usize> for Length` (same for lines 106-124). -/
def Length.addNat (a : Length) (n : Nat) : Length :=
  match a with
  | .definite lhs => .definite (lhs + n)
  | .indefinite => a

/-- src/length.rs:126-136 `Sum for Length`. -/
def Length.sum (ls : List Length) : Length := ls.foldl Length.add (.definite 0)

/-- src/input.rs:13-16 `Input`: data plus its span in the original buffer. -/
structure Input where
  data : Bytes
  start : Nat
  stop : Nat
  deriving DecidableEq, Repr

/-- src/input.rs:26-32 `Input::from_slice`. -/
def Input.fromSlice (bs : Bytes) : Input := ⟨bs, 0, bs.length⟩

/-- src/input.rs:61-63 `len`. -/
def Input.len (i : Input) : Nat := i.data.length

/-- src/input.rs:66-68 `is_empty`. -/
def Input.isEmpty (i : Input) : Bool := i.data.isEmpty

/-- Failure of a parser: `nom::Err<BerError<Input>>` (src/error.rs:102-107) plus the two
outcomes that Rust does not represent as values: a panic, and a loop that never ends.
`Err::Failure` is never produced by the code. -/
inductive PErr where
  /-- `nom::Err::Incomplete(Needed::Size(n))` -/
  | incomplete (n : Nat)
  /-- `nom::Err::Error(BerError { input, inner_error })` -/
  | error (input : Input) (e : InnerError)
  | panic
  | diverge
  deriving DecidableEq, Repr

/-- `IResult<Input, T, BerError<Input>>`: remaining input and value. -/
notation:max "PRes " α:max => Except PErr (Input × α)

/-- src/input.rs:142-149 `Input::take`: `&self.data[..index]` panics out of range. -/
def Input.take (i : Input) (k : Nat) : Except PErr Input :=
  if k ≤ i.data.length then .ok ⟨i.data.take k, i.start, i.start + k⟩ else .error .panic

/-- src/input.rs:151-158 `Input::take_from`. -/
def Input.takeFrom (i : Input) (k : Nat) : Except PErr Input :=
  if k ≤ i.data.length then .ok ⟨i.data.drop k, i.start + k, i.stop⟩ else .error .panic

/-- src/input.rs:160-162 `Input::take_split`: (remainder, prefix). -/
def Input.takeSplit (i : Input) (k : Nat) : Except PErr (Input × Input) := do
  let r ← i.takeFrom k
  let p ← i.take k
  pure (r, p)

/-- src/input.rs:179-185 `slice_index`. -/
def Input.sliceIndex (i : Input) (count : Nat) : Except Nat Nat :=
  if i.data.length ≥ count then .ok count else .error (count - i.data.length)

/-- nom 8 `bytes::streaming::take`, built on `slice_index`, `take_from` and `take`
(src/input.rs:142-185). -/
def takeS (count : Nat) (i : Input) : PRes Input :=
  match i.sliceIndex count with
  | .error needed => .error (.incomplete needed)
  | .ok index => do
    let r ← i.takeFrom index
    let p ← i.take index
    pure (r, p)

/-- nom 8 `number::streaming::be_u8` on `Input`. -/
def beU8 (i : Input) : PRes UInt8 :=
  match i.data with
  | [] => .error (.incomplete 1)
  | b :: bs => .ok (⟨bs, i.start + 1, i.stop⟩, b)

/-- `BerError::nom_err_input(&input, e)` (src/error.rs:198-203) and its synonyms. -/
def nomErr {α : Type} (input : Input) (e : InnerError) : Except PErr α :=
  .error (.error input e)

/-- src/error.rs:401-406 `Error::from_nom_berr`, also `wrap_ber_parser`'s `Err::convert`.
Only the two value-carrying outcomes are values; panic and divergence are kept apart by
returning `none`. -/
def Error.fromNomBerr : PErr → Option Error
  | .incomplete n => some (.incomplete (.size n))
  | .error _ e => some (Error.ofInner e)
  | .panic => none
  | .diverge => none

end Asn1

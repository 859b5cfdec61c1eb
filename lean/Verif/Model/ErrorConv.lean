import Verif.Model.Typed
/-!
# Conversions between error types: src/error.rs
-/
namespace Asn1

/-- `nom::Err<E>`. -/
inductive NomErr (ε : Type) where
  | incomplete (n : Needed)
  | error (e : ε)
  | failure (e : ε)
  deriving DecidableEq, Repr

/-- src/error.rs:102-107 `BerError<Input>`. -/
structure BerErr where
  input : Input
  inner : InnerError
  deriving DecidableEq, Repr

/-- src/error.rs:231-236 `From<Error> for BerError<Input>`. -/
def BerErr.ofError (e : Error) : BerErr := ⟨Input.fromSlice [], InnerError.ofError e⟩

/-- src/error.rs:238-248 `From<(Input, Error)> for BerError<Input>`. -/
def BerErr.ofPair (x : Input × Error) : BerErr := ⟨x.1, InnerError.ofError x.2⟩

/-- src/error.rs:250-262 `From<(Input, BerError<Input>)> for BerError<Input>`. -/
def BerErr.ofLocated (x : Input × BerErr) : BerErr := x.2

/-- src/error.rs:451-455 `From<BerError<I>> for Error`. -/
def Error.ofBer (e : BerErr) : Error := Error.ofInner e.inner

/-- src/error.rs:442-449 `From<nom::Err<Error>> for Error`. -/
def Error.ofNom : NomErr Error → Error
  | .incomplete n => .incomplete n
  | .error e => e
  | .failure e => e

/-- src/error.rs:401-406 `Error::from_nom_berr`. -/
def Error.ofNomBer : NomErr BerErr → Error
  | .incomplete n => .incomplete n
  | .error e => Error.ofInner e.inner
  | .failure e => Error.ofInner e.inner

/-- src/error.rs:498-506 `from_nom_error`; `fromE` is `F: From<E>`, `fromError` `F: From<Error>`. -/
def fromNomError {ε φ : Type} (fromE : ε → φ) (fromError : Error → φ) : NomErr ε → φ
  | .error e => fromE e
  | .failure e => fromE e
  | .incomplete n => fromError (.incomplete n)

/-- src/error.rs:511-519 `from_nom_bererror`. -/
def fromNomBererror {ε φ : Type} (fromE : Input × ε → φ) (fromError : Error → φ) (input : Input) :
    NomErr ε → φ
  | .error e => fromE (input, e)
  | .failure e => fromE (input, e)
  | .incomplete n => fromError (.incomplete n)

/-- src/error.rs:218-223 `ParseError for BerError`: from an error kind. -/
def BerErr.fromErrorKind (input : Input) (k : ErrorKind) : BerErr := ⟨input, .nom k⟩

/-- src/error.rs:225-228 `ParseError for BerError`: `append`. -/
def BerErr.append (_ : Input) (_ : ErrorKind) (other : BerErr) : BerErr := other

/-- src/error.rs:409-412 `ParseError for Error`, and 491-495 `FromExternalError`: from an error kind. -/
def Error.fromErrorKind (_ : Input) (k : ErrorKind) : Error := .nomError k

/-- src/class.rs:31-40 `Class::assert_eq`. -/
def Class.assertEq (self cls : Class) : Except Error Unit :=
  if self = cls then .ok () else .error (.unexpectedClass (some cls) self)

/-- src/tag.rs:55-64 `Tag::assert_eq`. -/
def tagAssertEq (self tag : Nat) : Except Error Unit :=
  if self = tag then .ok () else .error (.unexpectedTag (some tag) self)

end Asn1

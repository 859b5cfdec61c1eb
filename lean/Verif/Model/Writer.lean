import Verif.Model.Error
/-!
# Writers: `std::io::Write` and the `?` operator on encoding results

An encoding function is a program that calls `write_all` and looks at the answer. Programs are
values of `Wr`; `exec` runs one against a writer that accepts everything (such as `Vec<u8>`),
`runFaulty` against a writer that may refuse any call after accepting part of it.
-/
namespace Asn1

/-- src/error.rs:530-542 `SerializeError`, plus `panic`. -/
inductive SerErr where
  | asn1 (e : Error)
  | invalidClass (c : Nat)
  | invalidLength
  /-- an I/O error of the underlying writer -/
  | io
  /-- the I/O error made by the encoder itself (src/to_ber/encoder.rs:66 "tag too long") -/
  | tagTooLong
  | panic
  deriving DecidableEq, Repr

/-- An encoding program: `write bs k` calls `target.write_all(bs)` and continues with the
answer. -/
inductive Wr (α : Type) : Type where
  | done (a : α)
  | fail (e : SerErr)
  | write (bs : Bytes) (k : Except SerErr Unit → Wr α)

namespace Wr

/-- Sequencing with `?`: an error stops the program. -/
def bind {α β : Type} : Wr α → (α → Wr β) → Wr β
  | .done a, f => f a
  | .fail e, _ => .fail e
  | .write bs k, f => .write bs (fun r => bind (k r) f)

instance : Monad Wr where
  pure := .done
  bind := Wr.bind

/-- `target.write_all(bs)?` -/
def writeAll (bs : Bytes) : Wr Unit :=
  .write bs fun
    | .ok _ => .done ()
    | .error e => .fail e

/-- Run against a writer that never fails: bytes written and result. -/
def exec {α : Type} : Wr α → Bytes × Except SerErr α
  | .done a => ([], .ok a)
  | .fail e => ([], .error e)
  | .write bs k => (bs ++ (exec (k (.ok ()))).1, (exec (k (.ok ()))).2)

/-- A writer: given the history of the calls, answers `none` (chunk accepted) or `some n`
(only the first `n` bytes were accepted, then an I/O error). -/
abbrev Writer := List Bytes → Bytes → Option Nat

/-- Run against an arbitrary writer: bytes accepted by the writer and result. -/
def runFaulty {α : Type} (w : Writer) : Wr α → List Bytes → Bytes × Except SerErr α
  | .done a, _ => ([], .ok a)
  | .fail e, _ => ([], .error e)
  | .write bs k, hist =>
    match w hist bs with
    | none =>
      let r := runFaulty w (k (.ok ())) (bs :: hist)
      (bs ++ r.1, r.2)
    | some n =>
      let r := runFaulty w (k (.error .io)) (bs :: hist)
      (bs.take n ++ r.1, r.2)

end Wr
end Asn1

import Verif.Model.Derive
import Verif.Spec.Ber
/-!
# Reading objects from a stream

Two programs as a user of the crate writes them, that take a parsing function as a parameter and use nothing else
of the crate: one that is given the bytes of a stream in pieces of any size and takes objects out of what it has
got so far, and one that asks for as many bytes as `Incomplete` says.
-/
namespace Asn1.Spec
open Asn1

/-- Some bytes, but not all, of the identifier octets of an object with a tag number of 31 or more: the first octet
and at most four octets more, all of which announce another one. -/
def PartOfTag (bs : Bytes) : Prop :=
  ∃ b v, bs = b :: v ∧ b.toNat % 32 = 31 ∧ (∀ c ∈ v, 128 ≤ c.toNat) ∧ v.length ≤ 4

/-- The bytes end within the identifier octets of an object with a tag number of 31 or more: of the outermost object,
or of an object in an indefinite-length encoding (at most `d` of which are nested), behind complete objects. -/
def EndsInTag : Nat → Bytes → Prop
  | 0, bs => PartOfTag bs
  | d + 1, bs => PartOfTag bs ∨ ∃ c tag id len, ∃ items : List Bytes, ∃ rest, Ident c true tag id ∧ Len true .indefinite len ∧
      (∀ it ∈ items, Elem LaxEoc d it ∧ ¬ LaxEoc it) ∧ EndsInTag d rest ∧
      bs = id ++ len ++ items.flatten ++ rest

/-- Where a cut is noticed: DER has no indefinite-length encodings. -/
def CutInTag : Rules → Bytes → Prop
  | .ber, bs => ∃ d, EndsInTag d bs
  | .der, bs => PartOfTag bs

/-- What a parsing function says about some bytes: it returns a value and what follows it, or it asks for `n` more
bytes, or it fails (`none`: it panics or does not return). -/
inductive Outcome (ε α : Type) where
  | done (rest : Bytes) (v : α)
  | more (n : Nat)
  | failed (e : Option ε)
  deriving DecidableEq, Repr

/-- `parse_ber`, `parse_der`, and so on. -/
def outcome {α : Type} (f : Input → PRes α) (bs : Bytes) : Outcome InnerError α :=
  match f (Input.fromSlice bs) with
  | .ok (r, v) => .done r.data v
  | .error (.incomplete n) => .more n
  | .error (.error _ e) => .failed (some e)
  | .error _ => .failed none

/-- `from_ber`, `from_der`, and so on. -/
def outcomeS {α : Type} (f : Bytes → Except SErr (Bytes × α)) (bs : Bytes) : Outcome Error α :=
  match f bs with
  | .ok (r, v) => .done r v
  | .error (.incomplete n) => .more n
  | .error (.error e) => .failed (some e)
  | .error _ => .failed none

/-! ### Pieces of any size -/

/-- The state of a reader: the bytes not yet used, the values read, and the error that made it stop. -/
structure Reader (ε α : Type) where
  buf : Bytes
  out : List α
  stopped : Option (Option ε)
  deriving DecidableEq, Repr

variable {ε α : Type}

/-- Takes at most `k` objects out of the buffer. -/
def drain (f : Bytes → Outcome ε α) : Nat → Reader ε α → Reader ε α
  | 0, s => s
  | k + 1, s =>
    match f s.buf with
    | .done rest v => drain f k ⟨rest, s.out ++ [v], none⟩
    | .more _ => s
    | .failed e => ⟨[], s.out, some e⟩

/-- A piece arrives: it is appended to the buffer, and all objects in the buffer are taken out (an object takes at
least one byte). After an error the reader does nothing. -/
def feed (f : Bytes → Outcome ε α) (s : Reader ε α) (piece : Bytes) : Reader ε α :=
  if s.stopped.isSome then s
  else drain f ((s.buf ++ piece).length + 1) ⟨s.buf ++ piece, s.out, none⟩

/-- The pieces arrive one after the other. -/
def readPieces (f : Bytes → Outcome ε α) (pieces : List Bytes) : Reader ε α :=
  pieces.foldl (feed f) ⟨[], [], none⟩

/-! ### As many bytes as asked for -/

/-- How reading one object ends: with the object, with an error, or at the end of the stream. -/
inductive Ending (ε α : Type) where
  | object (v : α)
  | failed (e : Option ε)
  | endOfStream
  deriving DecidableEq, Repr

/-- Reads one object from the stream `s`, of which `k` bytes have been read so far. If the parsing function asks for
`n` bytes, the `j`-th call of `read` is made for `n` bytes, which returns `get j n` bytes, or fewer at the end of the
stream. Returns also how many bytes have been read. -/
def readOne (f : Bytes → Outcome ε α) (get : Nat → Nat → Nat) (s : Bytes) : Nat → Nat → Nat → Ending ε α × Nat
  | 0, _, k => (.endOfStream, k)
  | fuel + 1, j, k =>
    match f (s.take k) with
    | .done _ v => (.object v, k)
    | .failed e => (.failed e, k)
    | .more n => if s.length ≤ k then (.endOfStream, k) else readOne f get s fuel (j + 1) (min s.length (k + get j n))

/-- What `read` may return: at least one byte, at most as many as asked for. -/
def ReadsSome (get : Nat → Nat → Nat) : Prop := ∀ j n, 1 ≤ n → 1 ≤ get j n ∧ get j n ≤ n

/-- Reading one object from the start of the stream. -/
def readObject (f : Bytes → Outcome ε α) (get : Nat → Nat → Nat) (s : Bytes) : Ending ε α × Nat :=
  readOne f get s (s.length + 1) 0 0

end Asn1.Spec

import Verif.Model.Typed
/-!
# Iterating over the objects of a content: src/asn1_types/iterator.rs
-/
namespace Asn1

/-- src/asn1_types/iterator.rs:27-34 `AnyIterator`. -/
structure AnyIter where
  input : Input
  hasError : Bool
  deriving DecidableEq, Repr

/-- src/asn1_types/iterator.rs:36-46 `AnyIterator::new`. -/
def AnyIter.new (input : Input) : AnyIter := ⟨input, false⟩

/-- What `next` yields (src/asn1_types/iterator.rs:178): an object with the bytes it was read
from, or an error. -/
inductive IterItem where
  | obj (span : Input) (a : Any)
  | err (input : Input) (e : InnerError)
  deriving DecidableEq, Repr

/-- src/asn1_types/iterator.rs:177-202 and 204-229 `next` in BER and DER mode; `parse` is
`Any::parse_ber` or `Any::parse_der`. The subtraction of spans and the slicing are explicit
panics. -/
def AnyIter.next (parse : Input → PRes Any) (it : AnyIter) :
    Except PErr (Option IterItem × AnyIter) :=
  if it.hasError || it.input.isEmpty then .ok (none, it)
  else
    match parse it.input with
    | .ok (rem, obj) =>
      if rem.start < it.input.start then .error .panic
      else do
        let data ← it.input.take (rem.start - it.input.start)
        pure (some (.obj data obj), { it with input := rem })
    | .error (.error i e) => .ok (some (.err i e), { it with hasError := true })
    | .error (.incomplete n) =>
      .ok (some (.err it.input (.incomplete (.size n))), { it with hasError := true })
    | .error .panic => .error .panic
    | .error .diverge => .error .diverge

/-- A `for` loop, or a collection into a `Result`, over an iterator: the first error is
returned; `f` says whether to go on. (Loops: src/ber/appendable.rs:42-60, `Result::from_iter`
in src/asn1_types/iterator.rs:57-61, 91-103.) The fuel is the content length plus one. -/
def forIter {σ : Type} (parse : Input → PRes Any) (f : σ → Any → Except PErr (Bool × σ)) :
    Nat → AnyIter → σ → Except PErr (AnyIter × σ)
  | 0, _, _ => .error .diverge
  | fuel + 1, it, s =>
    match it.next parse with
    | .error e => .error e
    | .ok (none, it') => .ok (it', s)
    | .ok (some (.err i e), _) => .error (.error i e)
    | .ok (some (.obj _ a), it') =>
      match f s a with
      | .error e => .error e
      | .ok (true, s') => forIter parse f fuel it' s'
      | .ok (false, s') => .ok (it', s')

/-- src/asn1_types/iterator.rs:53-68 and 118-128 `try_collect` (the collection is a list). -/
def AnyIter.tryCollect (parse : Input → PRes Any) (it : AnyIter) : PRes (List Any) := do
  let (it', l) ← forIter parse (fun l a => .ok (true, l ++ [a])) (it.input.len + 1) it []
  pure (it'.input, l)

/-- src/asn1_types/iterator.rs:92-101 and 155-164: one step of `try_parse_collect`. -/
def parseCollectStep {α : Type} (p : Parser α) (l : List α) (a : Any) :
    Except PErr (Bool × List α) :=
  if !p.acceptTag a.header.tag then nomErr a.data (.unexpectedTag none a.header.tag)
  else
    match p.content a.header a.data with
    | .ok (_, v) => .ok (true, l ++ [v])
    | .error e => .error e

/-- src/asn1_types/iterator.rs:85-108 and 146-171 `try_parse_collect`; `p` is the `BerParser` or
the `DerParser` of the item type. -/
def AnyIter.tryParseCollect {α : Type} (parse : Input → PRes Any) (p : Parser α) (it : AnyIter) :
    PRes (List α) := do
  let (it', l) ← forIter parse (parseCollectStep p) (it.input.len + 1) it []
  pure (it'.input, l)

end Asn1

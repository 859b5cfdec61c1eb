import Verif.Model.Tagged
import Verif.Model.Iterator
import Verif.Model.Simple
/-!
# SEQUENCE, SEQUENCE OF, SET, SET OF, arrays and tuples

src/asn1_types/sequence.rs, src/asn1_types/sequence/{vec,sequence_of,array,tuple,iterator,any_sequence}.rs,
src/asn1_types/set.rs, src/asn1_types/set/{set_of,btreeset,hashset,iterator,any_set}.rs,
src/to_ber/constructed_indefinite.rs.

`Vec<T>` is a `List`. The error type `E` of the byte-slice API is `Error`.
-/
namespace Asn1

variable {α : Type}

/-! ### Iterators over typed items -/

/-- src/asn1_types/sequence/iterator.rs:27-52 `SequenceIterator` and `new`
(src/asn1_types/set/iterator.rs:23: `SetIterator` is the same type). -/
structure SeqIter where
  data : Bytes
  hasError : Bool
  deriving DecidableEq, Repr

/-- src/asn1_types/sequence/iterator.rs:43-51 `SequenceIterator::new`. -/
def SeqIter.new (data : Bytes) : SeqIter := ⟨data, false⟩

/-- src/asn1_types/sequence/iterator.rs:53-80 (BER) and 82-109 (DER) `next`; `g` is `T::from_ber`,
respectively `T::from_der`. -/
def SeqIter.next (g : Bytes → Except SErr (Bytes × α)) (it : SeqIter) :
    Except SErr (Option (Except Error α) × SeqIter) :=
  if it.hasError || it.data.isEmpty then .ok (none, it)
  else
    match g it.data with
    | .ok (rem, obj) => .ok (some (.ok obj), { it with data := rem })
    | .error (.error e) => .ok (some (.error e), { it with hasError := true })
    | .error (.incomplete n) =>
      .ok (some (.error (.incomplete (.size n))), { it with hasError := true })
    | .error .panic => .error .panic
    | .error .diverge => .error .diverge

/-- `collect::<Result<_, E>>()` over a `SequenceIterator`: the first error is returned. One unit of
fuel per call of `next`. An item that consumes nothing gives the same item for ever, so running out
of `data.len() + 1` units is a loop that never ends. -/
def SeqIter.collect (g : Bytes → Except SErr (Bytes × α)) : Nat → SeqIter → Except SErr (List α)
  | 0, _ => .error .diverge
  | fuel + 1, it =>
    match it.next g with
    | .error e => .error e
    | .ok (none, _) => .ok []
    | .ok (some (.error e), _) => .error (.error e)
    | .ok (some (.ok v), it') =>
      match SeqIter.collect g fuel it' with
      | .ok vs => .ok (v :: vs)
      | .error e => .error e

/-- src/asn1_types/sequence.rs:284-299 `ber_sequence_of` and `der_sequence_of` (set.rs: 281-296
`ber_set_of`, `der_set_of`), and the collections in the `try_from` and `from_der` functions below. -/
def collectItems (g : Bytes → Except SErr (Bytes × α)) (data : Bytes) : Except SErr (List α) :=
  SeqIter.collect g (data.length + 1) (SeqIter.new data)

/-- src/asn1_types/sequence/iterator.rs:131-157 (BER) and 160-194 (DER): `next` of
`SequenceIteratorInput`, which maps the one of `AnyIterator`; `p` is the `BerParser` or `DerParser`
of the items. The tag of the items is not looked at; the iterator goes on after an error in the
content of an item. -/
def seqIterInputNext (parse : Input → PRes Any) (p : Parser α) (it : AnyIter) :
    Except PErr (Option (Except (Input × InnerError) α) × AnyIter) :=
  match it.next parse with
  | .error e => .error e
  | .ok (none, it') => .ok (none, it')
  | .ok (some (.err i e), it') => .ok (some (.error (i, e)), it')
  | .ok (some (.obj _ a), it') =>
    match p.content a.header a.data with
    | .ok (_, v) => .ok (some (.ok v), it')
    | .error (.error i e) => .ok (some (.error (i, e)), it')
    | .error (.incomplete n) =>
      .ok (some (.error (Input.fromSlice [], .incomplete (.size n))), it')
    | .error .panic => .error .panic
    | .error .diverge => .error .diverge

/-! ### SEQUENCE OF: `Vec<T>` and `SequenceOf<T>` -/

/-- src/asn1_types/sequence/vec.rs:63-88 and 90-115 `from_ber_content` and `from_der_content`;
`parse` is `Any::parse_ber` or `Any::parse_der`, `p` the `BerParser` or `DerParser` of the items. -/
def vecP (parse : Input → PRes Any) (p : Parser α) : Parser (List α) where
  acceptTag := tagIs 16
  content h input := do
    h.assertConstructed input
    if input.isEmpty then .ok (input, [])
    else (AnyIter.new input).tryParseCollect parse p

/-- `BerParser for Vec<T>`. -/
def vecBer (p : Parser α) : Parser (List α) := vecP anyBer.parseBer p
/-- `DerParser for Vec<T>`. -/
def vecDer (p : Parser α) : Parser (List α) := vecP anyDer.parseDer p

/-- The `TryFrom<Any>` of the containers, with `g` the `from_ber` of the items:
src/asn1_types/sequence/vec.rs:49-61 and sequence_of.rs:100-115 (tag 16),
src/asn1_types/set/set_of.rs:100-115 (tag 17). -/
def seqTryFrom (tag : Nat) (g : Bytes → Except SErr (Bytes × α)) (a : Any) :
    Except SErr (List α) := do
  assertTagS a.header tag
  assertConstructedS a.header
  collectItems g a.data.data

/-- The `FromDer` of the containers, with `g` the `from_der` of the items:
src/asn1_types/sequence/vec.rs:150-175 and sequence_of.rs:169-196 (tag 16),
src/asn1_types/set/set_of.rs:175-198 (tag 17; `Any::from_der` is `wrap_ber_parser(parse_der_any)`).
The constructed flag is not looked at. -/
def seqFromDer (tag : Nat) (g : Bytes → Except SErr (Bytes × α)) (bytes : Bytes) :
    Except SErr (Bytes × List α) := do
  let (rem, any) ← wrapBerParser parseDerAny bytes
  assertTagS any.header tag
  let v ← collectItems g any.data.data
  pure (rem, v)

/-- The `for` loops in the `check_constraints` below. -/
def checkItems (check : Any → Except SErr Unit) : Nat → SeqIter → Except SErr Unit
  | 0, _ => .error .diverge
  | fuel + 1, it =>
    match it.next (wrapBerParser parseDerAny) with
    | .error e => .error e
    | .ok (none, _) => .ok ()
    | .ok (some (.error e), _) => .error (.error e)
    | .ok (some (.ok a), it') =>
      match check a with
      | .ok _ => checkItems check fuel it'
      | .error e => .error e

/-- The `CheckDerConstraints` of the containers, with `check` the one of the items:
src/asn1_types/sequence/vec.rs:117-130, sequence_of.rs:153-166 (tag 16),
src/asn1_types/set/set_of.rs:159-172, btreeset.rs:75-88, hashset.rs:76-89 (tag 17). -/
def seqCheck (tag : Nat) (check : Any → Except SErr Unit) (a : Any) : Except SErr Unit := do
  assertTagS a.header tag
  assertConstructedS a.header
  checkItems check (a.data.data.length + 1) (SeqIter.new a.data.data)

/-- `ToBer` and `ToDer` of the containers, with `t` the one of the items:
src/asn1_types/sequence/vec.rs:184-230, array.rs:60-102, any_sequence.rs:100-140 (tag 16),
src/asn1_types/set/btreeset.rs:124-166, hashset.rs:122-164, any_set.rs:105-142 (tag 17);
sequence_of.rs:207-243 and set_of.rs:208-244 delegate to the `Vec` and have their own tag. -/
def listToBer (tag : Nat) (t : ToBer α) : ToBer (List α) where
  encoder := .constructed
  contentLen vs := t.lengthItems vs
  tagInfo _ := (.universal, true, tag)
  writeContent vs := t.writeItems vs 0

/-- src/asn1_types/sequence/sequence_of.rs:36-60 `SequenceOf`: `new`, `into_vec`; `from_iter` (92-97)
is `new` too. -/
structure SequenceOf (α : Type) where
  items : List α
  deriving DecidableEq, Repr

/-- src/asn1_types/sequence/sequence_of.rs:55-58 `push`. -/
def SequenceOf.push (s : SequenceOf α) (v : α) : SequenceOf α := ⟨s.items ++ [v]⟩

/-- src/asn1_types/sequence/sequence_of.rs:117-151 `BerParser` and `DerParser`. -/
def sequenceOfP (parse : Input → PRes Any) (p : Parser α) : Parser (SequenceOf α) where
  acceptTag := tagIs 16
  content h input := do
    let (rem, items) ← (vecP parse p).content h input
    pure (rem, ⟨items⟩)

/-! ### SET OF: `SetOf<T>`, `BTreeSet<T>`, `HashSet<T>` -/

/-- src/asn1_types/set/set_of.rs:35-60 `SetOf`. -/
structure SetOf (α : Type) where
  items : List α
  deriving DecidableEq, Repr

/-- src/asn1_types/set/set_of.rs:117-136 and 138-157, before the wrapping into `SetOf`; and the same
collection in btreeset.rs:35-73, hashset.rs:34-74. -/
def setItemsP (parse : Input → PRes Any) (p : Parser α) : Parser (List α) where
  acceptTag := tagIs 17
  content h input := do
    h.assertConstructed input
    (AnyIter.new input).tryParseCollect parse p

/-- src/asn1_types/set/set_of.rs:117-157 `BerParser` and `DerParser` of `SetOf`. -/
def setOfP (parse : Input → PRes Any) (p : Parser α) : Parser (SetOf α) :=
  (setItemsP parse p).map SetOf.mk

/-- What the code uses of a set collection of the standard library (`BTreeSet`, `HashSet`):
`from_iter`, and `iter`. The standard library is not modelled; the laws say that iteration over a set
built from a list yields the elements of the list, each once, and that a set is determined by the
members it has, as `==` sees it (`eqv`). Equality of elements is taken to be identity. -/
structure SetImpl (α σ : Type) where
  ofList : List α → σ
  toList : σ → List α
  eqv : σ → σ → Prop
  mem : ∀ l x, x ∈ toList (ofList l) ↔ x ∈ l
  nodup : ∀ s, (toList s).Nodup
  eqv_iff : ∀ s s', eqv s s' ↔ ∀ x, x ∈ toList s ↔ x ∈ toList s'

variable {σ : Type}

/-- src/asn1_types/set/btreeset.rs:35-73 and hashset.rs:34-74 `BerParser` and `DerParser`. -/
def setP (S : SetImpl α σ) (parse : Input → PRes Any) (p : Parser α) : Parser σ :=
  (setItemsP parse p).map S.ofList

/-- src/asn1_types/set/btreeset.rs:12-33 and hashset.rs:17-32 `TryFrom<Any>`. -/
def setTryFrom (S : SetImpl α σ) (g : Bytes → Except SErr (Bytes × α)) (a : Any) :
    Except SErr σ := do
  assertTagS a.header 17
  assertConstructedS a.header
  let items ← collectItems g a.data.data
  pure (S.ofList items)

/-- src/asn1_types/set/btreeset.rs:91-118 and hashset.rs:92-120 `FromDer`. -/
def setFromDer (S : SetImpl α σ) (g : Bytes → Except SErr (Bytes × α)) (bytes : Bytes) :
    Except SErr (Bytes × σ) := do
  let (rem, any) ← wrapBerParser parseDerAny bytes
  assertTagS any.header 17
  assertConstructedS any.header
  let items ← collectItems g any.data.data
  pure (rem, S.ofList items)

/-- src/asn1_types/set/btreeset.rs:124-166 and hashset.rs:122-164 `ToBer` and `ToDer`. -/
def setToBer (S : SetImpl α σ) (t : ToBer α) : ToBer σ where
  encoder := .constructed
  contentLen s := t.lengthItems (S.toList s)
  tagInfo _ := (.universal, true, 17)
  writeContent s := t.writeItems (S.toList s) 0

/-! ### Arrays -/

/-- `[T; N]`. -/
abbrev Arr (α : Type) (N : Nat) : Type := { l : List α // l.length = N }

/-- src/asn1_types/sequence/array.rs:15-31 and 33-49 `from_ber_content` and `from_der_content`. -/
def arrayP (N : Nat) (parse : Input → PRes Any) (p : Parser α) : Parser (Arr α N) where
  acceptTag := tagIs 16
  content h input := do
    let (rem, v) ← (vecP parse p).content h input
    if hN : v.length = N then .ok (rem, ⟨v, hN⟩) else nomErr input .invalidLength

/-- src/asn1_types/sequence/array.rs:60-102 `ToBer` and `ToDer`. -/
def arrayToBer (N : Nat) (t : ToBer α) : ToBer (Arr α N) where
  encoder := .constructed
  contentLen vs := t.lengthItems vs.val
  tagInfo _ := (.universal, true, 16)
  writeContent vs := t.writeItems vs.val 0

/-! ### Tuples -/

/-- The values of a tuple. -/
def Tup : List Type → Type
  | [] => Unit
  | T :: Ts => T × Tup Ts

/-- The `parse_ber` (or the `parse_der`) of the components of a tuple. -/
inductive TupFns : List Type → Type 1
  | nil : TupFns []
  | cons {T : Type} {Ts : List Type} (f : Input → PRes T) (fs : TupFns Ts) : TupFns (T :: Ts)

/-- src/asn1_types/sequence/tuple.rs:22-24 and 40-42: the components are parsed one after the
other. -/
def TupFns.run : {Ts : List Type} → TupFns Ts → Input → PRes (Tup Ts)
  | _, .nil, input => .ok (input, ())
  | _, .cons f fs, input => do
    let (rem, v) ← f input
    let (rem, vs) ← fs.run rem
    pure (rem, (v, vs))

/-- src/asn1_types/sequence/tuple.rs:3-46 `BerParser` and `DerParser` for tuples (the macro is used
for 1 to 12 components; the model has no bound). The header is not looked at. -/
def tupleP {Ts : List Type} (fs : TupFns Ts) : Parser (Tup Ts) where
  acceptTag := tagIs 16
  content _ input := fs.run input

/-! ### Raw sequences and sets -/

/-- src/asn1_types/sequence.rs:80-90 `Sequence` and src/asn1_types/set.rs `Set`: the content, with the
variant of the `Cow`. -/
structure RawSeq where
  content : Bytes
  owned : Bool
  deriving DecidableEq, Repr

/-- src/asn1_types/sequence.rs:403-445 (tag 16) and set.rs:386-428 (tag 17) `BerParser` and
`DerParser`. -/
def rawP (tag : Nat) : Parser RawSeq where
  acceptTag := tagIs tag
  content h input := do
    h.assertConstructed input
    let (rem, data) ← input.takeSplit input.len
    pure (rem, ⟨data.data, false⟩)

/-- src/asn1_types/sequence.rs:383-401 and set.rs:366-384 `TryFrom<Any>`. -/
def rawTryFrom (tag : Nat) (a : Any) : Except SErr RawSeq := do
  assertTagS a.header tag
  assertConstructedS a.header
  pure ⟨a.data.data, false⟩

/-- `FromDer` for `Sequence` and `Set` (src/from_der.rs:93-114): the check (sequence.rs:447-453,
set.rs:430-434) always succeeds. -/
def rawFromDer (tag : Nat) (bytes : Bytes) : Except SErr (Bytes × RawSeq) := do
  let (i, any) ← wrapBerParser parseDerAny bytes
  let result ← rawTryFrom tag any
  pure (i, result)

/-- src/asn1_types/sequence.rs:463-483 and set.rs:444-464 `ToBer` (and `ToDer`). -/
def rawToBer (tag : Nat) : ToBer RawSeq where
  encoder := .constructed
  contentLen s := .definite s.content.length
  tagInfo _ := (.universal, true, tag)
  writeContent s := do
    Wr.writeAll s.content
    pure s.content.length

/-- src/asn1_types/sequence.rs:129-142 and 165-178 `from_ber_and_then` and `from_der_and_then`
(set.rs:126-139 and 162-175); `from_` is the `from_ber` or `from_der` of `Sequence` or `Set`. The
`unreachable!()` is an explicit panic. -/
def rawAndThen {β : Type} (from_ : Bytes → Except SErr (Bytes × RawSeq))
    (op : Bytes → Except SErr (Bytes × β)) (bytes : Bytes) : Except SErr (Bytes × β) := do
  let (rem, seq) ← from_ bytes
  if seq.owned then .error .panic
  else do
    let (_, res) ← op seq.content
    pure (rem, res)

/-- src/asn1_types/sequence.rs:181-196 and 218-233 `parse_ber_and_then` and `parse_der_and_then`
(set.rs:178-193 and 215-230); `parse` is `Any::parse_ber` or `Any::parse_der`. -/
def rawParseAndThen {β : Type} (tag : Nat) (parse : Input → PRes Any)
    (op : Header → Input → PRes β) (input : Input) : PRes β := do
  let (rem, any) ← parse input
  if any.header.tag ≠ tag then nomErr input (.unexpectedTag (some tag) any.header.tag)
  else do
    let (_, res) ← op any.header any.data
    pure (rem, res)

/-- src/asn1_types/sequence.rs:253-262 `parse_into` (set.rs the same). -/
def RawSeq.parseInto {β : Type} (s : RawSeq) (f : Bytes → Except SErr (Bytes × β)) :
    Except SErr (Bytes × β) :=
  if s.owned then .error (.error .lifetimeError) else f s.content

/-- src/asn1_types/sequence.rs:342-351 `into_der_sequence_of_ref` (set.rs `into_der_set_of_ref`). -/
def RawSeq.intoItemsRef (s : RawSeq) (g : Bytes → Except SErr (Bytes × α)) :
    Except SErr (List α) :=
  if s.owned then .error (.error .lifetimeError) else collectItems g s.content

/-- src/asn1_types/sequence.rs:305-340 `into_ber_sequence_of` and `into_der_sequence_of`; `to_static`
does not change the value. -/
def RawSeq.intoItems (s : RawSeq) (g : Bytes → Except SErr (Bytes × α)) :
    Except SErr (List α) := collectItems g s.content

/-- src/asn1_types/sequence.rs:354-362 `to_static`. -/
def RawSeq.toStatic (s : RawSeq) : RawSeq := ⟨s.content, true⟩

/-- The loop of `from_iter_to_der`. -/
def toDerItems (t : ToBer α) : List α → Bytes → Except SerErr Bytes
  | [], v => .ok v
  | x :: xs, v =>
    match t.toVec x with
    | .ok bs => toDerItems t xs (v ++ bs)
    | .error e => .error e

/-- src/asn1_types/sequence.rs:499-512 and set.rs:480-493 `from_iter_to_der`. -/
def fromIterToDer (t : ToBer α) (vs : List α) : Except SerErr RawSeq :=
  match toDerItems t vs [] with
  | .ok v => .ok ⟨v, true⟩
  | .error e => .error e

/-! ### Sequences and sets of generic objects -/

/-- src/asn1_types/sequence/any_sequence.rs:58-92 `BerParser` and `DerParser` of `AnySequence`
(tag 16); src/asn1_types/set/any_set.rs:61-97 before the collection into a `HashSet` (tag 17). -/
def anySeqP (tag : Nat) (parse : Input → PRes Any) : Parser (List Any) where
  acceptTag := tagIs tag
  content h input := do
    h.assertConstructed input
    (AnyIter.new input).tryCollect parse

/-! ### Indefinite length -/

/-- src/to_ber/constructed_indefinite.rs:41-81 `IndefiniteVec` and its `ToBer`. -/
def indefToBer (t : ToBer α) : ToBer (List α) where
  encoder := .constructedIndefinite
  contentLen _ := .indefinite
  tagInfo _ := (.universal, true, 16)
  writeContent vs := do
    let sz ← t.writeItems vs 0
    Wr.writeAll [0, 0]
    pure (sz + 2)

end Asn1

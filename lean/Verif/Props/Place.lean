import Verif.Proofs.Place
/-!
# An error is reported at a place in the input (C113)
-/
namespace Asn1
open Spec

variable {α : Type}

/-- **C113** The input of the error that `parse_ber` or `parse_der` of a built type returns is a part of the input
given, and its span says which. -/
theorem C113_error_place {real : Bool} {pb pd : Parser α} (h : Built real pb pd) {i : Input} (w : WF i)
    (loc : Input) (e : InnerError) :
    (pb.parseBer i = .error (.error loc e) → Inside loc i) ∧
    (pd.parseDer i = .error (.error loc e) → Inside loc i) :=
  ⟨errIn_ber (placed_built h).1 w loc e, errIn_der (placed_built h).2 w loc e⟩

/-- `SEQUENCE OF` with an UTF8String among the integers: the error points at the content of that item. -/
example : Built true (vecBer (uintC 4).ber) (vecDer (uintC 4).der) ∧
    (vecBer (uintC 4).ber).parseBer (Input.fromSlice [0x30, 6, 2, 1, 7, 12, 1, 0x41]) =
      .error (.error ⟨[0x41], 7, 8⟩ (.unexpectedTag none 12)) :=
  ⟨.vec (.universal (.uint 4 (by decide))), by decide +kernel⟩

/-- **C113** An object whose header cannot be read is reported where it starts. -/
theorem C113_header_place (i loc : Input) (e : InnerError) :
    (parseHeader i = .error (.error loc e) → loc = i) ∧
    (parseHeaderDer i = .error (.error loc e) → loc = i) ∧
    ∀ p : Parser α, parseHeader i = .error (.error loc e) → p.parseBer i = .error (.error i e) :=
  ⟨parseHeader_place, parseHeaderDer_place, fun p h => by
    have := parseHeader_place h
    subst this
    exact bind_eq_err.mpr (.inl h)⟩

example : parseHeader ⟨[0x04, 0x80, 0x00], 5, 8⟩ =
    .error (.error ⟨[0x04, 0x80, 0x00], 5, 8⟩ .indefiniteLengthUnexpected) := by decide +kernel

/-- **C113** An object with a tag that the type does not accept is reported where it starts, with its tag,
whatever its content. -/
theorem C113_unexpected_tag (p : Parser α) {i r : Input} {h : Header} (ht : p.acceptTag h.tag = false) :
    (parseHeader i = .ok (r, h) → p.parseBer i = .error (.error i (.unexpectedTag none h.tag))) ∧
    (parseHeaderDer i = .ok (r, h) → p.parseDer i = .error (.error i (.unexpectedTag none h.tag))) := by
  refine ⟨fun hp => bind_eq_err.mpr (.inr ⟨_, hp, ?_⟩), fun hp => bind_eq_err.mpr (.inr ⟨_, hp, ?_⟩)⟩
  · simp only [ht]; rfl
  · cases hl : h.length with
    | definite n => simp only [hl, definiteInner, ht]; rfl
    | indefinite =>
      have := (parseHeaderDer_ok.mp hp).2
      rw [hl] at this
      cases this

example : (uintDer 4).acceptTag 4 = false ∧
    (uintDer 4).parseDer ⟨[4, 1, 0xff], 3, 6⟩ = .error (.error ⟨[4, 1, 0xff], 3, 6⟩ (.unexpectedTag none 4)) := by
  decide +kernel

/-- **C113** Everything an iterator over the objects of an input yields is a part of that input: the error
that ends it, the bytes of each object, and its content. -/
theorem C113_iterator {parse : Input → PRes Any} (hp : parse = anyBer.parseBer ∨ parse = anyDer.parseDer)
    {it it' : AnyIter} (w : WF it.input) {o : Option IterItem} (h : it.next parse = .ok (o, it')) :
    Inside it'.input it.input ∧ (∀ loc e, o = some (.err loc e) → Inside loc it.input) ∧
      (∀ s a, o = some (.obj s a) → Inside s it.input ∧ Inside a.data it.input) := by
  rcases hp with rfl | rfl
  · exact next_place itemParse_ber w h
  · exact next_place itemParse_der w h

example : (AnyIter.new ⟨[2, 1, 7, 12], 2, 6⟩).next anyBer.parseBer =
      .ok (some (.obj ⟨[2, 1, 7], 2, 5⟩ ⟨⟨.universal, false, 2, .definite 1, some [2], some ⟨[2, 1], 2, 4⟩⟩, ⟨[7], 4, 5⟩⟩),
        ⟨⟨[12], 5, 6⟩, false⟩) ∧
    (AnyIter.mk ⟨[12], 5, 6⟩ false).next anyBer.parseBer =
      .ok (some (.err ⟨[12], 5, 6⟩ (.incomplete (.size 1))), ⟨⟨[12], 5, 6⟩, true⟩) := by
  decide +kernel

/-- **C113** The error of `try_parse_collect` (and with it of `Vec`, `SequenceOf`, `SetOf` and the sets) is the one
of the first item that is not accepted: the items before it are. It is at the start of that item if no object can be
read there, and within the content of that item otherwise. -/
theorem C113_first_bad_item {real : Bool} {pb pd p : Parser α} (hb : Built real pb pd) {parse : Input → PRes Any}
    (hp : parse = anyBer.parseBer ∧ p = pb ∨ parse = anyDer.parseDer ∧ p = pd) {i loc : Input} {e : InnerError}
    (w : WF i) (h : (AnyIter.new i).tryParseCollect parse p = .error (.error loc e)) :
    ∃ vs j, ItemsRead parse p i vs j ∧ j.data ≠ [] ∧ Inside j i ∧
      ((∃ n, parse j = .error (.incomplete n) ∧ loc = j ∧ e = .incomplete (.size n)) ∨
       (parse j = .error (.error loc e) ∧ Inside loc j) ∨
       ∃ r a, parse j = .ok (r, a) ∧ Inside loc a.data ∧
        ((p.acceptTag a.header.tag = false ∧ loc = a.data ∧ e = .unexpectedTag none a.header.tag) ∨
         (p.acceptTag a.header.tag = true ∧ p.content a.header a.data = .error (.error loc e)))) := by
  have hitem : ItemParse parse := by
    rcases hp with ⟨rfl, _⟩ | ⟨rfl, _⟩
    · exact itemParse_ber
    · exact itemParse_der
  have hplaced : Placed p := by
    rcases hp with ⟨_, rfl⟩ | ⟨_, rfl⟩
    · exact (placed_built hb).1
    · exact (placed_built hb).2
  exact first_bad hitem hplaced w h

/-- The second item is cut, and the second item has a wrong tag. -/
example : (AnyIter.new ⟨[2, 1, 7, 2, 2, 5], 2, 8⟩).tryParseCollect anyDer.parseDer (uintDer 1) =
      .error (.error ⟨[2, 2, 5], 5, 8⟩ (.incomplete (.size 1))) ∧
    (AnyIter.new ⟨[2, 1, 7, 4, 1, 5], 2, 8⟩).tryParseCollect anyDer.parseDer (uintDer 1) =
      .error (.error ⟨[5], 7, 8⟩ (.unexpectedTag none 4)) ∧
    Built true (uintC 1).ber (uintC 1).der := ⟨by decide +kernel, by decide +kernel, .universal (.uint 1 (by decide))⟩

/-- **C113** Deviation: when the content of an item is incomplete, `SequenceIteratorInput` reports an empty input
at position 0 instead of a place in its input. -/
theorem C113_sequence_iterator_deviation :
    let p := explicitP .contextSpecific 0 (uintBer 1).parseBer
    let i : Input := ⟨[0xa0, 3, 2, 2, 7], 10, 15⟩
    WF i ∧ (∃ it, seqIterInputNext anyBer.parseBer p (AnyIter.new i) =
      .ok (some (.error (⟨[], 0, 0⟩, .incomplete (.size 1))), it)) ∧ ¬ Inside ⟨[], 0, 0⟩ i := by
  refine ⟨rfl, ⟨_, by rfl⟩, ?_⟩
  rintro ⟨a, n, _, _, h, _⟩
  change 0 = 10 + a at h
  omega

end Asn1

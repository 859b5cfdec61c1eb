import Verif.Spec.Form
import Verif.Proofs.Place
import Verif.Props.Tagged
import Verif.Props.Containers
/-!
# An object in the wrong form is refused, and the error says so (C119)
-/
namespace Asn1
open Spec

variable {α : Type}

theorem parse_any_err {m : Rules} {p : Parser α} {i r : Input} {a : Any} {e : PErr} (h : m.any i = .ok (r, a))
    (ht : p.acceptTag a.header.tag = true) (hc : p.content a.header a.data = .error e) :
    m.parse p i = .error e := by
  cases m with
  | ber =>
    obtain ⟨r1, h1, h2⟩ := parseBerAny_ok.mp h
    refine bind_eq_err.mpr (.inr ⟨_, h1, ?_⟩)
    simp only [ht]
    exact bind_eq_err.mpr (.inr ⟨_, h2, bind_eq_err.mpr (.inl hc)⟩)
  | der =>
    obtain ⟨r1, n, h1, h2, h3, h4, h5⟩ := parseDerAny_ok.mp h
    refine bind_eq_err.mpr (.inr ⟨_, parseHeaderDer_ok.mpr ⟨h1, by rw [h2]; rfl⟩, ?_⟩)
    simp only [h2, definiteInner, ht]
    refine bind_eq_err.mpr (.inr ⟨_, rfl, bind_eq_err.mpr (.inr ⟨(after r1 n, first r1 n), ?_,
      bind_eq_err.mpr (.inl (h5 ▸ hc))⟩)⟩)
    rw [takeS_eq, if_pos h3]

theorem assertPrimitive_err {h : Header} (hc : h.constructed = true) (i : Input) :
    h.assertPrimitive i = .error (.error i .constructUnexpected) := by
  simp only [Header.assertPrimitive, hc, nomErr, if_true]

theorem assertConstructed_err {h : Header} (hc : h.constructed = false) (i : Input) :
    h.assertConstructed i = .error (.error i .constructExpected) := by
  simp [Header.assertConstructed, hc, nomErr]

theorem mapped_content_err {β : Type} {p : Parser α} {f : α → β} {h : Header} {i : Input} {e : PErr}
    (hp : p.content h i = .error e) : (p.map f).content h i = .error e := by
  simp only [Parser.map, hp]

theorem primitiveOnly_content {m : Rules} {p : Parser α} {e : InnerError} (hp : PrimitiveOnly m p e) {h : Header}
    (hc : h.constructed = true) (i : Input) : p.content h i = .error (.error i e) := by
  have h0 := assertPrimitive_err hc i
  induction hp with
  | alias _ ih => exact bind_eq_err.mpr (.inl ih)
  | utcTime | generalizedTime | refStr =>
    first
    | (show (if h.constructed = true then _ else _) = _; rw [if_pos hc]; rfl)
  | slice => simp [sliceBer, sliceContent, hc, nomErr]
  | booleanDer => exact bind_eq_err.mpr (.inl (bind_eq_err.mpr (.inl h0)))
  | boolDer => exact mapped_content_err (bind_eq_err.mpr (.inl (bind_eq_err.mpr (.inl h0))))
  | bool | f64 | f32 => exact mapped_content_err (bind_eq_err.mpr (.inl h0))
  | _ => exact bind_eq_err.mpr (.inl h0)

theorem constructedOnly_content {p : Parser α} (hp : ConstructedOnly p) {h : Header}
    (hc : h.constructed = false) (i : Input) : p.content h i = .error (.error i .constructExpected) := by
  have h0 := assertConstructed_err hc i
  induction hp with
  | alias _ ih => exact bind_eq_err.mpr (.inl ih)
  | sequenceOf | array => exact bind_eq_err.mpr (.inl (bind_eq_err.mpr (.inl h0)))
  | setOf | set => exact mapped_content_err (bind_eq_err.mpr (.inl h0))
  | _ => exact bind_eq_err.mpr (.inl h0)

theorem tryFromAny_err {p : Parser α} {a : Any} {loc : Input} {e : InnerError}
    (ht : p.acceptTag a.header.tag = true) (hc : p.content a.header a.data = .error (.error loc e)) :
    tryFromAny p a = .error (.error (Error.ofInner e)) := by
  simp [tryFromAny, ht, hc, SErr.fromNomBerr]

/-- **C119** A type whose values are primitive refuses every constructed object that has its tag, whatever the
content. The error says that a primitive object was expected (or that the form is not supported), and points at
the content. -/
theorem C119_constructed_refused {m : Rules} {p : Parser α} {e : InnerError} (hp : PrimitiveOnly m p e)
    {i r : Input} {a : Any} (h : m.any i = .ok (r, a)) (ht : p.acceptTag a.header.tag = true)
    (hc : a.header.constructed = true) :
    m.parse p i = .error (.error a.data e) ∧ tryFromAny p a = .error (.error (Error.ofInner e)) :=
  ⟨parse_any_err h ht (primitiveOnly_content hp hc _), tryFromAny_err ht (primitiveOnly_content hp hc _)⟩

/-- BOOLEAN, constructed, with a content that would be TRUE. -/
example : PrimitiveOnly .ber boolBer .constructUnexpected ∧
    Rules.ber.parse boolBer (Input.fromSlice [0x21, 1, 0xff]) =
      .error (.error ⟨[0xff], 2, 3⟩ .constructUnexpected) ∧
    (Rules.ber.parse boolBer (Input.fromSlice [0x01, 1, 0xff])).isOk = true :=
  ⟨.bool, by decide +kernel, by decide +kernel⟩

/-- An OCTET STRING in two segments is an `OctetString`, not a `&[u8]`, and in DER neither. -/
example : PrimitiveOnly .ber sliceBer .lifetimeError ∧ PrimitiveOnly .der octetDer .constructUnexpected ∧
    Rules.ber.parse sliceBer (Input.fromSlice [0x24, 6, 4, 1, 7, 4, 1, 8]) =
      .error (.error ⟨[4, 1, 7, 4, 1, 8], 2, 8⟩ .lifetimeError) ∧
    Rules.der.parse octetDer (Input.fromSlice [0x24, 6, 4, 1, 7, 4, 1, 8]) =
      .error (.error ⟨[4, 1, 7, 4, 1, 8], 2, 8⟩ .constructUnexpected) ∧
    Rules.ber.parse octetBer (Input.fromSlice [0x24, 6, 4, 1, 7, 4, 1, 8]) = .ok (⟨[], 8, 8⟩, [7, 8]) :=
  ⟨.slice, .octetString, by decide +kernel, by decide +kernel, by decide +kernel⟩

/-- **C119** In DER the integers refuse every constructed object too. The minimality of the content is
looked at first: the error says that a primitive object was expected exactly if the content is minimal. -/
theorem C119_integer_der {m : Rules} (N : Nat) {i r : Input} {a : Any} (h : m.any i = .ok (r, a)) (hm : m = .der)
    (ht : a.header.tag = 2) (hc : a.header.constructed = true) :
    ∃ e, Rules.der.parse (uintDer N) i = .error (.error a.data e) ∧
      Rules.der.parse (intDer N) i = .error (.error a.data e) ∧
      Rules.der.parse integerDer i = .error (.error a.data e) ∧
      (MinimalInt a.data.data → e = .constructUnexpected) ∧
      (¬ MinimalInt a.data.data → ∃ c, e = .derConstraintFailed c) := by
  subst hm
  have ht' : tagIs tagInteger a.header.tag = true := by rw [ht]; rfl
  have h0 := assertPrimitive_err hc a.data
  rw [← checkDerIntBytes_ok]
  cases hk : checkDerIntBytes a.data.data with
  | ok u =>
    have hk' : checkDerIntInput a.data = .ok () := by simp only [checkDerIntInput, hk]
    refine ⟨.constructUnexpected, parse_any_err h ht' ?_, parse_any_err h ht' ?_, parse_any_err h ht' ?_,
      fun _ => rfl, fun hn => absurd rfl hn⟩ <;>
    exact bind_eq_err.mpr (.inr ⟨_, hk', bind_eq_err.mpr (.inl h0)⟩)
  | error c =>
    have hk' : checkDerIntInput a.data = .error (.error a.data (.derConstraintFailed c)) := by
      simp only [checkDerIntInput, hk, nomErr]
    refine ⟨.derConstraintFailed c, parse_any_err h ht' ?_, parse_any_err h ht' ?_, parse_any_err h ht' ?_,
      fun hn => (nomatch hn), fun _ => ⟨c, rfl⟩⟩ <;>
    exact bind_eq_err.mpr (.inl hk')

example : Rules.der.parse (uintDer 4) (Input.fromSlice [0x22, 2, 1, 0]) =
      .error (.error ⟨[1, 0], 2, 4⟩ .constructUnexpected) ∧
    Rules.der.parse (uintDer 4) (Input.fromSlice [0x22, 2, 0, 1]) =
      .error (.error ⟨[0, 1], 2, 4⟩ (.derConstraintFailed .integerLeadingZeroes)) := by decide +kernel

/-- **C119** A type whose values are constructed refuses every primitive object that has its tag, whatever the
content, even an empty one. Missing: tuples and EMBEDDED PDV, which accept one (`C119_deviations`). -/
theorem C119_primitive_refused_partial {m : Rules} {p : Parser α} (hp : ConstructedOnly p) {i r : Input} {a : Any}
    (h : m.any i = .ok (r, a)) (ht : p.acceptTag a.header.tag = true) (hc : a.header.constructed = false) :
    m.parse p i = .error (.error a.data .constructExpected) ∧
      tryFromAny p a = .error (.error .constructExpected) :=
  ⟨parse_any_err h ht (constructedOnly_content hp hc _), tryFromAny_err ht (constructedOnly_content hp hc _)⟩

example : ConstructedOnly (vecDer (uintDer 4)) ∧
    Rules.der.parse (vecDer (uintDer 4)) (Input.fromSlice [0x10, 3, 2, 1, 7]) =
      .error (.error ⟨[2, 1, 7], 2, 5⟩ .constructExpected) ∧
    Rules.der.parse (vecDer (uintDer 4)) (Input.fromSlice [0x10, 0]) =
      .error (.error ⟨[], 2, 2⟩ .constructExpected) ∧
    Rules.der.parse (vecDer (uintDer 4)) (Input.fromSlice [0x30, 3, 2, 1, 7]) = .ok (⟨[], 5, 5⟩, [7]) :=
  ⟨.vec .., by decide +kernel, by decide +kernel, by decide +kernel⟩

/-- An EXPLICIT tag over an integer, with the tag of an IMPLICIT one. -/
example : ConstructedOnly (explicitP .contextSpecific 0 (uintDer 4).parseDer) ∧
    (Rules.der.parse (explicitP .contextSpecific 0 (uintDer 4).parseDer) (Input.fromSlice [0x80, 1, 7])) =
      .error (.error ⟨[7], 2, 3⟩ .constructExpected) :=
  ⟨.explicit .., by decide +kernel⟩

/-- **C119** An IMPLICIT tag keeps the form of the type under it: an object with the tag and the class is refused
in the form in which the type is refused, with the same error; one with another class is refused for its
class. -/
theorem C119_implicit {m : Rules} {p : Parser α} {cls : Class} {n : Nat} {i r : Input} {a : Any}
    (h : m.any i = .ok (r, a)) (ht : a.header.tag = n) :
    (a.header.cls ≠ cls → m.parse (implicitP cls n p) i =
      .error (.error a.data (.unexpectedClass (some cls) a.header.cls))) ∧
    (a.header.cls = cls → ∀ e, PrimitiveOnly m p e → a.header.constructed = true →
      m.parse (implicitP cls n p) i = .error (.error a.data e)) ∧
    (a.header.cls = cls → ConstructedOnly p → a.header.constructed = false →
      m.parse (implicitP cls n p) i = .error (.error a.data .constructExpected)) := by
  have ht' : (implicitP cls n p).acceptTag a.header.tag = true := by simp [implicitP, tagIs, ht]
  refine ⟨fun hn => parse_any_err h ht' ?_, fun hn e hp hc => parse_any_err h ht' ?_,
    fun hn hp hc => parse_any_err h ht' ?_⟩
  · show (if a.header.cls ≠ cls then _ else _) = _
    rw [if_pos hn]; rfl
  · show (if a.header.cls ≠ cls then _ else _) = _
    rw [if_neg (fun k => k hn)]
    exact bind_eq_err.mpr (.inl (primitiveOnly_content hp hc _))
  · show (if a.header.cls ≠ cls then _ else _) = _
    rw [if_neg (fun k => k hn)]
    exact bind_eq_err.mpr (.inl (constructedOnly_content hp hc _))

example : Rules.ber.parse (implicitP .contextSpecific 1 boolBer) (Input.fromSlice [0xa1, 1, 0xff]) =
      .error (.error ⟨[0xff], 2, 3⟩ .constructUnexpected) ∧
    Rules.ber.parse (implicitP .contextSpecific 1 boolBer) (Input.fromSlice [0x01, 1, 0xff]) =
      .error (.error ⟨[0xff], 2, 3⟩ (.unexpectedClass (some .contextSpecific) .universal)) ∧
    Rules.ber.parse (implicitP .contextSpecific 1 (vecBer boolBer)) (Input.fromSlice [0x81, 0]) =
      .error (.error ⟨[], 2, 2⟩ .constructExpected) := by decide +kernel

/-! ### The byte-slice API -/

theorem assertConstructedS_err {h : Header} (hc : h.constructed = false) :
    assertConstructedS h = .error (.error .constructExpected) := by simp [assertConstructedS, hc]

theorem assertPrimitiveS_err {h : Header} (hc : h.constructed = true) :
    assertPrimitiveS h = .error (.error .constructUnexpected) := by simp [assertPrimitiveS, hc]

theorem assertTagS_err {h : Header} {t : Nat} (ht : h.tag ≠ t) :
    assertTagS h t = .error (.error (.unexpectedTag (some t) h.tag)) := by
  simp [assertTagS, tagAssertEq, ht]

/-- **C119** The conversions from `Any`, the DER readers and the DER checks of the containers refuse a primitive
object, with `ConstructExpected`, whatever the item type does; an object with another tag is refused for its
tag, whichever its form. -/
theorem C119_containers {σ : Type} {t : Nat} {a : Any} (g : Bytes → Except SErr (Bytes × α)) (S : SetImpl α σ)
    (cls : Class) (check : Any → Except SErr Unit) :
    (a.header.tag = t → a.header.constructed = false →
      seqTryFrom t g a = .error (.error .constructExpected) ∧
      (t = 17 → setTryFrom S g a = .error (.error .constructExpected)) ∧
      rawTryFrom t a = .error (.error .constructExpected) ∧
      explicitTryFrom cls t g a = .error (.error .constructExpected) ∧
      seqCheck t check a = .error (.error .constructExpected)) ∧
    (a.header.tag ≠ t →
      seqTryFrom t g a = .error (.error (.unexpectedTag (some t) a.header.tag)) ∧
      (t = 17 → setTryFrom S g a = .error (.error (.unexpectedTag (some t) a.header.tag))) ∧
      rawTryFrom t a = .error (.error (.unexpectedTag (some t) a.header.tag)) ∧
      explicitTryFrom cls t g a = .error (.error (.unexpectedTag (some t) a.header.tag)) ∧
      seqCheck t check a = .error (.error (.unexpectedTag (some t) a.header.tag))) := by
  constructor
  · intro ht hc
    have h1 : assertTagS a.header t = .ok () := assertTagS_ok.mpr ht
    have h2 := assertConstructedS_err hc
    have key : ∀ {β : Type} (k : Except SErr β),
        (do assertTagS a.header t; assertConstructedS a.header; k) = .error (.error .constructExpected) := by
      intro β k; rw [h1, h2]; rfl
    exact ⟨key _, fun h17 => by subst h17; exact key _, key _, key _, key _⟩
  · intro ht
    have h1 := assertTagS_err ht
    have key : ∀ {β : Type} (k : Except SErr β),
        (do assertTagS a.header t; k) = .error (.error (.unexpectedTag (some t) a.header.tag)) := by
      intro β k; rw [h1]; rfl
    exact ⟨key _, fun h17 => by subst h17; exact key _, key _, key _, key _⟩

/-- SEQUENCE OF in primitive form, SET in the place of SEQUENCE. -/
example : seqTryFrom 16 (fromBer (uintBer 4)) ⟨⟨.universal, false, 16, .definite 3, none, none⟩, ⟨[2, 1, 7], 2, 5⟩⟩ =
      .error (.error .constructExpected) ∧
    seqTryFrom 16 (fromBer (uintBer 4)) ⟨⟨.universal, true, 17, .definite 3, none, none⟩, ⟨[2, 1, 7], 2, 5⟩⟩ =
      .error (.error (.unexpectedTag (some 16) 17)) ∧
    seqTryFrom 16 (fromBer (uintBer 4)) ⟨⟨.universal, true, 16, .definite 3, none, none⟩, ⟨[2, 1, 7], 2, 5⟩⟩ =
      .ok [7] := by decide +kernel

/-- **C119** `from_der` of the sets, of `Sequence` and `Set` and of an EXPLICIT tag says so too. -/
theorem C119_from_der {σ : Type} {t : Nat} {bytes rem : Bytes} {a : Any}
    (h : wrapBerParser parseDerAny bytes = .ok (rem, a)) (g : Bytes → Except SErr (Bytes × α)) (S : SetImpl α σ)
    (cls : Class) (ht : a.header.tag = t) (hc : a.header.constructed = false) :
    rawFromDer t bytes = .error (.error .constructExpected) ∧
      explicitFromDer cls t g bytes = .error (.error .constructExpected) ∧
      (t = 17 → setFromDer S g bytes = .error (.error .constructExpected)) := by
  have h1 : assertTagS a.header t = .ok () := assertTagS_ok.mpr ht
  have h2 := assertConstructedS_err hc
  refine ⟨?_, ?_, ?_⟩
  · simp [rawFromDer, rawTryFrom, h, h1, h2, Bind.bind, Except.bind]
  · simp [explicitFromDer, h, h1, h2, Bind.bind, Except.bind]
  · rintro rfl
    simp [setFromDer, h, h1, h2, Bind.bind, Except.bind]

example : rawFromDer 16 [0x10, 3, 2, 1, 7] = .error (.error .constructExpected) ∧
    rawFromDer 16 [0x30, 3, 2, 1, 7] = .ok ([], ⟨[2, 1, 7], false⟩) ∧
    explicitFromDer .contextSpecific 0 (fromDer (uintBer 4) checkDerInt) [0x80, 3, 2, 1, 7] =
      .error (.error .constructExpected) := by decide +kernel

/-- **C119** The DER checks of the types whose values are primitive refuse a constructed object. -/
theorem C119_checks {a : Any} (hc : a.header.constructed = true) :
    checkDerInt a = .error (.error .constructUnexpected) ∧
    octetCheck a = .error (.error .constructUnexpected) ∧
    strCheck a = .error (.error .constructUnexpected) ∧
    bitCheck a = .error (.error .constructUnexpected) ∧
    oidCheck a = .error (.error .constructUnexpected) ∧
    realCheck a = .error (.error .constructUnexpected) := by
  have h := assertPrimitiveS_err hc
  simp [checkDerInt, octetCheck, strCheck, bitCheck, oidCheck, realCheck, h, Bind.bind, Except.bind]

/-- So `from_der` of these types refuses it, though `from_ber` may take it. -/
example : fromDer octetBer octetCheck [0x24, 6, 4, 1, 7, 4, 1, 8] = .error (.error .constructUnexpected) ∧
    fromBer octetBer [0x24, 6, 4, 1, 7, 4, 1, 8] = .ok ([], [7, 8]) := by decide +kernel

/-- **C119** `from_ber_relative` refuses a constructed object for its form, and then one with another tag for
its tag; `from_der_relative` looks at the tag first. -/
theorem C119_relative_oid {bytes rem : Bytes} {a : Any} :
    (wrapBerParser parseBerAny bytes = .ok (rem, a) →
      (a.header.constructed = true → Oid.fromBerRelative bytes = .error (.error .constructUnexpected)) ∧
      (a.header.constructed = false → a.header.tag ≠ 13 →
        Oid.fromBerRelative bytes = .error (.error (.unexpectedTag (some 13) a.header.tag)))) ∧
    (wrapBerParser parseDerAny bytes = .ok (rem, a) →
      (a.header.tag ≠ 13 →
        Oid.fromDerRelative bytes = .error (.error (.unexpectedTag (some 13) a.header.tag))) ∧
      (a.header.tag = 13 → a.header.constructed = true →
        Oid.fromDerRelative bytes = .error (.error .constructUnexpected))) := by
  refine ⟨fun h => ⟨fun hc => ?_, fun hc ht => ?_⟩, fun h => ⟨fun ht => ?_, fun ht hc => ?_⟩⟩
  · simp [Oid.fromBerRelative, h, assertPrimitiveS_err hc, Bind.bind, Except.bind]
  · have := assertTagS_err ht
    simp [Oid.fromBerRelative, h, assertPrimitiveS, hc, tagRelativeOid, this, Bind.bind, Except.bind]
  · have := assertTagS_err ht
    simp [Oid.fromDerRelative, h, tagRelativeOid, this, Bind.bind, Except.bind]
  · have h1 : assertTagS a.header 13 = .ok () := assertTagS_ok.mpr ht
    simp [Oid.fromDerRelative, h, oidCheck, assertPrimitiveS_err hc, tagRelativeOid, h1, Bind.bind, Except.bind]

example : Oid.fromBerRelative [0x2d, 1, 5] = .error (.error .constructUnexpected) ∧
    Oid.fromDerRelative [0x06, 1, 5] = .error (.error (.unexpectedTag (some 13) 6)) ∧
    Oid.fromDerRelative [0x0d, 1, 5] = .ok ([], ⟨[5], true⟩) := by decide +kernel

/-- **C119** The exceptions. A tuple reads a SEQUENCE in primitive form, and so do `from_der` of `Vec<T>`,
`SequenceOf<T>` and `SetOf<T>`; EMBEDDED PDV is read in primitive form; BMPString and UniversalString take the
octets of a constructed object as text, with its headers. -/
theorem C119_deviations :
    (∀ {Ts : List Type} (fs : TupFns Ts) (h h' : Header) (i : Input),
      (tupleP fs).content h i = (tupleP fs).content h' i) ∧
    (∀ h h' : Header, ∀ i : Input, pdvP.content h i = pdvP.content h' i) ∧
    seqFromDer 16 (fromDer (uintBer 4) checkDerInt) [0x10, 3, 2, 1, 7] = .ok ([], [7]) ∧
    bmpBer.parseBer (Input.fromSlice [0x3e, 4, 0x1e, 2, 0, 0x41]) =
      .ok (⟨[], 6, 6⟩, [Char.ofNat 0x1e02, 'A']) :=
  ⟨fun _ _ _ _ => rfl, fun _ _ _ => rfl, by decide +kernel, by decide +kernel⟩

end Asn1

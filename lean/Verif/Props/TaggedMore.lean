import Verif.Props.Tagged
import Verif.Proofs.Tolerant
/-!
# More on tagged values: trailing bytes, agreement of the APIs, panics, failing writers, run-time
tagged parsers, optional tagged values (C11, C36, C38, C50, C61, C62, C63)
-/
namespace Asn1
open Spec Wr

variable {α : Type}

theorem notOk {ε β : Type} {x : Except ε β} (hx : ∀ y, x ≠ .ok y) : x.isOk = false := by
  cases x with
  | error e => rfl
  | ok y => exact absurd rfl (hx y)

/-! ### Bytes after the inner value -/

/-- An object of any class and number, constructed, with the given bytes as content. -/
def wrapper (cls : Class) (tag : Nat) : ToBer (TaggedValue Bytes) :=
  implicitToBer cls tag (fun _ => true) octetToBer

/-- **C62** Bytes that follow the inner value inside an EXPLICIT wrapper are skipped: the decoders
return the same value, and what follows the wrapper. -/
theorem C62_explicit_trailing (cls : Class) (tag : Nat) (htag : tag < 2 ^ 32) (t : ToBer α)
    (v w : α) (bs : Bytes) (hbs : t.toVec v = .ok bs) (junk : Bytes)
    (hs : (bs ++ junk).length < 2 ^ 64) :
    (∀ f : Input → PRes α, InputBack t f v w →
      InputBack (wrapper cls tag) (explicitP cls tag f).parseBer ⟨bs ++ junk⟩ ⟨w⟩ ∧
      InputBack (wrapper cls tag) (explicitP cls tag f).parseDer ⟨bs ++ junk⟩ ⟨w⟩) ∧
    (∀ g : Bytes → Except SErr (Bytes × α), BytesBack t g v w →
      BytesBack (wrapper cls tag) (fromBerWith (explicitTryFrom cls tag g)) ⟨bs ++ junk⟩ ⟨w⟩ ∧
      BytesBack (wrapper cls tag) (explicitFromDer cls tag g) ⟨bs ++ junk⟩ ⟨w⟩) := by
  have he : Encodes (wrapper cls tag) ⟨bs ++ junk⟩ (bs ++ junk) :=
    implicit_encodes cls htag (fun _ => true) (octet_encodes _).content (octet_encodes _).len
  refine ⟨fun f hf => ?_, fun g hg => ?_⟩
  · obtain ⟨bs', h5, h6⟩ := hf
    rw [hbs] at h5; injection h5 with h5; subst h5
    have := he.back (p := explicitP cls tag f) (w := ⟨w⟩) hs (tagIs_iff.mpr rfl)
      fun a g1 g2 g3 g4 g5 => ⟨_, explicitP_content.mpr ⟨g2, g1, g3, h6 junk a.data g5⟩⟩
    exact ⟨this.1, this.2.1⟩
  · obtain ⟨bs', h5, h6⟩ := hg
    rw [hbs] at h5; injection h5 with h5; subst h5
    refine ⟨⟨_, he.toVec hs, fun rest => ?_⟩, ⟨_, he.toVec hs, fun rest => ?_⟩⟩
    · obtain ⟨a, g1, g2, g3, g4, g5, g6, g7⟩ := he.any hs
        (i := Input.fromSlice ((wrapper cls tag).fullOf ⟨bs ++ junk⟩ (bs ++ junk) ++ rest)) rfl
      exact fromBerWith_ok.mpr ⟨_, a, g1, by simp [Input.fromSlice],
        explicitTryFrom_ok.mpr ⟨g5, g4, g3, junk, g7 ▸ h6 junk⟩⟩
    · obtain ⟨a, g1, g2, g3, g4, g5, g6, g7⟩ := he.any hs
        (i := Input.fromSlice ((wrapper cls tag).fullOf ⟨bs ++ junk⟩ (bs ++ junk) ++ rest)) rfl
      exact explicitFromDer_ok.mpr ⟨_, a, _, g2, by simp [Input.fromSlice],
        g5, g4, g3, g7 ▸ h6 junk⟩

/-- A case: `[2] EXPLICIT INTEGER` 5 followed by two bytes inside the wrapper. -/
example : (wrapper .contextSpecific 2).toVec ⟨[0x02, 0x01, 0x05] ++ [0xde, 0xad]⟩ =
      .ok [0xa2, 0x05, 0x02, 0x01, 0x05, 0xde, 0xad] ∧
    explicitFromDer .contextSpecific 2 (fromDer (uintBer 1) checkDerInt)
      [0xa2, 0x05, 0x02, 0x01, 0x05, 0xde, 0xad] = .ok ([], ⟨5⟩) := by decide +kernel

/-! ### Agreement of the decoders -/

/-- **C38** EXPLICIT types: if `parse_ber` and `from_ber` (or `parse_der` and `from_der`) of the
inner type return the same values on all bytes, wherever they stand, then so do those of the
EXPLICIT type. -/
theorem C38_explicit_apis_agree (cls : Class) (tag : Nat) (f : Input → PRes α)
    (g : Bytes → Except SErr (Bytes × α))
    (h : ∀ i v, (∃ r, f i = .ok (r, v)) ↔ ∃ rem, g i.data = .ok (rem, v))
    (bs rem : Bytes) (v : TaggedValue α) :
    (fromBerWith (explicitTryFrom cls tag g) bs = .ok (rem, v) ↔
      ∃ r, (explicitP cls tag f).parseBer (Input.fromSlice bs) = .ok (r, v) ∧ r.data = rem) ∧
    (explicitFromDer cls tag g bs = .ok (rem, v) ↔
      ∃ r, (explicitP cls tag f).parseDer (Input.fromSlice bs) = .ok (r, v) ∧ r.data = rem) := by
  constructor
  · rw [((C28_explicit_accepts cls tag).2 g bs rem v).1]
    constructor
    · rintro ⟨r, a, x, h1, h2, h3, h4, h5, h6⟩
      obtain ⟨y, hy⟩ := (h a.data v.inner).mpr ⟨x, h6⟩
      exact ⟨r, ((C28_explicit_accepts cls tag).1 f _ r v).1.mpr ⟨a, y, h1, h3, h4, h5, hy⟩, h2⟩
    · rintro ⟨r, h1, h2⟩
      obtain ⟨a, x, h1, h3, h4, h5, h6⟩ := ((C28_explicit_accepts cls tag).1 f _ r v).1.mp h1
      obtain ⟨y, hy⟩ := (h a.data v.inner).mp ⟨x, h6⟩
      exact ⟨r, a, y, h1, h2, h3, h4, h5, hy⟩
  · rw [((C28_explicit_accepts cls tag).2 g bs rem v).2]
    constructor
    · rintro ⟨r, a, x, h1, h2, h3, h4, h5, h6⟩
      obtain ⟨y, hy⟩ := (h a.data v.inner).mpr ⟨x, h6⟩
      exact ⟨r, ((C28_explicit_accepts cls tag).1 f _ r v).2.mpr ⟨a, y, h1, h3, h4, h5, hy⟩, h2⟩
    · rintro ⟨r, h1, h2⟩
      obtain ⟨a, x, h1, h3, h4, h5, h6⟩ := ((C28_explicit_accepts cls tag).1 f _ r v).2.mp h1
      obtain ⟨y, hy⟩ := (h a.data v.inner).mp ⟨x, h6⟩
      exact ⟨r, a, y, h1, h2, h3, h4, h5, hy⟩

/-- A case: an EXPLICIT tag around a `u16`. -/
example : fromBerWith (explicitTryFrom .contextSpecific 1 (fromBer (uintBer 2))) [0xa1, 4, 2, 2, 1, 0x2c, 9] =
      .ok ([9], ⟨300⟩) ∧
    (explicitP .contextSpecific 1 (uintBer 2).parseBer).parseBer (Input.fromSlice [0xa1, 4, 2, 2, 1, 0x2c, 9]) =
      .ok (⟨[9], 6, 7⟩, ⟨300⟩) := by decide +kernel

/-- **C38** IMPLICIT types: `from_ber` and `parse_ber` return the same values if the content parser
of the inner type accepts its own tag and does not look at the tag otherwise. `from_der`, in
contrast, applies the BER rules of the inner type to the content: it returns what `parse_ber`
returns, for the objects with definite minimal headers.
Missing: the DER rules of the inner type, which `from_der` does not apply (`C38_implicit_deviation`). -/
theorem C38_implicit_apis_partial (cls : Class) (tag innerTag : Nat) (p : Parser α)
    (hacc : p.acceptTag innerTag = true)
    (htag : ∀ h i t, p.content { h with tag := t } i = p.content h i)
    (bs rem : Bytes) (v : TaggedValue α) :
    (fromBerWith (implicitTryFrom cls tag innerTag (tryFromAny p)) bs = .ok (rem, v) ↔
      ∃ r, (implicitP cls tag p).parseBer (Input.fromSlice bs) = .ok (r, v) ∧ r.data = rem) ∧
    (implicitFromDer cls tag innerTag (tryFromAny p) bs = .ok (rem, v) ↔
      ∃ r, (implicitP cls tag p).parseDer (Input.fromSlice bs) = .ok (r, v) ∧ r.data = rem) := by
  constructor
  · rw [((C29_implicit_accepts cls tag innerTag).2 _ bs rem v).1]
    constructor
    · rintro ⟨r, a, h1, h2, h3, h4, h5⟩
      obtain ⟨_, x, hx⟩ := tryFromAny_ok.mp h5
      rw [htag] at hx
      exact ⟨r, ((C29_implicit_accepts cls tag 0).1 p _ r v).1.mpr ⟨a, x, h1, h3, h4, hx⟩, h2⟩
    · rintro ⟨r, h1, h2⟩
      obtain ⟨a, x, h1, h3, h4, h6⟩ := ((C29_implicit_accepts cls tag 0).1 p _ r v).1.mp h1
      exact ⟨r, a, h1, h2, h3, h4, tryFromAny_ok.mpr ⟨hacc, x, by rw [htag]; exact h6⟩⟩
  · rw [((C29_implicit_accepts cls tag innerTag).2 _ bs rem v).2]
    constructor
    · rintro ⟨r, a, h1, h2, h3, h4, h5⟩
      obtain ⟨_, x, hx⟩ := tryFromAny_ok.mp h5
      rw [htag] at hx
      exact ⟨r, ((C29_implicit_accepts cls tag 0).1 p _ r v).2.mpr ⟨a, x, h1, h3, h4, hx⟩, h2⟩
    · rintro ⟨r, h1, h2⟩
      obtain ⟨a, x, h1, h3, h4, h6⟩ := ((C29_implicit_accepts cls tag 0).1 p _ r v).2.mp h1
      exact ⟨r, a, h1, h2, h3, h4, tryFromAny_ok.mpr ⟨hacc, x, by rw [htag]; exact h6⟩⟩

/-- The hypotheses hold for `bool` and the machine integers. -/
example : (boolBer.acceptTag 1 = true ∧
      ∀ h i t, boolBer.content { h with tag := t } i = boolBer.content h i) ∧
    ((uintBer 4).acceptTag 2 = true ∧
      ∀ h i t, (uintBer 4).content { h with tag := t } i = (uintBer 4).content h i) :=
  ⟨⟨rfl, fun _ _ _ => rfl⟩, ⟨rfl, fun _ _ _ => rfl⟩⟩

/-- **C38** Deviation: `from_der` of an IMPLICIT type accepts contents that are not DER, which
`parse_der` of the same type and `from_der` of the inner type refuse: BOOLEAN 01, INTEGER 00 05. -/
theorem C38_implicit_deviation :
    (implicitFromDer .contextSpecific 0 1 (tryFromAny boolBer) [0x80, 0x01, 0x01] = .ok ([], ⟨true⟩) ∧
      ((implicitP .contextSpecific 0 boolDer).parseDer
        (Input.fromSlice [0x80, 0x01, 0x01])).isOk = false ∧
      (fromDer boolBer booleanCheck [0x01, 0x01, 0x01]).isOk = false) ∧
    (implicitFromDer .contextSpecific 0 2 (tryFromAny (uintBer 1)) [0x80, 0x02, 0x00, 0x05] =
        .ok ([], ⟨5⟩) ∧
      ((implicitP .contextSpecific 0 (uintDer 1)).parseDer
        (Input.fromSlice [0x80, 0x02, 0x00, 0x05])).isOk = false ∧
      (fromDer (uintBer 1) checkDerInt [0x02, 0x02, 0x00, 0x05]).isOk = false) := by
  decide +kernel

/-- **C11** EXPLICIT and IMPLICIT types: what DER accepts, BER accepts with the same result, if
this holds of the inner type (of its content parsers, for IMPLICIT). -/
theorem C11_der_subset_ber_tagged (cls : Class) (tag : Nat) :
    (∀ fb fd : Input → PRes α, (∀ i r v, fd i = .ok (r, v) → fb i = .ok (r, v)) →
      ∀ i r v, (explicitP cls tag fd).parseDer i = .ok (r, v) →
        (explicitP cls tag fb).parseBer i = .ok (r, v)) ∧
    (∀ pb pd : Parser α, (∀ h i r v, h.length = .definite i.data.length →
        pd.content h i = .ok (r, v) → ∃ r', pb.content h i = .ok (r', v)) →
      ∀ i r v, (implicitP cls tag pd).parseDer i = .ok (r, v) →
        (implicitP cls tag pb).parseBer i = .ok (r, v)) := by
  refine ⟨fun fb fd hf i r v h => ?_, fun pb pd hp i r v h => ?_⟩
  · obtain ⟨a, x, h1, h2, h3, h4, h5⟩ := ((C28_explicit_accepts cls tag).1 fd i r v).2.mp h
    exact ((C28_explicit_accepts cls tag).1 fb i r v).1.mpr
      ⟨a, x, C11_der_subset_ber_any _ _ _ h1, h2, h3, h4, hf _ _ _ h5⟩
  · obtain ⟨a, x, h1, h2, h3, h4⟩ := ((C29_implicit_accepts cls tag 0).1 pd i r v).2.mp h
    obtain ⟨x', h5⟩ := hp _ _ _ _ (derAny_definite h1) h4
    exact ((C29_implicit_accepts cls tag 0).1 pb i r v).1.mpr
      ⟨a, x', C11_der_subset_ber_any _ _ _ h1, h2, h3, h5⟩

/-! ### Panics, failing writers -/

theorem noPanic_assertConstructed (h : Header) (i : Input) : NoPanic (h.assertConstructed i) := by
  unfold Header.assertConstructed nomErr NoPanic; cases h.constructed <;> simp

theorem safe_explicit {cls : Class} {tag : Nat} {f : Input → PRes α} (hf : ∀ i, NoPanic (f i)) :
    (explicitP cls tag f).Safe := by
  intro h i
  refine NoPanic.bind (noPanic_assertConstructed h i) fun _ _ => ?_
  split
  · exact noPanic_nomErr _ _
  · split
    · exact noPanic_nomErr _ _
    · exact NoPanic.bind (hf i) fun _ _ => noPanic_ok _

theorem safe_implicit {cls : Class} {tag : Nat} {p : Parser α} (hp : p.Safe) :
    (implicitP cls tag p).Safe := by
  intro h i
  show NoPanic (if _ then _ else _)
  split
  · exact noPanic_nomErr _ _
  · exact NoPanic.bind (hp h i) fun _ _ => noPanic_ok _

theorem NoPanicS.bind {β γ : Type} {x : Except SErr β} {f : β → Except SErr γ} (h1 : NoPanicS x)
    (h2 : ∀ a, NoPanicS (f a)) : NoPanicS (x >>= f) :=
  ⟨bind_notS h1.1 fun a _ => (h2 a).1, bind_notS h1.2 fun a _ => (h2 a).2⟩

theorem noPanicS_ok {β : Type} (x : β) : NoPanicS (.ok x : Except SErr β) := by simp [NoPanicS]
theorem noPanicS_error {β : Type} (e : Error) : NoPanicS (.error (.error e) : Except SErr β) := by
  simp [NoPanicS]

theorem noPanicS_assertTag (h : Header) (t : Nat) : NoPanicS (assertTagS h t) := by
  unfold assertTagS tagAssertEq NoPanicS; by_cases hh : h.tag = t <;> simp [hh]
theorem noPanicS_assertClass (h : Header) (c : Class) : NoPanicS (assertClassS h c) := by
  unfold assertClassS Class.assertEq NoPanicS; by_cases hh : h.cls = c <;> simp [hh]
theorem noPanicS_assertConstructed (h : Header) : NoPanicS (assertConstructedS h) := by
  unfold assertConstructedS NoPanicS; cases h.constructed <;> simp
theorem noPanicS_assertDefinite (l : Length) : NoPanicS (assertDefiniteS l) := by
  unfold assertDefiniteS NoPanicS; cases l.isDefinite <;> simp

theorem noPanicS_wrapBer (bs : Bytes) : NoPanicS (wrapBerParser parseBerAny bs) := by
  refine safe_wrap ?_ bs
  exact fun i => ⟨good_parseBerAny.noPanic i, good_parseBerAny.noDiverge i⟩

theorem noPanicS_wrapDer (bs : Bytes) : NoPanicS (wrapBerParser parseDerAny bs) := by
  refine safe_wrap ?_ bs
  exact fun i => ⟨good_parseDerAny.noPanic i, good_parseDerAny.noDiverge i⟩

theorem noPanicS_explicitTryFrom {cls : Class} {tag : Nat} {g : Bytes → Except SErr (Bytes × α)}
    (hg : ∀ bs, NoPanicS (g bs)) (a : Any) : NoPanicS (explicitTryFrom cls tag g a) := by
  unfold explicitTryFrom
  refine NoPanicS.bind (noPanicS_assertTag _ _) fun _ => NoPanicS.bind
    (noPanicS_assertConstructed _) fun _ => ?_
  split
  · exact noPanicS_error _
  · have := hg a.data.data
    cases hh : g a.data.data with
    | ok x => exact noPanicS_ok _
    | error e =>
      rw [hh] at this
      cases e <;> simp [SErr.flatten, NoPanicS] at this ⊢

theorem noPanicS_implicitTryFrom {cls : Class} {tag it : Nat} {f : Any → Except SErr α}
    (hf : ∀ a, NoPanicS (f a)) (a : Any) : NoPanicS (implicitTryFrom cls tag it f a) := by
  unfold implicitTryFrom
  refine NoPanicS.bind (noPanicS_assertTag _ _) fun _ => ?_
  split
  · exact noPanicS_error _
  · exact NoPanicS.bind (hf _) fun _ => noPanicS_ok _

/-- **C61** Tagging adds no panic and no loop: the decoders and checks of an EXPLICIT or IMPLICIT
type always return if those of the inner type do. -/
theorem C61_tagged_no_panic (cls : Class) (tag innerTag : Nat) :
    (∀ f : Input → PRes α, (∀ i, NoPanic (f i)) → ∀ i,
      NoPanic ((explicitP cls tag f).parseBer i) ∧ NoPanic ((explicitP cls tag f).parseDer i)) ∧
    (∀ g : Bytes → Except SErr (Bytes × α), (∀ bs, NoPanicS (g bs)) → ∀ bs,
      NoPanicS (fromBerWith (explicitTryFrom cls tag g) bs) ∧
      NoPanicS (explicitFromDer cls tag g bs)) ∧
    (∀ p : Parser α, (∀ h i, NoPanic (p.content h i)) → ∀ i,
      NoPanic ((implicitP cls tag p).parseBer i) ∧ NoPanic ((implicitP cls tag p).parseDer i)) ∧
    (∀ f : Any → Except SErr α, (∀ a, NoPanicS (f a)) → ∀ bs,
      NoPanicS (fromBerWith (implicitTryFrom cls tag innerTag f) bs) ∧
      NoPanicS (implicitFromDer cls tag innerTag f bs)) ∧
    (∀ check : Any → Except SErr Unit, (∀ a, NoPanicS (check a)) → ∀ a,
      NoPanicS (explicitCheck check a) ∧ NoPanicS (implicitCheck innerTag check a)) := by
  refine ⟨fun f hf i => ⟨safe_parseBer (safe_explicit hf) i, safe_parseDer (safe_explicit hf) i⟩,
    fun g hg bs => ⟨?_, ?_⟩,
    fun p hp i => ⟨safe_parseBer (safe_implicit hp) i, safe_parseDer (safe_implicit hp) i⟩,
    fun f hf bs => ⟨?_, ?_⟩, fun check hc a => ⟨?_, ?_⟩⟩
  · exact NoPanicS.bind (noPanicS_wrapBer bs) fun _ =>
      NoPanicS.bind (noPanicS_explicitTryFrom hg _) fun _ => noPanicS_ok _
  · refine NoPanicS.bind (noPanicS_wrapDer bs) fun _ =>
      NoPanicS.bind (noPanicS_assertTag _ _) fun _ =>
      NoPanicS.bind (noPanicS_assertConstructed _) fun _ => ?_
    split
    · exact noPanicS_error _
    · exact NoPanicS.bind (hg _) fun _ => noPanicS_ok _
  · exact NoPanicS.bind (noPanicS_wrapBer bs) fun _ =>
      NoPanicS.bind (noPanicS_implicitTryFrom hf _) fun _ => noPanicS_ok _
  · exact NoPanicS.bind (noPanicS_wrapDer bs) fun _ =>
      NoPanicS.bind (noPanicS_implicitTryFrom hf _) fun _ => noPanicS_ok _
  · refine NoPanicS.bind (noPanicS_assertDefinite _) fun _ => ?_
    have := noPanicS_wrapBer a.data.data
    cases hh : wrapBerParser parseBerAny a.data.data with
    | ok x => exact hc _
    | error e =>
      rw [hh] at this
      cases e <;> simp [SErr.flatten, NoPanicS] at this ⊢
  · exact NoPanicS.bind (noPanicS_assertDefinite _) fun _ => hc _

/-- **C50** A failing writer never goes unnoticed when writing a tagged value, if it does not when
writing the inner value (its content, for IMPLICIT). -/
theorem C50_tagged_failing_writer (cls : Class) (tag : Nat) (t : ToBer α) (v : α)
    (dynTag : α → Nat) (dynC : α → Bool) (h : Header) :
    (FaultTolerant t v → FaultTolerant (explicitToBer cls tag dynTag t) ⟨v⟩ ∧
      FaultTolerant (taggedParserExplicitToBer t) ⟨h, v⟩) ∧
    (Tolerant (t.writeContent v) → FaultTolerant (implicitToBer cls tag dynC t) ⟨v⟩ ∧
      FaultTolerant (taggedParserImplicitToBer t) ⟨h, v⟩) :=
  ⟨fun hh => ⟨tolerant_encode hh, tolerant_encode hh⟩,
   fun hh => ⟨tolerant_encode hh, tolerant_encode hh⟩⟩

example : FaultTolerant (uintToBer 4) 70000 ∧ Tolerant (boolToBer.writeContent true) :=
  ⟨C50_failing_writer.2.2.1 4 70000,
   strict_tolerant ((strict_writeAll _).bind fun _ => strict_pure _)⟩

/-! ### Tagged values whose class and tag are chosen at run time -/

theorem taggedParserExplicit_ok {parse : Input → PRes Any} {g : Bytes → Except SErr (Bytes × α)}
    {bs rem : Bytes} {t : TaggedParser α} : taggedParserExplicit parse g bs = .ok (rem, t) ↔
      ∃ r a x, parse (Input.fromSlice bs) = .ok (r, a) ∧ r.data = rem ∧ t.header = a.header ∧
        g a.data.data = .ok (x, t.inner) := by
  unfold taggedParserExplicit
  rw [bindS_eq_ok]
  constructor
  · rintro ⟨⟨i, a⟩, h1, h2⟩
    obtain ⟨r, h5, h6⟩ := wrapBerParser_ok.mp h1
    obtain ⟨⟨x, y⟩, h3, h4⟩ := bindS_eq_ok.mp h2
    simp [pure, Except.pure] at h4
    exact ⟨r, a, x, h5, by rw [h6, h4.1], by rw [← h4.2], by rw [← h4.2]; exact h3⟩
  · rintro ⟨r, a, x, h1, h2, h3, h4⟩
    refine ⟨(rem, a), wrapBerParser_ok.mpr ⟨r, h1, h2⟩, bindS_eq_ok.mpr ⟨_, h4, ?_⟩⟩
    rw [← h3]; rfl

theorem taggedParserImplicitBer_ok {it : Nat} {f : Any → Except SErr α}
    {bs rem : Bytes} {t : TaggedParser α} : taggedParserImplicitBer it f bs = .ok (rem, t) ↔
      ∃ r a, parseBerAny (Input.fromSlice bs) = .ok (r, a) ∧ r.data = rem ∧ t.header = a.header ∧
        f ⟨{ a.header with tag := it }, a.data⟩ = .ok t.inner := by
  unfold taggedParserImplicitBer
  rw [bindS_eq_ok]
  constructor
  · rintro ⟨⟨i, a⟩, h1, h2⟩
    obtain ⟨r, h5, h6⟩ := wrapBerParser_ok.mp h1
    obtain ⟨y, h3, h4⟩ := bindS_eq_ok.mp h2
    simp [pure, Except.pure] at h4
    exact ⟨r, a, h5, by rw [h6, h4.1], by rw [← h4.2], by rw [← h4.2]; exact h3⟩
  · rintro ⟨r, a, h1, h2, h3, h4⟩
    refine ⟨(rem, a), wrapBerParser_ok.mpr ⟨r, h1, h2⟩, bindS_eq_ok.mpr ⟨_, h4, ?_⟩⟩
    rw [← h3]; rfl

theorem taggedParserImplicitDer_ok {it : Nat} {check : Any → Except SErr Unit}
    {f : Any → Except SErr α} {bs rem : Bytes} {t : TaggedParser α} :
    taggedParserImplicitDer it check f bs = .ok (rem, t) ↔
      ∃ r a, parseDerAny (Input.fromSlice bs) = .ok (r, a) ∧ r.data = rem ∧ t.header = a.header ∧
        check ⟨{ a.header with tag := it }, a.data⟩ = .ok () ∧
        f ⟨{ a.header with tag := it }, a.data⟩ = .ok t.inner := by
  unfold taggedParserImplicitDer
  rw [bindS_eq_ok]
  constructor
  · rintro ⟨⟨i, a⟩, h1, h2⟩
    obtain ⟨r, h5, h6⟩ := wrapBerParser_ok.mp h1
    obtain ⟨_, h7, h2⟩ := bindS_eq_ok.mp h2
    obtain ⟨y, h3, h4⟩ := bindS_eq_ok.mp h2
    simp [pure, Except.pure] at h4
    exact ⟨r, a, h5, by rw [h6, h4.1], by rw [← h4.2], h7, by rw [← h4.2]; exact h3⟩
  · rintro ⟨r, a, h1, h2, h3, h7, h4⟩
    refine ⟨(rem, a), wrapBerParser_ok.mpr ⟨r, h1, h2⟩, bindS_eq_ok.mpr
      ⟨(), h7, bindS_eq_ok.mpr ⟨_, h4, ?_⟩⟩⟩
    rw [← h3]; rfl

theorem taggedParser_parse_ok {cls : Class} {tag : Nat}
    {from_ : Bytes → Except SErr (Bytes × TaggedParser α)} {bs rem : Bytes} {t : TaggedParser α} :
    TaggedParser.parse cls tag from_ bs = .ok (rem, t) ↔
      from_ bs = .ok (rem, t) ∧ t.header.cls = cls ∧ t.header.tag = tag := by
  unfold TaggedParser.parse
  rw [bindS_eq_ok]
  constructor
  · rintro ⟨⟨i, y⟩, h1, h2⟩
    obtain ⟨_, h3, h2⟩ := bindS_eq_ok.mp h2
    obtain ⟨_, h4, h2⟩ := bindS_eq_ok.mp h2
    simp [pure, Except.pure] at h2
    obtain ⟨rfl, rfl⟩ := h2
    exact ⟨h1, assertClassS_ok.mp h3, assertTagS_ok.mp h4⟩
  · rintro ⟨h1, h2, h3⟩
    exact ⟨_, h1, bindS_eq_ok.mpr ⟨(), assertClassS_ok.mpr h2, bindS_eq_ok.mpr
      ⟨(), assertTagS_ok.mpr h3, rfl⟩⟩⟩

theorem fromAndThen_ok {parse : Input → PRes Any} {cls : Class} {tag : Nat} {bs rem : Bytes}
    {op : Bytes → Except SErr (Bytes × α)} {v : α} :
    fromAndThen parse cls tag bs op = .ok (rem, v) ↔
      ∃ r a x, parse (Input.fromSlice bs) = .ok (r, a) ∧ r.data = rem ∧ a.header.cls = cls ∧
        a.header.tag = tag ∧ op a.data.data = .ok (x, v) := by
  unfold fromAndThen
  rw [bindS_eq_ok]
  constructor
  · rintro ⟨⟨i, a⟩, h1, h2⟩
    obtain ⟨r, h5, h6⟩ := wrapBerParser_ok.mp h1
    obtain ⟨_, h3, h2⟩ := bindS_eq_ok.mp h2
    obtain ⟨_, h4, h2⟩ := bindS_eq_ok.mp h2
    obtain ⟨⟨x, y⟩, h7, h2⟩ := bindS_eq_ok.mp h2
    simp [pure, Except.pure] at h2
    exact ⟨r, a, x, h5, by rw [h6, h2.1], assertClassS_ok.mp h4, assertTagS_ok.mp h3,
      by rw [← h2.2]; exact h7⟩
  · rintro ⟨r, a, x, h1, h2, h3, h4, h5⟩
    exact ⟨(rem, a), wrapBerParser_ok.mpr ⟨r, h1, h2⟩, bindS_eq_ok.mpr
      ⟨(), assertTagS_ok.mpr h4, bindS_eq_ok.mpr ⟨(), assertClassS_ok.mpr h3,
        bindS_eq_ok.mpr ⟨_, h5, rfl⟩⟩⟩⟩

/-- **C63** `TaggedParser::parse_ber` and `parse_der`, the parsers made by `TaggedParserBuilder`,
and `Any::from_ber_and_then` and `from_der_and_then` accept exactly the objects of the class and tag
they are given whose content the inner decoder accepts; the header of the object is returned with
the value. -/
theorem C63_tagged_parsers (cls : Class) (tag it : Nat) (bs rem : Bytes) :
    (∀ (g : Bytes → Except SErr (Bytes × α)) (t : TaggedParser α),
      (TaggedParser.parse cls tag (taggedParserExplicit parseBerAny g) bs = .ok (rem, t) ↔
        ∃ r a x, parseBerAny (Input.fromSlice bs) = .ok (r, a) ∧ r.data = rem ∧
          a.header.cls = cls ∧ a.header.tag = tag ∧ t.header = a.header ∧
          g a.data.data = .ok (x, t.inner)) ∧
      (TaggedParser.parse cls tag (taggedParserExplicit parseDerAny g) bs = .ok (rem, t) ↔
        ∃ r a x, parseDerAny (Input.fromSlice bs) = .ok (r, a) ∧ r.data = rem ∧
          a.header.cls = cls ∧ a.header.tag = tag ∧ t.header = a.header ∧
          g a.data.data = .ok (x, t.inner))) ∧
    (∀ (check : Any → Except SErr Unit) (f : Any → Except SErr α) (t : TaggedParser α),
      (TaggedParser.parse cls tag (taggedParserImplicitBer it f) bs = .ok (rem, t) ↔
        ∃ r a, parseBerAny (Input.fromSlice bs) = .ok (r, a) ∧ r.data = rem ∧
          a.header.cls = cls ∧ a.header.tag = tag ∧ t.header = a.header ∧
          f ⟨{ a.header with tag := it }, a.data⟩ = .ok t.inner) ∧
      (TaggedParser.parse cls tag (taggedParserImplicitDer it check f) bs = .ok (rem, t) ↔
        ∃ r a, parseDerAny (Input.fromSlice bs) = .ok (r, a) ∧ r.data = rem ∧
          a.header.cls = cls ∧ a.header.tag = tag ∧ t.header = a.header ∧
          check ⟨{ a.header with tag := it }, a.data⟩ = .ok () ∧
          f ⟨{ a.header with tag := it }, a.data⟩ = .ok t.inner)) ∧
    (∀ (b : TaggedParserBuilder) (from_ : Bytes → Except SErr (Bytes × TaggedParser α)),
      ((b.withClass cls).withTag tag).parser from_ bs = TaggedParser.parse cls tag from_ bs ∧
      ((b.withTag tag).withClass cls).parser from_ bs = TaggedParser.parse cls tag from_ bs ∧
      TaggedParserBuilder.new.parser from_ bs = TaggedParser.parse .universal 0 from_ bs) ∧
    (∀ (op : Bytes → Except SErr (Bytes × α)) (v : α),
      (fromAndThen parseBerAny cls tag bs op = .ok (rem, v) ↔
        ∃ r a x, parseBerAny (Input.fromSlice bs) = .ok (r, a) ∧ r.data = rem ∧
          a.header.cls = cls ∧ a.header.tag = tag ∧ op a.data.data = .ok (x, v)) ∧
      (fromAndThen parseDerAny cls tag bs op = .ok (rem, v) ↔
        ∃ r a x, parseDerAny (Input.fromSlice bs) = .ok (r, a) ∧ r.data = rem ∧
          a.header.cls = cls ∧ a.header.tag = tag ∧ op a.data.data = .ok (x, v))) := by
  have key : ∀ (parse : Input → PRes Any) (g : Bytes → Except SErr (Bytes × α)) (t : TaggedParser α),
      (TaggedParser.parse cls tag (taggedParserExplicit parse g) bs = .ok (rem, t) ↔
        ∃ r a x, parse (Input.fromSlice bs) = .ok (r, a) ∧ r.data = rem ∧
          a.header.cls = cls ∧ a.header.tag = tag ∧ t.header = a.header ∧
          g a.data.data = .ok (x, t.inner)) := by
    intro parse g t
    rw [taggedParser_parse_ok, taggedParserExplicit_ok]
    constructor
    · rintro ⟨⟨r, a, x, h1, h2, h3, h4⟩, h5, h6⟩
      exact ⟨r, a, x, h1, h2, h3 ▸ h5, h3 ▸ h6, h3, h4⟩
    · rintro ⟨r, a, x, h1, h2, h5, h6, h3, h4⟩
      exact ⟨⟨r, a, x, h1, h2, h3, h4⟩, h3 ▸ h5, h3 ▸ h6⟩
  refine ⟨fun g t => ⟨key _ g t, key _ g t⟩, fun check f t => ⟨?_, ?_⟩,
    fun b from_ => ⟨rfl, rfl, rfl⟩, fun op v => ⟨fromAndThen_ok, fromAndThen_ok⟩⟩
  · rw [taggedParser_parse_ok, taggedParserImplicitBer_ok]
    constructor
    · rintro ⟨⟨r, a, h1, h2, h3, h4⟩, h5, h6⟩
      exact ⟨r, a, h1, h2, h3 ▸ h5, h3 ▸ h6, h3, h4⟩
    · rintro ⟨r, a, h1, h2, h5, h6, h3, h4⟩
      exact ⟨⟨r, a, h1, h2, h3, h4⟩, h3 ▸ h5, h3 ▸ h6⟩
  · rw [taggedParser_parse_ok, taggedParserImplicitDer_ok]
    constructor
    · rintro ⟨⟨r, a, h1, h2, h3, h4⟩, h5, h6⟩
      exact ⟨r, a, h1, h2, h3 ▸ h5, h3 ▸ h6, h3, h4⟩
    · rintro ⟨r, a, h1, h2, h5, h6, h3, h4⟩
      exact ⟨⟨r, a, h1, h2, h3, h4⟩, h3 ▸ h5, h3 ▸ h6⟩

/-- Cases: `[APPLICATION 3] EXPLICIT INTEGER` 5 and `[APPLICATION 3] IMPLICIT INTEGER` 5. -/
example :
    ((TaggedParserBuilder.new.withClass .application).withTag 3).parser
      (taggedParserExplicit parseDerAny (fromDer (uintBer 1) checkDerInt))
      [0x63, 0x03, 0x02, 0x01, 0x05, 0x77] =
      .ok ([0x77], ⟨⟨.application, true, 3, .definite 3, some [0x63], some ⟨[0x63, 0x03], 0, 2⟩⟩, 5⟩) ∧
    ((TaggedParserBuilder.new.withClass .application).withTag 3).parser
      (taggedParserImplicitDer 2 checkDerInt (tryFromAny (uintBer 1))) [0x43, 0x01, 0x05] =
      .ok ([], ⟨⟨.application, false, 3, .definite 1, some [0x43], some ⟨[0x43, 0x01], 0, 2⟩⟩, 5⟩) ∧
    ((TaggedParserBuilder.new.withClass .priv).withTag 3).parser
      (taggedParserImplicitDer 2 checkDerInt (tryFromAny (uintBer 1))) [0x43, 0x01, 0x05] =
      .error (.error (.unexpectedClass (some .priv) .application)) := by decide +kernel

/-- **C63** The helper functions `parse_der_tagged_explicit`, `parse_der_tagged_implicit`,
`parse_der_tagged_explicit_g`, `parse_der_tagged_implicit_g` and `parse_der_container` check the tag
number only.
Missing: the class is not checked (`C63_deviations`). -/
theorem C63_helpers_partial (tag it : Nat) (bs rem : Bytes) :
    (∀ (g : Bytes → Except SErr (Bytes × α)) (t : TaggedParser α),
      parseDerTagged tag (taggedParserExplicit parseDerAny g) bs = .ok (rem, t) ↔
        ∃ r a x, parseDerAny (Input.fromSlice bs) = .ok (r, a) ∧ r.data = rem ∧
          a.header.tag = tag ∧ t.header = a.header ∧ g a.data.data = .ok (x, t.inner)) ∧
    (∀ (check : Any → Except SErr Unit) (f : Any → Except SErr α) (t : TaggedParser α),
      parseDerTagged tag (taggedParserImplicitDer it check f) bs = .ok (rem, t) ↔
        ∃ r a, parseDerAny (Input.fromSlice bs) = .ok (r, a) ∧ r.data = rem ∧
          a.header.tag = tag ∧ t.header = a.header ∧
          check ⟨{ a.header with tag := it }, a.data⟩ = .ok () ∧
          f ⟨{ a.header with tag := it }, a.data⟩ = .ok t.inner) ∧
    (∀ (f : Any → Except SErr (Bytes × α)) (v : α), parseDerContainer tag f bs = .ok (rem, v) ↔
        ∃ r a x, parseDerAny (Input.fromSlice bs) = .ok (r, a) ∧ r.data = rem ∧
          a.header.tag = tag ∧ f a = .ok (x, v)) ∧
    (∀ (f : Bytes → Header → Except SErr (Bytes × α)) (v : α),
      parseDerTaggedExplicitG tag f bs = .ok (rem, v) ↔
        ∃ r a x, parseDerAny (Input.fromSlice bs) = .ok (r, a) ∧ r.data = rem ∧
          a.header.tag = tag ∧ f a.data.data a.header = .ok (x, v)) ∧
    (∀ (f : Bytes → Nat → Header → Except SErr (Bytes × α)) (v : α),
      parseDerTaggedImplicitG tag it f bs = .ok (rem, v) ↔
        ∃ r a x, parseDerAny (Input.fromSlice bs) = .ok (r, a) ∧ r.data = rem ∧
          a.header.tag = tag ∧ f a.data.data tag { a.header with tag := it } = .ok (x, v)) := by
  have key : ∀ (from_ : Bytes → Except SErr (Bytes × TaggedParser α)) (t : TaggedParser α),
      parseDerTagged tag from_ bs = .ok (rem, t) ↔ from_ bs = .ok (rem, t) ∧ t.header.tag = tag := by
    intro from_ t
    unfold parseDerTagged
    rw [bindS_eq_ok]
    constructor
    · rintro ⟨⟨i, y⟩, h1, h2⟩
      obtain ⟨_, h4, h2⟩ := bindS_eq_ok.mp h2
      simp [pure, Except.pure] at h2
      obtain ⟨rfl, rfl⟩ := h2
      exact ⟨h1, assertTagS_ok.mp h4⟩
    · rintro ⟨h1, h3⟩
      exact ⟨_, h1, bindS_eq_ok.mpr ⟨(), assertTagS_ok.mpr h3, rfl⟩⟩
  have cont : ∀ (f : Any → Except SErr (Bytes × α)) (v : α),
      parseDerContainer tag f bs = .ok (rem, v) ↔
        ∃ r a x, parseDerAny (Input.fromSlice bs) = .ok (r, a) ∧ r.data = rem ∧
          a.header.tag = tag ∧ f a = .ok (x, v) := by
    intro f v
    unfold parseDerContainer
    rw [bindS_eq_ok]
    constructor
    · rintro ⟨⟨i, a⟩, h1, h2⟩
      obtain ⟨r, h5, h6⟩ := wrapBerParser_ok.mp h1
      obtain ⟨_, h3, h2⟩ := bindS_eq_ok.mp h2
      obtain ⟨⟨x, y⟩, h7, h2⟩ := bindS_eq_ok.mp h2
      simp [pure, Except.pure] at h2
      exact ⟨r, a, x, h5, by rw [h6, h2.1], assertTagS_ok.mp h3, by rw [← h2.2]; exact h7⟩
    · rintro ⟨r, a, x, h1, h2, h3, h4⟩
      exact ⟨(rem, a), wrapBerParser_ok.mpr ⟨r, h1, h2⟩, bindS_eq_ok.mpr
        ⟨(), assertTagS_ok.mpr h3, bindS_eq_ok.mpr ⟨_, h4, rfl⟩⟩⟩
  refine ⟨fun g t => ?_, fun check f t => ?_, cont, fun f v => ?_, fun f v => ?_⟩
  · rw [key, taggedParserExplicit_ok]
    constructor
    · rintro ⟨⟨r, a, x, h1, h2, h3, h4⟩, h6⟩
      exact ⟨r, a, x, h1, h2, h3 ▸ h6, h3, h4⟩
    · rintro ⟨r, a, x, h1, h2, h6, h3, h4⟩
      exact ⟨⟨r, a, x, h1, h2, h3, h4⟩, h3 ▸ h6⟩
  · rw [key, taggedParserImplicitDer_ok]
    constructor
    · rintro ⟨⟨r, a, h1, h2, h3, h4⟩, h6⟩
      exact ⟨r, a, h1, h2, h3 ▸ h6, h3, h4⟩
    · rintro ⟨r, a, h1, h2, h6, h3, h4⟩
      exact ⟨⟨r, a, h1, h2, h3, h4⟩, h3 ▸ h6⟩
  · unfold parseDerTaggedExplicitG
    rw [cont]
    constructor
    · rintro ⟨r, a, x, h1, h2, h3, h4⟩
      obtain ⟨_, _, h4⟩ := bindS_eq_ok.mp h4
      exact ⟨r, a, x, h1, h2, h3, h4⟩
    · rintro ⟨r, a, x, h1, h2, h3, h4⟩
      exact ⟨r, a, x, h1, h2, h3, bindS_eq_ok.mpr ⟨(), assertTagS_ok.mpr h3, h4⟩⟩
  · unfold parseDerTaggedImplicitG
    rw [cont]
    constructor
    · rintro ⟨r, a, x, h1, h2, h3, h4⟩
      obtain ⟨_, _, h4⟩ := bindS_eq_ok.mp h4
      exact ⟨r, a, x, h1, h2, h3, h4⟩
    · rintro ⟨r, a, x, h1, h2, h3, h4⟩
      exact ⟨r, a, x, h1, h2, h3, bindS_eq_ok.mpr ⟨(), assertTagS_ok.mpr h3, h4⟩⟩

/-- The helpers accept any class (here APPLICATION 1 and the universal class for `[1]`), and an
explicit `TaggedParser` accepts a primitive wrapper. -/
theorem C63_deviations :
    (parseDerTagged 1 (taggedParserExplicit parseDerAny (fromDer (uintBer 1) checkDerInt))
      [0x61, 0x03, 0x02, 0x01, 0x05]).isOk = true ∧
    (parseDerTagged 1 (taggedParserImplicitDer 2 checkDerInt (tryFromAny (uintBer 1)))
      [0x01, 0x01, 0x05]).isOk = true ∧
    (TaggedParser.parse .contextSpecific 1
      (taggedParserExplicit parseDerAny (fromDer (uintBer 1) checkDerInt))
      [0x81, 0x03, 0x02, 0x01, 0x05]).isOk = true := by decide +kernel

/-- **C63** A value made with `TaggedParser::new_explicit`, or with `new_implicit` as primitive,
encodes to bytes that the run-time parser of the same class and tag decodes to the same value. (The
header of the result is the one read.) -/
theorem C63_tagged_parser_roundtrip {c : Codec α} {v : α} (h : UniversalValue c v)
    (n : Nat) (hn : c.enc.contentLen v = .definite n) (hs : n < 2 ^ 24) (cls : Class) (tag : Nat)
    (htag : tag < 2 ^ 32) :
    (∃ bs, (taggedParserExplicitToBer c.enc).toVec (.newExplicit cls tag v) = .ok bs ∧
      ∀ rest, ∃ h1 h2, TaggedParser.parse cls tag (taggedParserExplicit parseBerAny (fromBer c.ber))
          (bs ++ rest) = .ok (rest, ⟨h1, v⟩) ∧
        TaggedParser.parse cls tag (taggedParserExplicit parseDerAny (fromDer c.ber c.check))
          (bs ++ rest) = .ok (rest, ⟨h2, v⟩)) ∧
    (∃ bs, (taggedParserImplicitToBer c.enc).toVec (.newImplicit cls false tag v) = .ok bs ∧
      ∀ rest, ∃ h1 h2, TaggedParser.parse cls tag
          (taggedParserImplicitBer c.tag (tryFromAny c.ber)) (bs ++ rest) = .ok (rest, ⟨h1, v⟩) ∧
        TaggedParser.parse cls tag
          (taggedParserImplicitDer c.tag c.check (tryFromAny c.ber))
          (bs ++ rest) = .ok (rest, ⟨h2, v⟩)) := by
  obtain ⟨cs, hw, hl, ht⟩ := universal_works h
  rw [hl] at hn; injection hn with hn; subst hn
  have hlt : cs.length < 2 ^ 64 := by omega
  obtain ⟨b1, b2, b3, b4⟩ := hw.back hlt
  constructor
  · obtain ⟨bs, h1, h2, h3, h4⟩ := lengthsRight_toVec (hw.enc.lengths hlt) ⟨_, hl, hs⟩
      (by rw [hw.tag]; omega)
    have he : Encodes (taggedParserExplicitToBer c.enc) (.newExplicit cls tag v) bs :=
      ⟨h2, h3, htag, rfl⟩
    have hbs : bs.length < 2 ^ 64 := by omega
    refine ⟨_, he.toVec hbs, fun rest => ?_⟩
    obtain ⟨a, g1, g2, g3, g4, g5, g6, g7⟩ := he.any hbs
      (i := Input.fromSlice ((taggedParserExplicitToBer c.enc).fullOf (.newExplicit cls tag v) bs
        ++ rest)) rfl
    obtain ⟨bs3, k1, k2⟩ := b3
    obtain ⟨bs4, k3, k4⟩ := b4
    rw [h1] at k1 k3
    injection k1 with k1; injection k3 with k3
    subst k1; subst k3
    have k2 := k2 []; have k4 := k4 []
    rw [List.append_nil] at k2 k4
    exact ⟨a.header, a.header,
      ((C63_tagged_parsers cls tag 0 _ _).1 _ _).1.mpr ⟨_, a, _, g1, by simp [Input.fromSlice],
        g3, g5, rfl, g7 ▸ k2⟩,
      ((C63_tagged_parsers cls tag 0 _ _).1 _ _).2.mpr ⟨_, a, _, g2, by simp [Input.fromSlice],
        g3, g5, rfl, g7 ▸ k4⟩⟩
  · have he : Encodes (taggedParserImplicitToBer c.enc) (.newImplicit cls false tag v) cs :=
      ⟨hw.enc.content, hl, htag, rfl⟩
    refine ⟨_, he.toVec hlt, fun rest => ?_⟩
    obtain ⟨a, g1, g2, g3, g4, g5, g6, g7⟩ := he.any hlt
      (i := Input.fromSlice ((taggedParserImplicitToBer c.enc).fullOf (.newImplicit cls false tag v) cs
        ++ rest)) rfl
    have hx : tryFromAny c.ber ⟨{ a.header with tag := c.tag }, a.data⟩ = .ok v := by
      obtain ⟨x, hx⟩ := hw.ber { a.header with tag := c.tag } a.data g4 g6 g7
      exact tryFromAny_ok.mpr ⟨hw.accB, x, hx⟩
    exact ⟨a.header, a.header,
      ((C63_tagged_parsers cls tag c.tag _ _).2.1 c.check _ _).1.mpr ⟨_, a, g1,
        by simp [Input.fromSlice], g3, g5, rfl, hx⟩,
      ((C63_tagged_parsers cls tag c.tag _ _).2.1 c.check _ _).2.mpr ⟨_, a, g2,
        by simp [Input.fromSlice], g3, g5, rfl, hw.chk _ g4 g6 g7, hx⟩⟩

/-- A case. -/
example : UniversalValue (uintC 2) 300 ∧ (uintC 2).enc.contentLen 300 = .definite 2 :=
  ⟨.uint 2 (by decide) (by decide), by decide +kernel⟩

/-- **C63** Deviation: `new_implicit` ignores the form it is given when encoding; the object is
always written as primitive, although the header of the value has the class, the form and the tag
number given (and that of `new_explicit` those given and the constructed form). -/
theorem C63_constructed_ignored (cls : Class) (b : Bool) (tag : Nat) (t : ToBer α) (v : α) :
    (taggedParserImplicitToBer t).toVec (.newImplicit cls b tag v) =
      (taggedParserImplicitToBer t).toVec (.newImplicit cls false tag v) ∧
    (∃ h, TaggedParser.newImplicit cls b tag v = ⟨h, v⟩ ∧ h.cls = cls ∧ h.constructed = b ∧
      h.tag = tag ∧ h.length = .definite 0) ∧
    (∃ h, TaggedParser.newExplicit cls tag v = ⟨h, v⟩ ∧ h.cls = cls ∧ h.constructed = true ∧
      h.tag = tag ∧ h.length = .definite 0) :=
  ⟨rfl, ⟨_, rfl, rfl, rfl, rfl, rfl⟩, ⟨_, rfl, rfl, rfl, rfl, rfl⟩⟩

/-! ### Optional tagged values -/

/-- **C36** `OptTaggedParser`: on empty bytes, and on an object with another tag number, the answer
is None and nothing is consumed; on an object of its tag number with another class, it is the error
UnexpectedClass; on an object of its class and tag, the given function gets the header and the content,
its result is returned as Some with the bytes after the object, and its error is returned; bytes
that the generic parser refuses are refused with the same error. -/
theorem C36_opt_tagged_parser (o : OptTaggedParser) (parse : Input → PRes Any)
    (f : Header → Bytes → Except SErr (Bytes × α)) (bytes : Bytes) :
    (bytes = [] → o.run parse bytes f = .ok (bytes, none)) ∧
    (∀ e, bytes ≠ [] → wrapBerParser parse bytes = .error e → o.run parse bytes f = .error e) ∧
    (∀ r a, bytes ≠ [] → parse (Input.fromSlice bytes) = .ok (r, a) →
      (a.header.tag ≠ o.tag → o.run parse bytes f = .ok (bytes, none)) ∧
      (a.header.tag = o.tag → a.header.cls ≠ o.cls → o.run parse bytes f =
        .error (.error (.unexpectedClass (some o.cls) a.header.cls))) ∧
      (a.header.tag = o.tag → a.header.cls = o.cls →
        (∀ x v, f a.header a.data.data = .ok (x, v) → o.run parse bytes f = .ok (r.data, some v)) ∧
        (∀ e, f a.header a.data.data = .error e → o.run parse bytes f = .error e))) := by
  refine ⟨?_, ?_, ?_⟩
  · rintro rfl; rfl
  · intro e hne he
    unfold OptTaggedParser.run
    rw [if_neg (by simpa using hne), he]; rfl
  · intro r a hne hp
    have hw : wrapBerParser parse bytes = .ok (r.data, a) := wrapBerParser_ok.mpr ⟨r, hp, rfl⟩
    have hrun : o.run parse bytes f = (if a.header.tag ≠ o.tag then .ok (bytes, none)
        else if a.header.cls ≠ o.cls then
          .error (.error (.unexpectedClass (some o.cls) a.header.cls))
        else do
          let (_, res) ← f a.header a.data.data
          pure (r.data, some res)) := by
      unfold OptTaggedParser.run
      rw [if_neg (by simpa using hne), hw]; rfl
    rw [hrun]
    refine ⟨fun h => if_pos h, fun h1 h2 => by rw [if_neg (by simp [h1]), if_pos h2],
      fun h1 h2 => ?_⟩
    rw [if_neg (by simp [h1]), if_neg (by simp [h2])]
    refine ⟨fun x v hf => ?_, fun e hf => ?_⟩
    · rw [hf]; rfl
    · rw [hf]; rfl

/-- **C36** The four constructors choose the class. -/
theorem C36_constructors (tag : Nat) :
    (OptTaggedParser.universal tag).cls = .universal ∧
    (OptTaggedParser.tagged tag).cls = .contextSpecific ∧
    (OptTaggedParser.application tag).cls = .application ∧
    (OptTaggedParser.priv tag).cls = .priv ∧
    (∀ o ∈ [OptTaggedParser.universal tag, .tagged tag, .application tag, .priv tag], o.tag = tag) := by
  refine ⟨rfl, rfl, rfl, rfl, ?_⟩
  intro o ho
  simp at ho
  rcases ho with rfl | rfl | rfl | rfl <;> rfl

/-- **C36** A value written with an EXPLICIT tag is found by the optional parser of its class and
tag, passed over by the optional parsers of every other tag number, and refused by those of the same
number and another class. -/
theorem C36_opt_tagged_roundtrip {c : Codec α} {v : α} (h : UniversalValue c v)
    (hs : SmallContent c.enc v) (cls : Class) (tag : Nat) (htag : tag < 2 ^ 32) :
    ∃ bs, (explicitToBer cls tag (fun w => (c.enc.tagInfo w).2.2) c.enc).toVec ⟨v⟩ = .ok bs ∧
      ∀ (rest : Bytes) (o : OptTaggedParser),
        (o = ⟨cls, tag⟩ →
          o.run parseBerAny (bs ++ rest) (fun _ d => fromBer c.ber d) = .ok (rest, some v) ∧
          o.run parseDerAny (bs ++ rest) (fun _ d => fromDer c.ber c.check d) =
            .ok (rest, some v)) ∧
        (o.tag ≠ tag →
          o.run parseBerAny (bs ++ rest) (fun _ d => fromBer c.ber d) = .ok (bs ++ rest, none) ∧
          o.run parseDerAny (bs ++ rest) (fun _ d => fromDer c.ber c.check d) =
            .ok (bs ++ rest, none)) ∧
        (o.tag = tag → o.cls ≠ cls →
          o.run parseBerAny (bs ++ rest) (fun _ d => fromBer c.ber d) =
            .error (.error (.unexpectedClass (some o.cls) cls)) ∧
          o.run parseDerAny (bs ++ rest) (fun _ d => fromDer c.ber c.check d) =
            .error (.error (.unexpectedClass (some o.cls) cls))) := by
  obtain ⟨cs, hw, hl, ht⟩ := universal_works h
  obtain ⟨n, hn, hs⟩ := hs
  rw [hl] at hn; injection hn with hn; subst hn
  have hlt : cs.length < 2 ^ 64 := by omega
  obtain ⟨b1, b2, b3, b4⟩ := hw.back hlt
  obtain ⟨bs, h1, h2, h3, h4⟩ := lengthsRight_toVec (hw.enc.lengths hlt) ⟨_, hl, hs⟩
    (by rw [hw.tag]; omega)
  have he := explicit_encodes (dynTag := fun w => (c.enc.tagInfo w).2.2) cls htag rfl h2 h3
  have hbs : bs.length < 2 ^ 64 := by omega
  refine ⟨_, he.toVec hbs, fun rest o => ?_⟩
  obtain ⟨a, g1, g2, g3, g4, g5, g6, g7⟩ := he.any hbs (i := Input.fromSlice
    ((explicitToBer cls tag (fun w => (c.enc.tagInfo w).2.2) c.enc).fullOf ⟨v⟩ bs ++ rest)) rfl
  obtain ⟨bs3, k1, k2⟩ := b3
  obtain ⟨bs4, k3, k4⟩ := b4
  rw [h1] at k1 k3
  injection k1 with k1; injection k3 with k3
  subst k1; subst k3
  have k2 := k2 []; have k4 := k4 []
  rw [List.append_nil, ← g7] at k2 k4
  have hne : (explicitToBer cls tag (fun w => (c.enc.tagInfo w).2.2) c.enc).fullOf ⟨v⟩ bs ++ rest ≠ [] := by
    intro h0
    rw [h0] at g1
    have : parseBerAny (Input.fromSlice []) = .error (.incomplete 1) := by decide
    rw [this] at g1; simp at g1
  have g3 : a.header.cls = cls := g3
  have g5 : a.header.tag = tag := g5
  have hr : (after (Input.fromSlice ((explicitToBer cls tag (fun w => (c.enc.tagInfo w).2.2)
      c.enc).fullOf ⟨v⟩ bs ++ rest)) ((explicitToBer cls tag (fun w => (c.enc.tagInfo w).2.2)
      c.enc).fullOf ⟨v⟩ bs).length).data = rest := by simp [Input.fromSlice]
  have A := (C36_opt_tagged_parser o parseBerAny (fun _ d => fromBer c.ber d) _).2.2 _ a hne g1
  have B := (C36_opt_tagged_parser o parseDerAny (fun _ d => fromDer c.ber c.check d) _).2.2 _ a hne g2
  rw [hr] at A B
  refine ⟨?_, fun h => ⟨A.1 (by rw [g5]; exact fun e => h e.symm),
    B.1 (by rw [g5]; exact fun e => h e.symm)⟩, fun h1 h2 => ⟨?_, ?_⟩⟩
  · rintro rfl
    exact ⟨(A.2.2 g5 g3).1 _ _ k2, (B.2.2 g5 g3).1 _ _ k4⟩
  · rw [A.2.1 (by rw [g5, h1]) (by rw [g3]; exact fun e => h2 e.symm), g3]
  · rw [B.2.1 (by rw [g5, h1]) (by rw [g3]; exact fun e => h2 e.symm), g3]

/-- Cases of the three outcomes. -/
example :
    (OptTaggedParser.tagged 2).run parseDerAny [0xa2, 0x03, 0x02, 0x01, 0x05, 0x77]
      (fun _ d => fromDer (uintBer 1) checkDerInt d) = .ok ([0x77], some 5) ∧
    (OptTaggedParser.tagged 1).run parseDerAny [0xa2, 0x03, 0x02, 0x01, 0x05, 0x77]
      (fun _ d => fromDer (uintBer 1) checkDerInt d) =
      .ok ([0xa2, 0x03, 0x02, 0x01, 0x05, 0x77], none) ∧
    (OptTaggedParser.application 2).run parseDerAny [0xa2, 0x03, 0x02, 0x01, 0x05, 0x77]
      (fun _ d => fromDer (uintBer 1) checkDerInt d) =
      .error (.error (.unexpectedClass (some .application) .contextSpecific)) := by decide +kernel

end Asn1

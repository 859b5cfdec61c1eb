import Verif.Proofs.AnyMethods
import Verif.Props.BuiltValue
/-!
# The methods of `Any` and `Header` (C85, C86, C87, C88)
-/
namespace Asn1
open Spec

variable {α : Type}

/-! ### C85: conversions -/

/-- **C85** A conversion method applied to an object with a tag that the type accepts returns what
`try_from` returns, errors included. -/
theorem C85_conversion_own_tag (p : Parser α) (a : Any) (h : p.acceptTag a.header.tag = true) :
    anyInto p a = tryFromAny p a := by
  unfold tryFromAny anyInto
  rw [h]
  rfl

/-- A case. -/
example : (parseBerAny (Input.fromSlice [2, 1, 5])).map (fun x => anyInto (uintBer 1) x.2) = .ok (.ok 5) := by
  decide +kernel

/-- **C85** A conversion method returns what `try_from` would return if the tag of the object were the
one of the type. -/
theorem C85_conversion {p : Parser α} {tag : Nat} (hp : Convertible p tag) (a : Any) (v : α) :
    anyInto p a = .ok v ↔ tryFromAny p (retag a tag) = .ok v := by
  rw [anyInto_ok, tryFromAny_ok]
  constructor
  · rintro ⟨r, h⟩
    exact ⟨convertible_accept hp, r, (convertible_tag hp _ _ _ _).mpr h⟩
  · rintro ⟨_, r, h⟩
    exact ⟨r, (convertible_tag hp _ _ _ _).mp h⟩

/-- A case: the content of an OCTET STRING read as an INTEGER, when the caller asks for one. -/
example : (parseBerAny (Input.fromSlice [4, 1, 5])).map (fun x => anyInto (uintBer 1) x.2) = .ok (.ok 5) ∧
    (parseBerAny (Input.fromSlice [4, 1, 5])).map (fun x => (tryFromAny (uintBer 1) x.2).isOk) = .ok false := by
  decide +kernel

/-- **C85** The object read from the encoding of a value converts back to the value. -/
theorem C85_conversion_roundtrip {c : Codec α} {v : α} (h : UniversalValue c v)
    (hs : ∀ n, c.enc.contentLen v = .definite n → n < 2 ^ 64) :
    ∃ bs, c.enc.toVec v = .ok bs ∧ ∀ i : Input, ∀ rest, i.data = bs ++ rest →
      ∃ r a, parseBerAny i = .ok (r, a) ∧ r.data = rest ∧ anyInto c.ber a = .ok v := by
  obtain ⟨cs, hw, hl, _⟩ := universal_works h
  have hlen : cs.length < 2 ^ 64 := hs _ hw.enc.len
  refine ⟨_, hw.enc.toVec hlen, fun i rest hi => ?_⟩
  obtain ⟨a, h1, h2, h3, h4, h5, h6, h7⟩ := hw.enc.any hlen hi
  refine ⟨_, a, h1, ?_, anyInto_ok.mpr ?_⟩
  · rw [after_data, hi, List.drop_left]
  · exact hw.ber a.header a.data (h4.trans hw.prim) h6 h7

theorem anyInto_stops {p : Parser α} (a : Any) :
    (anyInto p a = .error .panic ↔ p.content a.header a.data = .error .panic) ∧
    (anyInto p a = .error .diverge ↔ p.content a.header a.data = .error .diverge) := by
  unfold anyInto
  cases hr : p.content a.header a.data with
  | ok x => simp
  | error e => cases e <;> simp [SErr.fromNomBerr]

theorem safe_tryCollect (i : Input) : NoPanic ((AnyIter.new i).tryCollect anyBer.parseBer) := by
  unfold AnyIter.tryCollect
  refine NoPanic.bind (forIter_safe objParser_ber ?_ (by simp [Input.len, AnyIter.new])) fun _ _ => noPanic_ok _
  exact fun _ _ => noPanic_ok _

theorem safe_convertible {p : Parser α} {tag : Nat} (hp : Convertible p tag) (h9 : tag ≠ 9) : p.Safe := by
  cases hp with
  | universal hc => exact ((fine_universal (real := false) hc).safe rfl).1
  | boolean => exact safe_boolean.1
  | real lib => exact absurd rfl h9
  | sequence => exact safe_raw 16
  | set => exact safe_raw 17
  | anySequence =>
    intro h i
    refine NoPanic.bind ?_ fun _ _ => safe_tryCollect i
    unfold Header.assertConstructed nomErr
    split <;> exact ⟨by simp, by simp⟩
  | endOfContent =>
    intro h i
    show NoPanic (if _ then _ else _)
    unfold nomErr
    split <;> exact ⟨by simp, by simp⟩
  | embeddedPdv => exact safe_pdv

/-- **C85** No conversion panics or loops, on any object, but that to REAL (tag number 9). -/
theorem C85_no_panic {p : Parser α} {tag : Nat} (hp : Convertible p tag) (h9 : tag ≠ 9) (a : Any) :
    NoPanicS (anyInto p a) :=
  ⟨fun h => (safe_convertible hp h9 a.header a.data).1 ((anyInto_stops a).1.mp h),
    fun h => (safe_convertible hp h9 a.header a.data).2 ((anyInto_stops a).2.mp h)⟩

/-- A case: an INTEGER without content. -/
example : (parseBerAny (Input.fromSlice [2, 0])).map (fun x => anyInto (uintBer 1) x.2) ≠ .ok (.error .panic) := by
  decide +kernel

/-- **C85** The conversion to REAL panics exactly on primitive objects with a content of C61, whatever their
tag. -/
theorem C85_real_panics (lib : FloatLib) (hlib : LibValid lib) (a : Any) :
    (anyInto (realP lib) a = .error .panic ↔ a.header.constructed = false ∧ PanicContent a.data.data) ∧
    anyInto (realP lib) a ≠ .error .diverge :=
  ⟨(anyInto_stops a).1.trans (realP_stops lib hlib).1,
    fun h => (realP_stops lib hlib).2 ((anyInto_stops a).2.mp h)⟩

example : Convertible pdvP 11 ∧ Convertible (anySeqP 16 anyBer.parseBer) 16 := ⟨.embeddedPdv, .anySequence⟩

/-- **C85** Deviation: no conversion looks at the tag number (nor the class): the result is the same
for every tag. -/
theorem C85_tag_deviation {p : Parser α} {tag : Nat} (hp : Convertible p tag) (a : Any) (t : Nat) (v : α) :
    anyInto p (retag a t) = .ok v ↔ anyInto p a = .ok v := by
  rw [anyInto_ok, anyInto_ok]
  constructor
  · rintro ⟨r, h⟩; exact ⟨r, (convertible_tag hp _ _ _ _).mp h⟩
  · rintro ⟨r, h⟩; exact ⟨r, (convertible_tag hp _ _ _ _).mpr h⟩

/-- **C85** Deviation, cases: an INTEGER converts to a BOOLEAN, an OCTET STRING to a NULL, a BOOLEAN to
an INTEGER, a context-specific object to a `str`; `try_from` refuses all of them. -/
theorem C85_tag_cases :
    let any := fun bs => (parseBerAny (Input.fromSlice bs)).toOption.map (·.2)
    ((any [0x02, 0x01, 0x05]).map (anyInto boolBer) = some (.ok true) ∧
      (any [0x02, 0x01, 0x05]).map (tryFromAny boolBer) =
        some (.error (.error (.unexpectedTag none 2)))) ∧
    ((any [0x04, 0x00]).map (anyInto nullP) = some (.ok ()) ∧
      (any [0x04, 0x00]).map (tryFromAny nullP) = some (.error (.error (.unexpectedTag none 4)))) ∧
    ((any [0x01, 0x01, 0xff]).map (anyInto (intBer 1)) = some (.ok (-1)) ∧
      (any [0x01, 0x01, 0xff]).map (tryFromAny (intBer 1)) =
        some (.error (.error (.unexpectedTag none 1)))) ∧
    ((any [0x87, 0x01, 0x61]).map (anyInto refStrBer) = some (.ok ['a']) ∧
      (any [0x87, 0x01, 0x61]).map (tryFromAny refStrBer) =
        some (.error (.error (.unexpectedTag none 7)))) := by decide +kernel

/-- Cases for the theorems of C85: a type with a conversion, a value that comes back. -/
example : Convertible boolBer 1 ∧ UniversalValue boolC true ∧
    ∀ n, boolC.enc.contentLen true = .definite n → n < 2 ^ 64 :=
  ⟨.universal (c := boolC) .bool, .bool, fun n h => by injection h with h; subst h; decide⟩

/-- **C85** `relative_oid` and `as_relative_oid`: exactly the objects with the tag number of RELATIVE-OID,
with their content as the octets. -/
theorem C85_relative_oid (a : Any) (o : Oid) :
    anyRelativeOid a = .ok o ↔ a.header.tag = 13 ∧ o = ⟨a.data.data, true⟩ := by
  unfold anyRelativeOid assertTagS tagAssertEq tagRelativeOid
  by_cases h : a.header.tag = 13
  · simp [h, Bind.bind, Except.bind, pure, Except.pure, eq_comm]
  · simp [h, Bind.bind, Except.bind]

/-- **C85** On a primitive object, `relative_oid` agrees with `Oid::from_ber_relative` on its bytes. -/
theorem C85_relative_oid_from_ber (bs rem : Bytes) (o : Oid) :
    Oid.fromBerRelative bs = .ok (rem, o) ↔ ∃ r a, parseBerAny (Input.fromSlice bs) = .ok (r, a) ∧
      r.data = rem ∧ a.header.constructed = false ∧ anyRelativeOid a = .ok o := by
  unfold Oid.fromBerRelative
  constructor
  · intro h
    obtain ⟨⟨r, a⟩, h1, h2⟩ := bindS_eq_ok.mp h
    obtain ⟨_, h3, h4⟩ := bindS_eq_ok.mp h2
    obtain ⟨_, h5, h6⟩ := bindS_eq_ok.mp h4
    obtain ⟨r', h7, h8⟩ := wrapBerParser_ok.mp h1
    injection h6 with h6
    injection h6 with h6 h9
    subst h6 h9
    refine ⟨r', a, h7, h8, ?_, ?_⟩
    · unfold assertPrimitiveS at h3
      cases hc : a.header.constructed
      · rfl
      · rw [hc] at h3; cases h3
    · unfold anyRelativeOid
      rw [h5]; rfl
  · rintro ⟨r, a, h1, h2, h3, h4⟩
    refine bindS_eq_ok.mpr ⟨(rem, a), wrapBerParser_ok.mpr ⟨r, h1, h2⟩, ?_⟩
    refine bindS_eq_ok.mpr ⟨(), by unfold assertPrimitiveS; rw [h3]; rfl, ?_⟩
    unfold anyRelativeOid at h4
    obtain ⟨u, h5, h6⟩ := bindS_eq_ok.mp h4
    refine bindS_eq_ok.mpr ⟨u, h5, ?_⟩
    injection h6 with h6
    subst h6
    rfl

/-- **C85** Deviation: `relative_oid` takes the content of a constructed object, and of an empty one. -/
theorem C85_relative_oid_deviation :
    let any := fun bs => (parseBerAny (Input.fromSlice bs)).toOption.map (·.2)
    (any [0x2d, 0x03, 0x0d, 0x01, 0x05]).map anyRelativeOid = some (.ok ⟨[0x0d, 0x01, 0x05], true⟩) ∧
    (any [0x0d, 0x00]).map anyRelativeOid = some (.ok ⟨[], true⟩) := by decide +kernel

/-! ### C86: optional conversions -/

/-- **C86** `as_optional` returns a value exactly when `try_from` does, and the same. -/
theorem C86_as_optional_some (f : Any → Except SErr α) (a : Any) (v : α) :
    anyOptional f a = .ok (some v) ↔ f a = .ok v := by
  unfold anyOptional
  split
  · next h => rw [h]; simp
  · next h => rw [h]; simp
  · next h => rw [h]; simp

theorem anyOptional_none {f : Any → Except SErr α} {a : Any} :
    anyOptional f a = .ok none ↔ ∃ o t, f a = .error (.error (.unexpectedTag o t)) := by
  unfold anyOptional
  split
  · next h => rw [h]; simp
  · next h => rw [h]; simp
  · next e h1 h =>
    rw [h]
    simp only [reduceCtorEq, Except.error.injEq, false_iff, not_exists]
    exact fun o t h => h1 o t h

theorem quiet_real (lib : FloatLib) (h : Header) (i : Input) : Quiet ((realP lib).content h i) := by
  refine (quiet_assertPrimitive h i).bind fun _ _ => Quiet.bind ?_ fun _ _ =>
    (quiet_takeFrom _ _).bind fun _ _ => quiet_ok _
  have hof : ∀ f, Quiet (realOfF64 f) := by
    intro f
    unfold realOfF64
    split
    · exact quiet_ok _
    · exact quiet_diverge
  have hmul : ∀ a b, Quiet (mulI32 a b) := by
    intro a b
    unfold mulI32
    split
    · exact quiet_ok _
    · exact quiet_panic
  unfold decodeReal
  split
  · exact quiet_ok _
  · split
    · unfold decodeRealBinary
      refine Quiet.bind ?_ fun x _ => ?_
      · unfold realExpLen
        split
        · split
          · exact quiet_nomErr (by simp)
          · exact quiet_ok _
        · exact quiet_ok _
      · simp only
        split
        · exact quiet_nomErr (by simp)
        · refine Quiet.bind ?_ fun e _ => Quiet.bind ?_ fun y _ => Quiet.bind ?_ fun _ _ => quiet_ok _
          · unfold realExponent
            split
            · exact quiet_panic
            · split
              · exact quiet_nomErr (by simp)
              · exact quiet_ok _
          · unfold realBase
            split
            · exact quiet_ok _
            · split
              · intro j o t; have := hmul e 3 j o t
                cases hm : mulI32 e 3 <;> simp_all [Except.map]
              · split
                · intro j o t; have := hmul e 4 j o t
                  cases hm : mulI32 e 4 <;> simp_all [Except.map]
                · exact quiet_nomErr (by simp)
          · unfold realMantissa
            split
            · exact quiet_nomErr (by simp)
            · simp only
              split
              · split
                · exact quiet_panic
                · exact quiet_ok _
              · exact quiet_ok _
    · split
      · unfold decodeRealSpecial
        split
        · exact quiet_nomErr (by simp)
        · split
          · exact quiet_ok _
          · split
            · exact quiet_ok _
            · split
              · exact quiet_ok _
              · exact quiet_nomErr (by simp)
      · unfold decodeRealDecimal
        split
        · exact quiet_nomErr (by simp)
        · split
          · split
            · exact quiet_nomErr (by simp)
            · exact hof _
          · split
            · split
              · exact quiet_nomErr (by simp)
              · exact hof _
            · exact quiet_nomErr (by simp)

theorem quiet_boolean (h : Header) (i : Input) : Quiet (booleanBer.content h i) := by
  show Quiet (booleanContent h i)
  refine (quiet_assertPrimitive h i).bind fun _ _ => ?_
  split
  · exact quiet_nomErr (by simp)
  · exact quiet_beU8 _

theorem quiet_map {β : Type} {p : Parser α} {f : α → β} (hp : ∀ h i, Quiet (p.content h i)) (h : Header)
    (i : Input) : Quiet ((p.map f).content h i) := by
  unfold Parser.map
  simp only
  split
  · exact quiet_ok _
  · next e he =>
    intro j o t hh
    injection hh with hh
    subst hh
    exact hp h i j o t he

theorem quiet_leaf {p : Parser α} (hp : Leaf p) (h : Header) (i : Input) : Quiet (p.content h i) := by
  have hraw : ∀ tag, Quiet ((rawP tag).content h i) := fun tag =>
    (quiet_assertConstructed h i).bind fun _ _ => (quiet_takeSplit _ _).bind fun _ _ => quiet_ok _
  cases hp with
  | universal hc => exact quiet_universal hc h i
  | boolean => exact quiet_boolean h i
  | real lib => exact quiet_real lib h i
  | f64 lib => exact quiet_map (quiet_real lib) h i
  | f32 lib => exact quiet_map (quiet_real lib) h i
  | sequence => exact hraw 16
  | set => exact hraw 17
  | endOfContent =>
    show Quiet (if _ then _ else _)
    split
    · exact quiet_nomErr (by simp)
    · exact quiet_ok _

/-- **C86** For a type whose content is not made of further typed objects: `None` exactly for the objects with a
tag that the type does not accept; an object of the right tag with a wrong content is an error. It is not so
for containers (`C86_nested_deviation`). -/
theorem C86_as_optional_none {p : Parser α} (hp : Leaf p) (a : Any) :
    (anyOptional (tryFromAny p) a = .ok none ↔ p.acceptTag a.header.tag = false) ∧
    (∀ e, anyOptional (tryFromAny p) a = .error e ↔
      p.acceptTag a.header.tag = true ∧ tryFromAny p a = .error e) := by
  have hq := quiet_leaf hp a.header a.data
  have hne : p.acceptTag a.header.tag = true → ∀ o t,
      tryFromAny p a ≠ .error (.error (.unexpectedTag o t)) := by
    intro h o t
    unfold tryFromAny
    rw [h]
    cases hr : p.content a.header a.data with
    | ok x => simp
    | error e =>
      rw [hr] at hq
      cases e with
      | error j e =>
        have := hq j o t
        cases e <;> simp_all [SErr.fromNomBerr, Error.ofInner]
      | _ => simp [SErr.fromNomBerr]
  have hno : p.acceptTag a.header.tag = false →
      tryFromAny p a = .error (.error (.unexpectedTag none a.header.tag)) := by
    intro h
    unfold tryFromAny
    rw [h]; rfl
  cases hacc : p.acceptTag a.header.tag with
  | false =>
    refine ⟨⟨fun _ => rfl, fun _ => anyOptional_none.mpr ⟨_, _, hno hacc⟩⟩, fun e => ?_⟩
    rw [anyOptional_none.mpr ⟨_, _, hno hacc⟩]
    simp
  | true =>
    constructor
    · rw [anyOptional_none]
      constructor
      · rintro ⟨o, t, h⟩; exact absurd h (hne hacc o t)
      · intro h; cases h
    · intro e
      have := hne hacc
      unfold anyOptional
      split
      · next h => rw [h]; simp
      · next o t h => exact absurd h (this o t)
      · next h => rw [h]; simp

/-- Cases: an INTEGER as an optional `u8`: there, too large, another type. -/
example :
    let any := fun bs => (parseBerAny (Input.fromSlice bs)).toOption.map (·.2)
    (any [0x02, 0x01, 0x05]).map (anyOptional (tryFromAny (uintC 1).ber)) = some (.ok (some 5)) ∧
    (any [0x02, 0x02, 0x01, 0x05]).map (anyOptional (tryFromAny (uintC 1).ber)) =
      some (.error (.error .integerTooLarge)) ∧
    (any [0x05, 0x00]).map (anyOptional (tryFromAny (uintC 1).ber)) = some (.ok none) := by decide +kernel

/-- **C86** Deviation: for a type that contains others, `None` is also the answer when the tag is right and
an object inside has an unexpected one: `SEQUENCE { INTEGER }` as an optional `Vec<bool>`. -/
theorem C86_nested_deviation :
    let any := fun bs => (parseBerAny (Input.fromSlice bs)).toOption.map (·.2)
    (any [0x30, 0x03, 0x02, 0x01, 0x05]).map (anyOptional (seqTryFrom 16 (fromBer boolBer))) =
      some (.ok none) ∧
    (any [0x30, 0x03, 0x02, 0x01, 0x05]).map (seqTryFrom 16 (fromBer boolBer)) =
      some (.error (.error (.unexpectedTag none 2))) := by decide +kernel

/-! ### C87: the elements of an object -/

/-- **C87** `iter_elements` in either mode goes over the objects of the content, one after the other, up to its
end; in DER mode too these are the BER objects, among them the DER objects. -/
theorem C87_iter_elements (a : Any) (e : Input) (as : List Any) :
    (∀ der, (anyIterElements der a).1.tryCollect (anyIterElements der a).2 = .ok (e, as) ↔
      Objs anyBer.parseBer (fun _ => false) a.data as e) ∧
    (Objs anyDer.parseDer (fun _ => false) a.data as e →
      (anyIterElements true a).1.tryCollect (anyIterElements true a).2 = .ok (e, as)) := by
  refine ⟨fun _ => C37_try_collect _ (.inl rfl) _ _ _, fun h => (C37_try_collect _ (.inl rfl) _ _ _).mpr ?_⟩
  have key : ∀ {i as e}, Objs anyDer.parseDer (fun _ => false) i as e →
      Objs anyBer.parseBer (fun _ => false) i as e := by
    intro i as e h
    induction h with
    | nil h => exact .nil h
    | stop _ _ h => simp at h
    | cons h hp hs _ ih =>
      refine .cons h ?_ hs ih
      rw [anyDer_parseDer] at hp
      rw [anyBer_parseBer]
      exact C11_der_subset_ber_any _ _ _ hp
  exact key h

/-- **C87** Deviation: `iter_elements::<DerMode>` yields objects of indefinite length, which the DER
iterator refuses. -/
theorem C87_mode_deviation :
    let any := fun bs => (parseBerAny (Input.fromSlice bs)).toOption.map (·.2)
    let bs : Bytes := [0x30, 0x04, 0x30, 0x80, 0x00, 0x00]
    ((any bs).map fun a => ((anyIterElements true a).1.tryCollect (anyIterElements true a).2).isOk) =
      some true ∧
    ((any bs).map fun a => ((AnyIter.new a.data).tryCollect anyDer.parseDer).isOk) = some false := by
  decide +kernel

/-- **C87** `parse_content_ber` and `parse_content_der` give the function (`T::from_ber` or `T::from_der`) the
bytes of the content of the object, all of them and no others. -/
theorem C87_parse_content (f : Bytes → Except SErr (Bytes × α)) {i : Input} {c : Class} {p : Bool} {tag : Nat}
    {id len cs rest : Bytes} (hi : Ident c p tag id) (hl : Len p (.definite cs.length) len)
    (hd : i.data = id ++ len ++ (cs ++ rest)) :
    ∃ r a, parseBerAny i = .ok (r, a) ∧ parseDerAny i = .ok (r, a) ∧ r.data = rest ∧
      anyParseContent f a = f cs := by
  have e1 : parseHeader i = .ok (after i (id.length + len.length),
      ⟨c, p, tag, .definite cs.length, some id, some (first i (id.length + len.length))⟩) :=
    parseHeader_ok.mpr ⟨id, len, hi, hl, by simp [hd], rfl, rfl, rfl⟩
  have e2 : (after i (id.length + len.length)).data = cs ++ rest := by
    rw [after_data, hd, ← List.length_append, List.drop_left]
  have e3 : parseDerAny i = .ok (after (after i (id.length + len.length)) cs.length,
      ⟨⟨c, p, tag, .definite cs.length, some id, some (first i (id.length + len.length))⟩,
        first (after i (id.length + len.length)) cs.length⟩) :=
    parseDerAny_ok.mpr ⟨_, _, e1, rfl, by rw [e2]; simp, rfl, rfl⟩
  refine ⟨_, _, C11_der_subset_ber_any _ _ _ e3, e3, ?_, ?_⟩
  · rw [after_data, e2, List.drop_left]
  · show f (List.take _ (after i _).data) = f cs
    rw [e2, List.take_left]

/-- `[3] { INTEGER 5, INTEGER 6 }`: the content read as `u8` is the 5, the other integer is left. -/
example : ((parseBerAny (Input.fromSlice [0xa3, 0x06, 0x02, 0x01, 0x05, 0x02, 0x01, 0x06])).toOption.map fun x =>
    anyParseContent (fromBer (uintBer 1)) x.2) = some (.ok ([0x02, 0x01, 0x06], 5)) ∧
    Ident .contextSpecific true 3 [0xa3] ∧ Len true (.definite 6) [0x06] :=
  ⟨by decide +kernel, .low _ (by decide) (by decide), .short _ (by decide) (by decide)⟩

/-! ### C88: header, then content -/

/-- **C88** `Header::parse_der` followed by `parse_der_content` reads exactly the objects that `Any::parse_der`
reads, with the same content and the same rest. -/
theorem C88_split_der (i r : Input) (a : Any) :
    parseDerAny i = .ok (r, a) ↔
      ∃ r1, parseHeaderDer i = .ok (r1, a.header) ∧ headerDerContent a.header r1 = .ok (r, a.data) := by
  rw [parseDerAny_eq]
  constructor
  · intro h
    obtain ⟨⟨r1, hd⟩, h1, h2⟩ := bind_eq_ok.mp h
    obtain ⟨⟨r2, d⟩, h3, h4⟩ := bind_eq_ok.mp h2
    injection h4 with h4
    injection h4 with h4 h5
    subst h4 h5
    refine ⟨r1, h1, ?_⟩
    unfold headerDerContent
    rw [(parseHeaderDer_ok.mp h1).2]
    exact h3
  · rintro ⟨r1, h1, h2⟩
    refine bind_eq_ok.mpr ⟨_, h1, bind_eq_ok.mpr ⟨(r, a.data), ?_, rfl⟩⟩
    unfold headerDerContent at h2
    rw [(parseHeaderDer_ok.mp h1).2] at h2
    exact h2

/-- **C88** `Header::parse_ber` followed by `parse_ber_content` only reads what `Any::parse_ber` reads,
with the same content and rest; it reads every object of definite length, and the objects of indefinite
length with at most six further levels of indefinite length inside, and no deeper ones
(`C88_depth_deviation`). -/
theorem C88_split_ber (i r1 : Input) (h : Header) (hp : parseHeader i = .ok (r1, h)) (r d : Input) :
    (headerBerContent h r1 = .ok (r, d) → parseBerAny i = .ok (r, ⟨h, d⟩)) ∧
    (h.length ≠ .indefinite → parseBerAny i = .ok (r, ⟨h, d⟩) → headerBerContent h r1 = .ok (r, d)) ∧
    (h.length = .indefinite → (headerBerContent h r1 = .ok (r, d) ↔
      h.constructed = true ∧ IndefiniteContent 6 r1 r d)) := by
  unfold headerBerContent
  cases hl : h.length with
  | definite n =>
    have e : ∀ k, (berContent h r1 (k + 1) = .ok (r, d) ↔
        n ≤ r1.data.length ∧ r = after r1 n ∧ d = first r1 n) := by
      intro k
      rw [berContent_ok, hl]
    refine ⟨fun hh => parseBerAny_ok.mpr ⟨r1, hp, (e 49).mpr ((e 7).mp hh)⟩, fun _ hh => ?_, by simp⟩
    obtain ⟨r1', h1, h2⟩ := parseBerAny_ok.mp hh
    rw [hp] at h1
    injection h1 with h1
    injection h1 with h1
    subst h1
    exact (e 7).mpr ((e 49).mp h2)
  | indefinite =>
    have e : ∀ k, (berContent h r1 (k + 2) = .ok (r, d) ↔
        h.constructed = true ∧ IndefiniteContent k r1 r d) := by
      intro k
      rw [berContent_ok, hl]
      simp only [Nat.zero_lt_succ, true_and, Nat.add_sub_cancel]
      exact Iff.rfl
    refine ⟨fun hh => parseBerAny_ok.mpr ⟨r1, hp, (e 48).mpr ?_⟩, by simp, fun _ => e 6⟩
    obtain ⟨h1, items, eoc, ⟨h2, h3⟩, h4⟩ := (e 6).mp hh
    exact ⟨h1, items, eoc, ⟨fun it hit => ⟨elem_mono (by omega) (h2 it hit).1, (h2 it hit).2⟩, h3⟩, h4⟩

/-- A case for C88: an object of indefinite length around another one. -/
example :
    (parseHeader (Input.fromSlice [0x30, 0x80, 0x30, 0x80, 0x00, 0x00, 0x00, 0x00, 0x05])).toOption.map
      (fun x => (headerBerContent x.2 x.1).toOption.map fun y => (y.1.data, y.2.data)) =
      some (some ([0x05], [0x30, 0x80, 0x00, 0x00])) := by decide +kernel

/-- **C88** Deviation: eight nested objects of indefinite length are refused by `parse_ber_content`, though
`Any::parse_ber` takes up to forty-nine. -/
theorem C88_depth_deviation (k : Nat) (hk : 8 ≤ k + 1) (hk' : k + 1 < 50) (i : Input) (rest : Bytes)
    (hd : i.data = nest (k + 1) ++ rest) :
    (∃ r a, parseBerAny i = .ok (r, a) ∧ r.data = rest ∧ a.data.data = nest k) ∧
    ∃ r1 h j, parseHeader i = .ok (r1, h) ∧ headerBerContent h r1 = .error (.error j .berMaxDepth) := by
  have h0 := C09_nesting_limit k i rest hd
  rw [if_pos hk'] at h0
  obtain ⟨r, a, h1, h2, h3, _⟩ := h0
  refine ⟨⟨r, a, h1, h2, h3⟩, ?_⟩
  have hd' : i.data = [0x30, 0x80] ++ (nest k ++ [0, 0] ++ rest) := by rw [hd]; simp [nest]
  have hs := skip_nest 8 k (after i 2) rest ⟨.universal, true, 16, .indefinite, some [0x30],
    some (first i 2)⟩ rfl rfl (by simp [hd'])
  rw [if_neg (by omega)] at hs
  obtain ⟨j, hj⟩ := hs
  refine ⟨_, _, j, parseHeader_3080 i _ hd', ?_⟩
  unfold headerBerContent
  rw [berContent_eq, hj]
  rfl

/-- A case: nine nested sequences. -/
example : (Input.fromSlice (nest 9 ++ [7])).data = nest (8 + 1) ++ [7] := rfl

end Asn1

import Verif.Props.TaggedMore
/-!
# Optional values (C35)
-/
namespace Asn1
open Spec Wr

variable {α : Type}

/-- The result of a plain decoder, as a present value. -/
def present {ι ε : Type} (x : Except ε (ι × α)) : Except ε (ι × Option α) :=
  match x with
  | .ok (r, v) => .ok (r, some v)
  | .error e => .error e

theorem present_ok {ι ε : Type} {x : Except ε (ι × α)} {r : ι} {v : α} :
    present x = .ok (r, some v) ↔ x = .ok (r, v) := by
  unfold present
  split <;> simp

theorem berContent_takeS {h : Header} {n : Nat} (hl : h.length = .definite n) (i : Input) :
    berContent h i MAX_RECURSION = takeS n i := by
  rw [berContent_eq, show MAX_RECURSION = 49 + 1 from rfl, skipContent_def hl, takeS_eq]
  rw [hl]
  simp only [Length.isDefinite, if_true, Nat.sub_zero]
  by_cases hc : n = 0 ∧ h.tag = tagEndOfContent
  · rw [if_pos hc, hc.1]; simp
  · rw [if_neg hc]
    by_cases hn : n ≤ i.data.length
    · rw [if_pos hn]; simp
    · rw [if_neg hn]; rfl

/-- **C35** `parse_ber_optional` and `parse_der_optional`: nothing at the end of the input or
before an object with a tag the type does not accept (without consuming anything), the same as the
plain decoder otherwise, errors included. -/
theorem C35_parse_optional (p : Parser α) (i : Input) :
    (i.data = [] → p.parseBerOptional i = .ok (i, none) ∧ p.parseDerOptional i = .ok (i, none)) ∧
    (i.data ≠ [] → (∀ r h, parseHeader i = .ok (r, h) →
        (p.acceptTag h.tag = false → p.parseBerOptional i = .ok (i, none)) ∧
        (p.acceptTag h.tag = true → p.parseBerOptional i = present (p.parseBer i))) ∧
      (∀ e, parseHeader i = .error e → p.parseBerOptional i = .error e)) ∧
    (i.data ≠ [] → (∀ r h, parseHeaderDer i = .ok (r, h) →
        (p.acceptTag h.tag = false → p.parseDerOptional i = .ok (i, none)) ∧
        (p.acceptTag h.tag = true → p.parseDerOptional i = present (p.parseDer i))) ∧
      (∀ e, parseHeaderDer i = .error e → p.parseDerOptional i = .error e)) := by
  refine ⟨fun h => ⟨?_, ?_⟩, fun hne => ⟨fun r h hp => ⟨fun ha => ?_, fun ha => ?_⟩, fun e he => ?_⟩,
    fun hne => ⟨fun r h hp => ⟨fun ha => ?_, fun ha => ?_⟩, fun e he => ?_⟩⟩
  · simp [Parser.parseBerOptional, Input.len, h]
  · simp [Parser.parseDerOptional, Input.len, h]
  · unfold Parser.parseBerOptional
    rw [if_neg (by simpa [Input.len] using hne), hp]
    simp [ha]
  · unfold Parser.parseBerOptional Parser.parseBer
    rw [if_neg (by simpa [Input.len] using hne), hp]
    simp only [bind_ok, ha, Bool.not_true, Bool.false_eq_true, if_false]
    cases berContent h r MAX_RECURSION with
    | error e => rfl
    | ok x =>
      simp only [bind_ok]
      cases p.content h x.2 with
      | error e => rfl
      | ok y => rfl
  · unfold Parser.parseBerOptional
    rw [if_neg (by simpa [Input.len] using hne), he]; rfl
  · unfold Parser.parseDerOptional
    rw [if_neg (by simpa [Input.len] using hne), hp]
    simp [ha]
  · unfold Parser.parseDerOptional Parser.parseDer
    rw [if_neg (by simpa [Input.len] using hne), hp]
    simp only [bind_ok, ha, Bool.not_true, Bool.false_eq_true, if_false]
    cases definiteInner h.length i with
    | error e => rfl
    | ok n =>
      simp only [bind_ok]
      cases takeS n r with
      | error e => rfl
      | ok x =>
        simp only [bind_ok]
        cases p.content h x.2 with
        | error e => rfl
        | ok y => rfl
  · unfold Parser.parseDerOptional
    rw [if_neg (by simpa [Input.len] using hne), he]; rfl

/-- **C35** `Option::from_ber` and `Option::from_der`: None on empty bytes and before an object
with a tag the type does not accept; the plain decoder otherwise. -/
theorem C35_option_from (acceptTag : Nat → Bool) (header : Input → PRes Header)
    (from_ : Bytes → Except SErr (Bytes × α)) (bytes : Bytes) :
    (bytes = [] → optionFrom acceptTag header from_ bytes = .ok (bytes, none)) ∧
    (bytes ≠ [] →
      (∀ r h, header (Input.fromSlice bytes) = .ok (r, h) → acceptTag h.tag = false →
        optionFrom acceptTag header from_ bytes = .ok (bytes, none)) ∧
      (∀ r h, header (Input.fromSlice bytes) = .ok (r, h) → acceptTag h.tag = true →
        optionFrom acceptTag header from_ bytes = present (from_ bytes)) ∧
      (∀ e, header (Input.fromSlice bytes) = .error e →
        optionFrom acceptTag header from_ bytes = present (from_ bytes))) := by
  refine ⟨?_, fun hne => ⟨fun r h hp ha => ?_, fun r h hp ha => ?_, fun e he => ?_⟩⟩
  · rintro rfl; rfl
  · unfold optionFrom wrapBerParser
    rw [if_neg (by simpa using hne), hp]
    simp [ha]
  · unfold optionFrom wrapBerParser
    rw [if_neg (by simpa using hne), hp]
    simp only [ha, Bool.not_true, Bool.false_eq_true, if_false]
    cases from_ bytes <;> rfl
  · unfold optionFrom wrapBerParser
    rw [if_neg (by simpa using hne), he]
    simp only [Bool.false_eq_true, if_false]
    cases from_ bytes <;> rfl

/-- A case: another tag is left in place. -/
example : optionFrom (tagIs 2) parseHeader (fromBer (uintBer 1)) [5, 0] = .ok ([5, 0], none) ∧
    optionFrom (tagIs 2) parseHeader (fromBer (uintBer 1)) [2, 1, 7, 5, 0] = .ok ([5, 0], some 7) := by decide +kernel

theorem optionParse_def (header : Input → PRes Header) (p : Parser α) {i r : Input} {h : Header}
    {n : Nat} (hne : i.data ≠ []) (hp : header i = .ok (r, h)) (ha : p.acceptTag h.tag = true)
    (hl : h.length = .definite n) :
    optionParse header p i = present (takeS n r >>= fun x => p.content h x.2 >>= fun y =>
      (.ok (x.1, y.2) : PRes α)) := by
  unfold optionParse
  rw [if_neg (by simpa [Input.isEmpty] using hne), hp]
  simp only [bind_ok, ha, Bool.not_true, Bool.false_eq_true, if_false, berContent_takeS hl]
  rw [takeS_eq]
  by_cases hn : n ≤ r.data.length
  · rw [if_pos hn]
    simp only [bind_ok]
    unfold optionContent
    simp only [ha, Bool.not_true, Bool.false_eq_true, if_false, berContent_takeS hl]
    have hlen : (first r n).data.length = n := by rw [first_data, List.length_take]; omega
    have hfirst : takeS n (first r n) = .ok (after (first r n) n, first r n) := by
      rw [takeS_eq, if_pos (by omega)]
      have := first_all (first r n)
      rw [hlen] at this
      have h2 : first (first r n) n = first r n := by
        unfold first at this ⊢
        simpa using this
      rw [h2]
    rw [hfirst]
    simp only [bind_ok]
    cases p.content h (first r n) with
    | error e => rfl
    | ok y => rfl
  · rw [if_neg hn]; rfl

/-- **C35** (partial) `Option::parse_ber` and `Option::parse_der`: None on empty input and before an
object with a tag the type does not accept, without consuming anything; the same as the plain
decoder, errors included, on an object of definite length. Missing: objects of indefinite length,
which `Option::parse_ber` always refuses (`C35_indefinite_deviation`). -/
theorem C35_option_parse_partial (p : Parser α) (i : Input) :
    (i.data = [] → optionParse parseHeader p i = .ok (i, none) ∧
      optionParse parseHeaderDer p i = .ok (i, none)) ∧
    (i.data ≠ [] → (∀ r h, parseHeader i = .ok (r, h) →
        (p.acceptTag h.tag = false → optionParse parseHeader p i = .ok (i, none)) ∧
        (p.acceptTag h.tag = true → h.length ≠ .indefinite →
          optionParse parseHeader p i = present (p.parseBer i))) ∧
      (∀ e, parseHeader i = .error e → optionParse parseHeader p i = .error e)) ∧
    (i.data ≠ [] → (∀ r h, parseHeaderDer i = .ok (r, h) →
        (p.acceptTag h.tag = false → optionParse parseHeaderDer p i = .ok (i, none)) ∧
        (p.acceptTag h.tag = true →
          optionParse parseHeaderDer p i = present (p.parseDer i))) ∧
      (∀ e, parseHeaderDer i = .error e → optionParse parseHeaderDer p i = .error e)) := by
  refine ⟨fun h => ⟨?_, ?_⟩, fun hne => ⟨fun r h hp => ⟨fun ha => ?_, fun ha hi => ?_⟩, fun e he => ?_⟩,
    fun hne => ⟨fun r h hp => ⟨fun ha => ?_, fun ha => ?_⟩, fun e he => ?_⟩⟩
  · simp [optionParse, Input.isEmpty, h]
  · simp [optionParse, Input.isEmpty, h]
  · unfold optionParse
    rw [if_neg (by simpa [Input.isEmpty] using hne), hp]
    simp [ha]
  · cases hl : h.length with
    | indefinite => exact absurd hl hi
    | definite n =>
      rw [optionParse_def parseHeader p hne hp ha hl]
      unfold Parser.parseBer
      rw [hp]
      simp only [bind_ok, ha, Bool.not_true, Bool.false_eq_true, if_false, berContent_takeS hl]
      rfl
  · unfold optionParse
    rw [if_neg (by simpa [Input.isEmpty] using hne), he]; rfl
  · unfold optionParse
    rw [if_neg (by simpa [Input.isEmpty] using hne), hp]
    simp [ha]
  · cases hl : h.length with
    | indefinite =>
      have := (parseHeaderDer_ok.mp hp).2
      rw [hl] at this
      simp [Length.isDefinite] at this
    | definite n =>
      rw [optionParse_def parseHeaderDer p hne hp ha hl]
      unfold Parser.parseDer
      rw [hp]
      simp only [bind_ok, ha, Bool.not_true, Bool.false_eq_true, if_false, hl, definiteInner]
      rfl
  · unfold optionParse
    rw [if_neg (by simpa [Input.isEmpty] using hne), he]; rfl

/-- Cases: no element, another element, the element. -/
example :
    optionParse parseHeader (uintBer 1) (Input.fromSlice []) = .ok (⟨[], 0, 0⟩, none) ∧
    optionParse parseHeader (uintBer 1) (Input.fromSlice [0x05, 0x00]) =
      .ok (⟨[0x05, 0x00], 0, 2⟩, none) ∧
    optionParse parseHeader (uintBer 1) (Input.fromSlice [0x02, 0x01, 0x07, 0x05, 0x00]) =
      .ok (⟨[0x05, 0x00], 3, 5⟩, some 7) ∧
    optionFrom (tagIs 2) parseHeaderDer (fromDer (uintBer 1) checkDerInt)
      [0x02, 0x01, 0x07, 0x05, 0x00] = .ok ([0x05, 0x00], some 7) ∧
    optionFrom (tagIs 2) parseHeaderDer (fromDer (uintBer 1) checkDerInt) [0x05, 0x00] =
      .ok ([0x05, 0x00], none) := by decide +kernel

/-- **C35** Deviation: `Option::parse_ber` refuses every object of indefinite length of an accepted
tag (it looks for the end marker of the object inside its content). -/
theorem C35_indefinite_deviation (p : Parser α) (i r : Input) (h : Header)
    (hne : i.data ≠ []) (hp : parseHeader i = .ok (r, h)) (ha : p.acceptTag h.tag = true)
    (hi : h.length = .indefinite) : (optionParse parseHeader p i).isOk = false := by
  refine notOk fun ⟨r', v⟩ hh => ?_
  unfold optionParse at hh
  rw [if_neg (by simpa [Input.isEmpty] using hne), hp] at hh
  simp only [bind_ok, ha, Bool.not_true, Bool.false_eq_true, if_false] at hh
  obtain ⟨⟨r1, data⟩, h1, h2⟩ := bind_eq_ok.mp hh
  obtain ⟨⟨r2, o⟩, h3, h4⟩ := bind_eq_ok.mp h2
  unfold optionContent at h3
  simp only [ha, Bool.not_true, Bool.false_eq_true, if_false] at h3
  obtain ⟨⟨r3, data'⟩, h5, -⟩ := bind_eq_ok.mp h3
  obtain ⟨e, k, g1, g2, g3, g4, g5⟩ := berContent_local (d := 49) h5
  have hb := h1
  rw [show MAX_RECURSION = 49 + 1 from rfl, berContent_ok, hi] at hb
  obtain ⟨_, _, items, eoc, q1, q2, q3, q4⟩ := hb
  have heoc : 2 ≤ eoc.length := by
    have : LaxEoc eoc := by
      clear q2 q3 q4
      induction q1 with
      | _ => assumption
    obtain ⟨c', p', id', len', e1, e2, e3⟩ := this
    rw [e3, List.length_append]
    cases e1 <;> cases e2 <;> simp <;> omega
  have hlen : data.data.length = items.flatten.length + eoc.length - 2 := by
    rw [q4, first_data, List.length_take, q2]
    simp only [List.length_append]; omega
  have hr : r.data = e ++ (r3.data ++ r.data.drop data.data.length) := by
    rw [← List.append_assoc, ← g2, q4, first_data, List.length_take, q2]
    rw [Nat.min_eq_left (by simp only [List.length_append]; omega)]
    exact (List.take_append_drop _ _).symm
  have hs := g5 h r _ rfl rfl hr
  rw [show (49 + 1 : Nat) = MAX_RECURSION from rfl, h1] at hs
  have hs : r1 = after r e.length := by
    have := congrArg (fun x => match x with | .ok (a, _) => a.start | .error _ => 0) hs
    simp only [Except.ok.injEq, Prod.mk.injEq] at hs
    exact hs.1
  rw [q3] at hs
  have := congrArg Input.start hs
  have he : e.length ≤ data.data.length := by rw [g2]; simp
  simp only [after] at this
  omega

/-- A case: a segmented OCTET STRING of indefinite length, which the plain decoder reads. -/
example : parseHeader (Input.fromSlice [0x24, 0x80, 0x04, 0x01, 0x61, 0x00, 0x00]) =
      .ok (⟨[0x04, 0x01, 0x61, 0x00, 0x00], 2, 7⟩, ⟨.universal, true, 4, .indefinite, some [0x24],
        some ⟨[0x24, 0x80], 0, 2⟩⟩) ∧
    (octetBer.parseBer (Input.fromSlice [0x24, 0x80, 0x04, 0x01, 0x61, 0x00, 0x00])).isOk = true ∧
    optionParse parseHeader octetBer
      (Input.fromSlice [0x24, 0x80, 0x04, 0x01, 0x61, 0x00, 0x00]) = .error (.incomplete 1) := by
  decide +kernel

/-! ### Encoding -/

/-- **C35** Encoding an absent value writes nothing; encoding a present value writes what the plain
encoder writes, and the optional decoders read it back as present. An absent value followed by the
end, or by an object with a tag that the type does not accept, is read back as absent. -/
theorem C35_option_roundtrip {c : Codec α} {v : α} (h : UniversalValue c v)
    (n : Nat) (hn : c.enc.contentLen v = .definite n) (hs : n < 2 ^ 64) :
    (optionEncode c.enc (none : Option α)).exec = ([], .ok 0) ∧
    (optionEncode c.enc (some v)).exec = (c.enc.encode v).exec ∧
    ∃ bs, c.enc.toVec v = .ok bs ∧ ∀ rest : Bytes,
      optionFrom c.ber.acceptTag parseHeader (fromBer c.ber) (bs ++ rest) = .ok (rest, some v) ∧
      optionFrom c.ber.acceptTag parseHeaderDer (fromDer c.ber c.check) (bs ++ rest) =
        .ok (rest, some v) ∧
      ∀ i : Input, i.data = bs ++ rest →
        optionParse parseHeader c.ber i = .ok (after i bs.length, some v) ∧
        optionParse parseHeaderDer c.der i = .ok (after i bs.length, some v) ∧
        c.ber.parseBerOptional i = .ok (after i bs.length, some v) ∧
        c.der.parseDerOptional i = .ok (after i bs.length, some v) := by
  obtain ⟨cs, hw, hl, ht⟩ := universal_works h
  rw [hl] at hn; injection hn with hn; subst hn
  obtain ⟨⟨bs, e1, k1⟩, ⟨bs2, e2, k2⟩, ⟨bs3, e3, k3⟩, ⟨bs4, e4, k4⟩⟩ := hw.back hs
  rw [e1] at e2 e3 e4
  injection e2 with e2; injection e3 with e3; injection e4 with e4
  subst e2; subst e3; subst e4
  refine ⟨rfl, rfl, bs, e1, fun rest => ?_⟩
  have hbs : bs = c.enc.fullOf v cs := by
    have := hw.enc.toVec hs
    rw [e1] at this; injection this
  have hdr : ∀ i : Input, i.data = bs ++ rest → i.data ≠ [] ∧ ∃ r hd, parseHeader i = .ok (r, hd) ∧
      parseHeaderDer i = .ok (r, hd) ∧ hd.tag = c.tag ∧ hd.length ≠ .indefinite := by
    intro i hi
    have hp := parseHeader_full i _ _ _ cs rest hw.enc.tag hs (by rw [hi, hbs]; rfl)
    refine ⟨?_, _, _, hp, parseHeaderDer_ok.mpr ⟨hp, rfl⟩, hw.tag, by simp⟩
    intro h0
    rw [parseHeader_ok] at hp
    obtain ⟨id, len, i1, i2, i3, _⟩ := hp
    rw [h0] at i3
    have : id = [] := by
      have := congrArg List.length i3
      simp at this
      exact List.length_eq_zero_iff.mp (by omega)
    subst this
    cases i1
  have A := hdr (Input.fromSlice (bs ++ rest)) rfl
  obtain ⟨hne, r, hd, p1, p2, p3, p4⟩ := A
  have hne' : bs ++ rest ≠ [] := hne
  refine ⟨?_, ?_, fun i hi => ?_⟩
  · rw [((C35_option_from _ parseHeader (fromBer c.ber) _).2 hne').2.1 _ _ p1 (by rw [p3]; exact hw.accB),
      k3 rest]; rfl
  · rw [((C35_option_from _ parseHeaderDer (fromDer c.ber c.check) _).2 hne').2.1 _ _ p2
      (by rw [p3]; exact hw.accB), k4 rest]; rfl
  · obtain ⟨hne, r, hd, p1, p2, p3, p4⟩ := hdr i hi
    obtain ⟨_, B1, B2⟩ := C35_option_parse_partial c.ber i
    obtain ⟨_, D1, D2⟩ := C35_option_parse_partial c.der i
    obtain ⟨_, E1, _⟩ := C35_parse_optional c.ber i
    obtain ⟨_, _, F2⟩ := C35_parse_optional c.der i
    refine ⟨?_, ?_, ?_, ?_⟩
    · rw [((B1 hne).1 _ _ p1).2 (by rw [p3]; exact hw.accB) p4, k1 rest i hi]; rfl
    · rw [((D2 hne).1 _ _ p2).2 (by rw [p3]; exact hw.accD), k2 rest i hi]; rfl
    · rw [((E1 hne).1 _ _ p1).2 (by rw [p3]; exact hw.accB), k1 rest i hi]; rfl
    · rw [((F2 hne).1 _ _ p2).2 (by rw [p3]; exact hw.accD), k2 rest i hi]; rfl

/-- A case. -/
example : UniversalValue (uintC 2) 300 ∧ (uintC 2).enc.contentLen 300 = .definite 2 :=
  ⟨.uint 2 (by decide) (by decide), by decide +kernel⟩

/-- **C35** Deviation: the dynamic tag of a present value never returns (its definition calls
itself), whatever number of calls is allowed, so no total length is computed; and the total length
announced for an absent value is 2 although nothing is written. -/
theorem C35_option_tag_diverges (t : ToBer α) (v : α) :
    (∀ fuel, optionTag fuel (some v) = none ∧ optionTotalLen t fuel (some v) = none) ∧
    (∀ fuel, optionTotalLen t (fuel + 1) (none : Option α) = some (.definite 2)) ∧
    (optionEncode t (none : Option α)).exec = ([], .ok 0) := by
  have h1 : ∀ fuel, optionTag fuel (some v) = none := by
    intro fuel
    induction fuel with
    | zero => rfl
    | succ n ih => simpa [optionTag] using ih
  refine ⟨fun fuel => ⟨h1 fuel, by simp [optionTotalLen, h1 fuel]⟩, fun fuel => ?_, rfl⟩
  simp only [optionTotalLen, optionTag, Option.isSome_none, Bool.false_eq_true, if_false,
    Option.map_some, optionContentLen]
  decide

/-- **C35** The content methods of an `Option`: for a value whose content octets are `cs`, the present
value announces and writes those content octets (without a header), and an absent one announces and
writes none. -/
theorem C35_option_content {t : ToBer α} {v : α} {cs : Bytes} (h : Encodes t v cs) :
    optionContentLen t (some v) = .definite cs.length ∧
    (optionWriteContent t (some v)).exec = (cs, .ok cs.length) ∧
    optionContentLen t none = .definite 0 ∧
    (optionWriteContent t none).exec = ([], .ok 0) :=
  ⟨h.len, h.content, rfl, rfl⟩

example : (optionWriteContent (uintToBer 2) (some 300)).exec = ([0x01, 0x2c], .ok 2) ∧
    optionContentLen (uintToBer 2) (some 300) = .definite 2 := by decide

end Asn1

import Verif.Props.DeriveWrite
/-!
# Derived CHOICE (C55)
-/
namespace Asn1
open Spec Wr

variable {α : Type} {m : Rules} {k : ChoiceKind}

theorem selects_iff {T : Type} {t tag : Nat} {p : Parser T} :
    variantAccept k t p tag = true ↔ Selects k t p tag := by
  cases k <;> simp [Selects, variantAccept]

theorem accept_of_reads {Ts : List Type} {vs : Variants Ts} {a : Any} {x : HSum Ts}
    (h : ReadsChoice m k vs a x) : vs.accept k a.header.tag = true := by
  induction vs with
  | nil => exact absurd h (by simp [ReadsChoice])
  | cons t p vs ih =>
    rw [Variants.accept, Bool.or_eq_true]
    cases x with
    | inl x => exact .inl (selects_iff.mpr h.1)
    | inr y => exact .inr (ih h.2)

theorem payload_ok {T : Type} {p : Parser T} {a : Any} {x : T}
    (hc : k = .explicit → a.header.constructed = true) :
    (∃ r, variantContent m k p a.header a.data = .ok (r, x)) ↔ ReadsPayload m k p a x := by
  cases k
  · exact ⟨fun h => ⟨hc rfl, h⟩, fun h => h.2⟩
  · exact Iff.rfl
  · exact Iff.rfl

theorem variants_content_ok {Ts : List Type} {vs : Variants Ts} {a : Any} {x : HSum Ts}
    (hc : k = .explicit → a.header.constructed = true) :
    (∃ r, vs.content m k a.header a.data = .ok (r, x)) ↔ ReadsChoice m k vs a x := by
  induction vs with
  | nil => simp [Variants.content, nomErr, ReadsChoice]
  | @cons T Ts t p vs ih =>
    by_cases hs : Selects k t p a.header.tag
    · have e : (Variants.cons t p vs).content m k a.header a.data =
          (variantContent m k p a.header a.data >>= fun y =>
            (.ok (y.1, (.inl y.2 : T ⊕ HSum Ts)) : PRes (HSum (T :: Ts)))) := by
        rw [Variants.content, if_pos (selects_iff.mpr hs)]; rfl
      rw [e]
      constructor
      · rintro ⟨r, h⟩
        obtain ⟨⟨r1, y⟩, h1, h2⟩ := bind_eq_ok.mp h
        cases h2
        exact ⟨hs, (payload_ok hc).mp ⟨r1, h1⟩⟩
      · intro h
        cases x with
        | inr y => exact absurd hs h.1
        | inl x =>
          obtain ⟨r, hr⟩ := (payload_ok hc).mpr h.2
          exact ⟨r, bind_eq_ok.mpr ⟨_, hr, rfl⟩⟩
    · have e : (Variants.cons t p vs).content m k a.header a.data =
          (vs.content m k a.header a.data >>= fun y =>
            (.ok (y.1, (.inr y.2 : T ⊕ HSum Ts)) : PRes (HSum (T :: Ts)))) := by
        rw [Variants.content, if_neg (fun g => hs (selects_iff.mp g))]; rfl
      rw [e]
      constructor
      · rintro ⟨r, h⟩
        obtain ⟨⟨r1, y⟩, h1, h2⟩ := bind_eq_ok.mp h
        cases h2
        exact ⟨hs, ih.mp ⟨r1, h1⟩⟩
      · intro h
        cases x with
        | inl x => exact absurd h.1 hs
        | inr y =>
          obtain ⟨r, hr⟩ := ih.mpr h.2
          exact ⟨r, bind_eq_ok.mpr ⟨_, hr, rfl⟩⟩

theorem choice_content_ok {Ts : List Type} {vs : Variants Ts} {a : Any} {x : HSum Ts} :
    (∃ z, (choiceP m k vs).content a.header a.data = .ok (z, x)) ↔ ReadsChoice m k vs a x := by
  cases hk : k with
  | explicit =>
    have e : (choiceP m .explicit vs).content a.header a.data =
        (a.header.assertConstructed a.data >>= fun _ => vs.content m .explicit a.header a.data) := rfl
    rw [e]
    constructor
    · rintro ⟨z, h⟩
      obtain ⟨_, h1, h2⟩ := bind_eq_ok.mp h
      exact (variants_content_ok fun _ => assertConstructed_ok.mp h1).mp ⟨z, h2⟩
    · intro h
      have hc : a.header.constructed = true := by
        clear e
        induction vs with
        | nil => exact absurd h (by simp [ReadsChoice])
        | cons t p vs ih =>
          cases x with
          | inl x => exact h.2.1
          | inr y => exact ih h.2
      obtain ⟨z, hz⟩ := (variants_content_ok fun _ => hc).mpr h
      exact ⟨z, bind_eq_ok.mpr ⟨(), assertConstructed_ok.mpr hc, hz⟩⟩
  | implicit => exact variants_content_ok (by simp)
  | untagged => exact variants_content_ok (by simp)

/-- **C55** Exactly what the decoders of a derived CHOICE accept: an object whose tag number selects a
variant, the first one that it selects, and which is read as the payload of that variant. (The class of the
object plays no role.) -/
theorem C55_choice_accepts {Ts : List Type} (m : Rules) (k : ChoiceKind) (vs : Variants Ts) (i r : Input)
    (x : HSum Ts) :
    m.parse (choiceP m k vs) i = .ok (r, x) ↔ ∃ a, m.any i = .ok (r, a) ∧ ReadsChoice m k vs a x := by
  rw [rules_parse_ok]
  constructor
  · rintro ⟨a, z, h1, _, h3⟩
    exact ⟨a, h1, choice_content_ok.mp ⟨z, h3⟩⟩
  · rintro ⟨a, h1, h2⟩
    obtain ⟨z, hz⟩ := choice_content_ok.mpr h2
    exact ⟨a, z, h1, accept_of_reads h2, hz⟩

/-- **C55** A variant is never read if an earlier one is selected by the tag number of the object: the
payloads of an untagged CHOICE must have different tags. -/
theorem C55_first_variant {T : Type} {Ts : List Type} (m : Rules) (k : ChoiceKind) (t : Nat) (p : Parser T)
    (vs : Variants Ts) (i r r' : Input) (a : Any) (y : HSum Ts) (ha : m.any i = .ok (r, a))
    (hs : Selects k t p a.header.tag) :
    m.parse (choiceP m k (.cons t p vs)) i ≠ .ok (r', .inr y) := by
  intro h
  obtain ⟨a', h1, h2⟩ := (C55_choice_accepts m k _ i r' _).mp h
  rw [ha] at h1
  simp only [Except.ok.injEq, Prod.mk.injEq] at h1
  rw [h1.2] at hs
  exact h2.1 hs

/-- A case: an INTEGER chooses the first variant. -/
example : Selects .untagged 0 (uintBer 4) 2 := rfl

theorem numbered_iff {cur : Nat} {attrs : List (Option Nat)} {acc tags : List Nat} (hacc : acc.Nodup) :
    choiceTags cur attrs acc = some tags ↔
      ∃ new, Numbered cur attrs new ∧ tags = acc ++ new ∧ (acc ++ new).Nodup := by
  induction attrs generalizing cur acc with
  | nil =>
    rw [choiceTags]
    constructor
    · intro h
      exact ⟨[], .nil, by simpa using h.symm, by simpa using hacc⟩
    · rintro ⟨new, h1, h2, h3⟩
      cases h1
      simp [h2]
  | cons at0 attrs ih =>
    have hnum : ∀ new, Numbered cur (at0 :: attrs) new ↔
        ∃ new', new = at0.getD cur :: new' ∧ Numbered (at0.getD cur + 1) attrs new' := by
      intro new
      constructor
      · intro h
        cases h with
        | auto h => exact ⟨_, rfl, h⟩
        | given h => exact ⟨_, rfl, h⟩
      · rintro ⟨new', rfl, h⟩
        cases at0 with
        | none => exact .auto h
        | some n => exact .given h
    rw [choiceTags]
    by_cases hc : acc.contains (at0.getD cur) = true
    · rw [if_pos hc]
      constructor
      · intro h; simp at h
      · rintro ⟨new, h1, h2, h3⟩
        obtain ⟨new', rfl, h4⟩ := (hnum new).mp h1
        exfalso
        rw [List.nodup_append] at h3
        exact h3.2.2 _ (by simpa using hc) _ List.mem_cons_self rfl
    · rw [if_neg hc]
      have hnd : (acc ++ [at0.getD cur]).Nodup := by
        rw [List.nodup_append]
        refine ⟨hacc, by simp, ?_⟩
        intro x hx y hy hxy
        simp only [List.mem_singleton] at hy
        rw [hxy, hy] at hx
        exact hc (by simpa using hx)
      rw [ih hnd]
      constructor
      · rintro ⟨new', h1, h2, h3⟩
        exact ⟨_, (hnum _).mpr ⟨new', rfl, h1⟩, by simpa using h2, by simpa using h3⟩
      · rintro ⟨new, h1, h2, h3⟩
        obtain ⟨new', rfl, h4⟩ := (hnum new).mp h1
        exact ⟨new', h4, by simpa using h2, by simpa using h3⟩

/-- **C55** The tags that the macro gives to the variants: the given one, or one more than the one before,
from 0; a type with the same tag twice is refused. -/
theorem C55_tags (attrs : List (Option Nat)) (tags : List Nat) :
    choiceTags 0 attrs [] = some tags ↔ Numbered 0 attrs tags ∧ tags.Nodup := by
  rw [numbered_iff List.nodup_nil]
  constructor
  · rintro ⟨new, h1, rfl, h3⟩
    exact ⟨by simpa using h1, h3⟩
  · rintro ⟨h1, h2⟩
    exact ⟨tags, h1, by simp, by simpa using h2⟩

theorem payload_back {T U : Type} {n g : Nat} {dyn : T → Class × Bool × Nat} {t : ToBer T} {p : Parser U}
    {x : T} {y : U} {Ts Us : List Type} {es : EncVariants Ts} {vs : Variants Us}
    (h : PayloadBack m n dyn t p x y k g) :
    ∃ cs, Encodes (choiceToBer k (.cons n dyn t es)) (.inl x) cs ∧ cs.length < 2 ^ 64 ∧
      ((choiceToBer k (.cons n dyn t es)).tagInfo (.inl x)).2.2 = g ∧
      ∀ a : Any, a.header.constructed = ((choiceToBer k (.cons n dyn t es)).tagInfo (.inl x)).2.1 →
        a.header.tag = g → a.header.length = .definite cs.length → a.data.data = cs →
        ReadsChoice m k (.cons n p vs) a (.inl y) := by
  have e24 : (2 : Nat) ^ 24 = 16777216 := by decide
  have e64 : (2 : Nat) ^ 64 = 18446744073709551616 := by decide
  cases h with
  | explicit hn hf hb =>
    obtain ⟨hd, cs, h1, h2, h3, h4, h5, h6, h7⟩ := fits_total hf
    refine ⟨hd ++ cs, ⟨h5, h6, hn, rfl⟩, by omega, rfl, ?_⟩
    intro a a1 a2 a3 a4
    obtain ⟨bs', k1, k2⟩ := hb
    have : bs' = hd ++ cs := by
      unfold ToBer.toVec at k1
      rw [h5] at k1
      exact (Except.ok.inj k1).symm
    rw [this] at k2
    exact ⟨a2, a1, _, k2 [] a.data (by rw [a4]; simp)⟩
  | implicit hn hw hl hs hb =>
    rename_i cs
    refine ⟨cs, ⟨hw, hl, hn, rfl⟩, hs, rfl, ?_⟩
    intro a a1 a2 a3 a4
    exact ⟨a2, hb a.header a.data a1 a3 a4⟩
  | untagged hn hw hl hs hacc hb =>
    rename_i cs
    refine ⟨cs, ⟨hw, hl, hn, rfl⟩, hs, rfl, ?_⟩
    intro a a1 a2 a3 a4
    exact ⟨by rw [a2]; exact hacc, hb a.header a.data a1 a3 a4⟩

theorem choice_back {Ts Us : List Type} {es : EncVariants Ts} {vs : Variants Us} {x : HSum Ts} {y : HSum Us}
    {g : Nat} (h : ChoiceBack m k es vs x y g) :
    ∃ cs, Encodes (choiceToBer k es) x cs ∧ cs.length < 2 ^ 64 ∧
      ((choiceToBer k es).tagInfo x).2.2 = g ∧
      ∀ a : Any, a.header.constructed = ((choiceToBer k es).tagInfo x).2.1 →
        a.header.tag = g → a.header.length = .definite cs.length → a.data.data = cs →
        ReadsChoice m k vs a y := by
  induction h with
  | here h => exact payload_back h
  | there hn _ ih =>
    obtain ⟨cs, h1, h2, h3, h4⟩ := ih
    exact ⟨cs, ⟨h1.content, h1.len, h1.tag, rfl⟩, h2, h3,
      fun a a1 a2 a3 a4 => ⟨by rw [a2]; exact hn, h4 a a1 a2 a3 a4⟩⟩

/-- **C55** The encoding of a CHOICE comes back as the same variant with the same payload, and its lengths
are right, if no earlier variant has a tag of it. -/
theorem C55_choice_roundtrip {Ts Us : List Type} (m : Rules) (k : ChoiceKind) (es : EncVariants Ts)
    (vs : Variants Us) (x : HSum Ts) (y : HSum Us) (g : Nat) (h : ChoiceBack m k es vs x y g) :
    LengthsRight (choiceToBer k es) x ∧ InputBack (choiceToBer k es) (m.parse (choiceP m k vs)) x y := by
  obtain ⟨cs, h1, h2, h3, h4⟩ := choice_back h
  refine ⟨h1.lengths h2, _, h1.toVec h2, fun rest i hi => ?_⟩
  obtain ⟨a, g1, g2, g3, g4, g5, g6⟩ := rules_any_full m i _ _ _ cs rest h1.tag h2 hi
  exact (C55_choice_accepts m k vs i _ y).mpr ⟨a, g1, h4 a g3 (g4.trans h3) g5 g6⟩

theorem choice_object {Ts Us : List Type} {es : EncVariants Ts} {vs : Variants Us} {x : HSum Ts} {y : HSum Us}
    {g : Nat} (h : ChoiceBack m k es vs x y g) {cs : Bytes} (hc : ((choiceToBer k es).writeContent x).exec =
      (cs, .ok cs.length)) {a : Any} (h1 : a.header.cls = ((choiceToBer k es).tagInfo x).1)
    (h2 : a.header.constructed = ((choiceToBer k es).tagInfo x).2.1)
    (h3 : a.header.tag = ((choiceToBer k es).tagInfo x).2.2) (h4 : a.data.data = cs) :
    ChoiceObject k es x a := by
  induction h with
  | here h =>
    cases h with
    | explicit hn hf hb =>
      refine ⟨h1, h2, h3, ?_⟩
      rw [h4]
      rename_i t _ _ _ x _
      have hc' : (t.encode x).exec = (cs, .ok cs.length) := hc
      unfold ToBer.toVec
      rw [hc']
    | implicit hn hw hl hs hb => exact ⟨h1, h2, h3, by rw [h4]; exact hc⟩
    | untagged hn hw hl hs hacc hb => exact ⟨h1, h2, h3, by rw [h4]; exact hc⟩
  | there hn _ ih => exact ih hc h1 h2 h3

/-- **C55** What is written for a CHOICE is one object with the tag and class of the variant. -/
theorem C55_choice_object {Ts Us : List Type} (m : Rules) (k : ChoiceKind) (es : EncVariants Ts)
    (vs : Variants Us) (x : HSum Ts) (y : HSum Us) (g : Nat) (h : ChoiceBack m k es vs x y g) :
    ∃ bs r a, (choiceToBer k es).toVec x = .ok bs ∧ parseDerAny (Input.fromSlice bs) = .ok (r, a) ∧
      r.data = [] ∧ ChoiceObject k es x a := by
  obtain ⟨cs, h1, h2, h3, h4⟩ := choice_back h
  obtain ⟨a, g1, g2, g3, g4, g5, g6⟩ := rules_any_full .der (Input.fromSlice (full ((choiceToBer k es).tagInfo x).1
    ((choiceToBer k es).tagInfo x).2.1 ((choiceToBer k es).tagInfo x).2.2 cs)) _ _ _ cs [] h1.tag h2
    (List.append_nil _).symm
  refine ⟨_, _, a, h1.toVec h2, g1, ?_, choice_object h h1.content g2 g3 g4 g6⟩
  rw [after_data]
  exact List.drop_of_length_le (Nat.le_refl _)

/-- **C55** Deviation: the class of the object is not looked at. With any other class, the same content is
read as the same variant. -/
theorem C55_class_deviation {Ts Us : List Type} (m : Rules) (k : ChoiceKind) (es : EncVariants Ts)
    (vs : Variants Us) (x : HSum Ts) (y : HSum Us) (g : Nat) (h : ChoiceBack m k es vs x y g) :
    ∃ cs, ((choiceToBer k es).writeContent x).exec = (cs, .ok cs.length) ∧
      ∀ (cls : Class) (rest : Bytes) (i : Input),
        i.data = identOctets cls ((choiceToBer k es).tagInfo x).2.1 g ++ lenOctets (.definite cs.length) ++
          cs ++ rest → ∃ r, m.parse (choiceP m k vs) i = .ok (r, y) := by
  obtain ⟨cs, h1, h2, h3, h4⟩ := choice_back h
  refine ⟨cs, h1.content, fun cls rest i hi => ?_⟩
  have ht := h1.tag
  rw [h3] at ht
  obtain ⟨a, g1, g2, g3, g4, g5, g6⟩ := rules_any_full m i cls _ g cs rest ht h2 hi
  exact ⟨_, (C55_choice_accepts m k vs i _ y).mpr ⟨a, g1, h4 a g3 g4 g5 g6⟩⟩

theorem universal_payload {T : Type} {c : Codec T} {v : T} {n : Nat} (hn : n < 2 ^ 32)
    (hu : UniversalValue c v) (hs : SmallContent c.enc v) (k : ChoiceKind) :
    PayloadBack .ber n c.enc.tagInfo c.enc c.ber v v k (if k = .untagged then c.tag else n) ∧
    PayloadBack .der n c.enc.tagInfo c.enc c.der v v k (if k = .untagged then c.tag else n) := by
  have e24 : (2 : Nat) ^ 24 = 16777216 := by decide
  have e64 : (2 : Nat) ^ 64 = 18446744073709551616 := by decide
  obtain ⟨cs, hw, hl, ht⟩ := universal_works hu
  have hf := Works.fits hu hs
  obtain ⟨q, hq, hlt⟩ := hs
  rw [hl] at hq; injection hq with hq
  have hb := hw.back (by omega)
  have hp := hw.prim
  cases k with
  | explicit => exact ⟨.explicit hn hf hb.1, .explicit hn hf hb.2.1⟩
  | implicit =>
    exact ⟨.implicit hn hw.enc.content hl (by omega) (by rw [hp]; exact hw.ber),
      .implicit hn hw.enc.content hl (by omega) (by rw [hp]; exact hw.der)⟩
  | untagged =>
    have e : (if ChoiceKind.untagged = .untagged then c.tag else n) = (c.enc.tagInfo v).2.2 := by
      rw [if_pos rfl, hw.tag]
    rw [e]
    exact ⟨.untagged hw.enc.tag hw.enc.content hl (by omega) (by rw [hw.tag]; exact hw.accB)
        (by rw [hp]; exact hw.ber),
      .untagged hw.enc.tag hw.enc.content hl (by omega) (by rw [hw.tag]; exact hw.accD)
        (by rw [hp]; exact hw.der)⟩

theorem universal_choice {Ts : List Type} {es : EncVariants Ts} {vb vd : Variants Ts} {x : HSum Ts} {g : Nat}
    (h : UniversalChoice k es vb vd x g) :
    ChoiceBack .ber k es vb x x g ∧ ChoiceBack .der k es vd x x g := by
  induction h with
  | here hn hu hs =>
    have := universal_payload hn hu hs k
    exact ⟨.here this.1, .here this.2⟩
  | there hb hd _ ih => exact ⟨.there hb ih.1, .there hd ih.2⟩

/-- **C55** In particular a CHOICE of universal types comes back through `parse_ber` and `parse_der`. -/
theorem C55_choice_universal {Ts : List Type} (k : ChoiceKind) (es : EncVariants Ts) (vb vd : Variants Ts)
    (x : HSum Ts) (g : Nat) (h : UniversalChoice k es vb vd x g) :
    LengthsRight (choiceToBer k es) x ∧
    InputBack (choiceToBer k es) (choiceP .ber k vb).parseBer x x ∧
    InputBack (choiceToBer k es) (choiceP .der k vd).parseDer x x := by
  obtain ⟨h1, h2⟩ := universal_choice h
  have a := C55_choice_roundtrip .ber k es vb x x g h1
  exact ⟨a.1, a.2, (C55_choice_roundtrip .der k es vd x x g h2).2⟩

/-- `enum C { A(u32), #[tag(5)] B(bool), C(&[u8]) }`, for encoding and for decoding. -/
def sampleChoice : EncVariants [Nat, Bool, Bytes] :=
  .cons 0 (uintToBer 4).tagInfo (uintToBer 4) (.cons 5 boolToBer.tagInfo boolToBer
    (.cons 6 octetToBer.tagInfo octetToBer .nil))
/-- The same for decoding BER. -/
def sampleChoiceBer : Variants [Nat, Bool, Bytes] :=
  .cons 0 (uintBer 4) (.cons 5 boolBer (.cons 6 octetBer .nil))
/-- The same for decoding DER. -/
def sampleChoiceDer : Variants [Nat, Bool, Bytes] :=
  .cons 0 (uintDer 4) (.cons 5 boolDer (.cons 6 octetDer .nil))

instance : DecidableEq (HSum [Nat, Bool, Bytes]) :=
  inferInstanceAs (DecidableEq (Nat ⊕ Bool ⊕ Bytes ⊕ Empty))

/-- Cases: the tags; the second variant, tagged and untagged; what is written for it. -/
example : choiceTags 0 [none, some 5, none] [] = some [0, 5, 6] ∧ choiceTags 0 [none, none, some 1] [] = none ∧
    (∀ k, UniversalChoice k sampleChoice sampleChoiceBer sampleChoiceDer (.inr (.inl true))
      (if k = .untagged then 1 else 5)) ∧
    (choiceToBer .explicit sampleChoice).toVec (.inr (.inl true)) = .ok [0xa5, 3, 1, 1, 0xff] ∧
    (choiceToBer .implicit sampleChoice).toVec (.inr (.inl true)) = .ok [0x85, 1, 0xff] ∧
    (choiceToBer .untagged sampleChoice).toVec (.inr (.inl true)) = .ok [1, 1, 0xff] ∧
    ((choiceP .der .implicit sampleChoiceDer).parseDer ⟨[0x45, 1, 0xff], 0, 3⟩).map (·.2)
      = .ok (.inr (.inl true)) := by
  refine ⟨by decide, by decide, fun k => .there ?_ ?_ (.here (c := boolC) (by decide) .bool
    ⟨1, rfl, by decide⟩), by decide +kernel, by decide +kernel, by decide +kernel, by decide +kernel⟩
  · cases k <;> simp [Selects, uintBer, tagIs, tagInteger]
  · cases k <;> simp [Selects, uintDer, tagIs, tagInteger]

end Asn1

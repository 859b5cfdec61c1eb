import Verif.Spec.Derive
import Verif.Props.Optional
import Verif.Props.Arrays
/-!
# Derived SEQUENCE and SET: exactly what their decoders accept (C76)
-/
namespace Asn1
open Spec Wr

variable {α : Type} {m : Rules}

theorem rules_parse_ok {p : Parser α} {i r : Input} {v : α} :
    m.parse p i = .ok (r, v) ↔ ∃ a x, m.any i = .ok (r, a) ∧ p.acceptTag a.header.tag = true ∧
      p.content a.header a.data = .ok (x, v) := by
  cases m
  · exact parseBer_ok
  · exact parseDer_ok

/-- The header of an object is what the header parser returns. -/
theorem rules_any_header {i r : Input} {a : Any} (h : m.any i = .ok (r, a)) :
    i.data ≠ [] ∧ ∃ r1, m.header i = .ok (r1, a.header) := by
  have key : ∀ r1, parseHeader i = .ok (r1, a.header) → i.data ≠ [] := by
    intro r1 h1 he
    obtain ⟨ib, lb, h2, _, h4, _⟩ := parseHeader_ok.mp h1
    rw [he] at h4
    have : ib = [] := by
      have := h4.symm
      simp at this
      exact this.1
    rw [this] at h2
    cases h2
  cases m
  · obtain ⟨r1, h1, _⟩ := parseBerAny_ok.mp h
    exact ⟨key r1 h1, r1, h1⟩
  · obtain ⟨r1, n, h1, h2, _⟩ := parseDerAny_ok.mp h
    exact ⟨key r1 h1, r1, parseHeaderDer_ok.mpr ⟨h1, by rw [h2]; rfl⟩⟩

theorem rules_header_parse {i r : Input} {h : Header} (hh : m.header i = .ok (r, h)) :
    parseHeader i = .ok (r, h) := by
  cases m
  · exact hh
  · exact (parseHeaderDer_ok.mp hh).1

theorem taggedField_ok {p : Parser (TaggedValue α)} {i r : Input} {v : α} :
    taggedField m p i = .ok (r, v) ↔ m.parse p i = .ok (r, ⟨v⟩) := by
  unfold taggedField
  rw [bind_eq_ok]
  constructor
  · rintro ⟨⟨r1, t⟩, h1, h2⟩
    simp only [pure, Except.pure, Except.ok.injEq, Prod.mk.injEq] at h2
    obtain ⟨rfl, rfl⟩ := h2
    exact h1
  · intro h
    exact ⟨_, h, rfl⟩

theorem requiredField_ok {tag : FieldTag} {p : Parser α} {i r : Input} {v : α} :
    requiredField m tag p i = .ok (r, v) ↔ ReadsAs m p tag i v r := by
  cases tag with
  | untagged =>
    constructor
    · exact fun h => .untagged h
    · rintro ⟨h⟩; exact h
  | explicit cls n =>
    show taggedField m (explicitP cls n (m.parse p)) i = _ ↔ _
    rw [taggedField_ok, rules_parse_ok]
    constructor
    · rintro ⟨a, x, h1, h2, h3⟩
      obtain ⟨g1, g2, g3, g4⟩ := explicitP_content.mp h3
      exact .explicit h1 g2 g3 g1 g4
    · intro h
      cases h with
      | explicit h hcls htag hc hi =>
        exact ⟨_, _, h, tagIs_iff.mpr htag, explicitP_content.mpr ⟨hc, hcls, htag, hi⟩⟩
  | implicit cls n =>
    show taggedField m (implicitP cls n p) i = _ ↔ _
    rw [taggedField_ok, rules_parse_ok]
    constructor
    · rintro ⟨a, x, h1, h2, h3⟩
      obtain ⟨g1, g2⟩ := implicitP_content.mp h3
      exact .implicit h1 g1 (tagIs_iff.mp h2) g2
    · intro h
      cases h with
      | implicit h hcls htag hi =>
        exact ⟨_, _, h, tagIs_iff.mpr htag, implicitP_content.mpr ⟨hcls, hi⟩⟩

theorem optTaggedField_ok {n : Nat} {p : Parser (TaggedValue α)} (hp : p.acceptTag = tagIs n)
    {i r : Input} {v : Option α} :
    optTaggedField m n p i = .ok (r, v) ↔
      (∃ x, v = some x ∧ m.parse p i = .ok (r, ⟨x⟩)) ∨
      (v = none ∧ r = i ∧ (i.data = [] ∨ ∃ r1 h, m.header i = .ok (r1, h) ∧ h.tag ≠ n)) := by
  unfold optTaggedField
  by_cases he : i.data = []
  · rw [if_pos (by simp [Input.isEmpty, he])]
    constructor
    · intro h
      injection h with h
      injection h with h1 h2
      exact .inr ⟨h2.symm, h1.symm, .inl he⟩
    · rintro (⟨x, _, h⟩ | ⟨rfl, rfl, _⟩)
      · obtain ⟨a, y, h1, _⟩ := rules_parse_ok.mp h
        exact absurd he (rules_any_header h1).1
      · rfl
  · rw [if_neg (by simpa [Input.isEmpty] using he), bind_eq_ok]
    constructor
    · rintro ⟨⟨r1, h⟩, h1, h2⟩
      simp only at h2
      by_cases ht : h.tag = n
      · rw [if_pos ht] at h2
        obtain ⟨⟨r2, t⟩, h3, h4⟩ := bind_eq_ok.mp h2
        simp only [pure, Except.pure, Except.ok.injEq, Prod.mk.injEq] at h4
        obtain ⟨rfl, rfl⟩ := h4
        exact .inl ⟨t.inner, rfl, h3⟩
      · rw [if_neg ht] at h2
        simp only [pure, Except.pure, Except.ok.injEq, Prod.mk.injEq] at h2
        obtain ⟨rfl, rfl⟩ := h2
        exact .inr ⟨rfl, rfl, .inr ⟨r1, h, h1, ht⟩⟩
    · rintro (⟨x, rfl, h⟩ | ⟨rfl, rfl, h | ⟨r1, h, h1, h2⟩⟩)
      · obtain ⟨a, y, h1, h2, _⟩ := rules_parse_ok.mp h
        obtain ⟨_, r1, h3⟩ := rules_any_header h1
        refine ⟨(r1, a.header), h3, ?_⟩
        rw [hp] at h2
        simp only
        rw [if_pos (tagIs_iff.mp h2), bind_eq_ok]
        exact ⟨_, h, rfl⟩
      · exact absurd h he
      · refine ⟨(r1, h), h1, ?_⟩
        simp only
        rw [if_neg h2]; rfl

theorem optionParse_ok {p : Parser α} {i r : Input} {v : Option α} :
    optionParse m.header p i = .ok (r, v) ↔
      (∃ x, v = some x ∧ m.parse p i = .ok (r, x) ∧ DefiniteAt i) ∨
      (v = none ∧ r = i ∧ (i.data = [] ∨ ∃ r1 h, m.header i = .ok (r1, h) ∧ p.acceptTag h.tag ≠ true)) := by
  by_cases he : i.data = []
  · unfold optionParse
    rw [if_pos (by simp [Input.isEmpty, he])]
    constructor
    · intro h
      injection h with h
      injection h with h1 h2
      exact .inr ⟨h2.symm, h1.symm, .inl he⟩
    · rintro (⟨x, _, h, _⟩ | ⟨rfl, rfl, _⟩)
      · obtain ⟨a, y, h1, _⟩ := rules_parse_ok.mp h
        exact absurd he (rules_any_header h1).1
      · rfl
  · cases hh : m.header i with
    | error e =>
      constructor
      · intro h
        unfold optionParse at h
        rw [if_neg (by simpa [Input.isEmpty] using he), hh] at h
        simp [bind_err] at h
      · rintro (⟨x, _, h, _⟩ | ⟨_, _, h | ⟨r1, h, h1, _⟩⟩)
        · obtain ⟨a, y, h1, _⟩ := rules_parse_ok.mp h
          obtain ⟨_, r1, h3⟩ := rules_any_header h1
          rw [hh] at h3; cases h3
        · exact absurd h he
        · cases h1
    | ok y =>
      obtain ⟨r1, h⟩ := y
      have hph := rules_header_parse hh
      cases hacc : p.acceptTag h.tag with
      | false =>
        have e : optionParse m.header p i = .ok (i, none) := by
          unfold optionParse
          rw [if_neg (by simpa [Input.isEmpty] using he), hh]
          simp [hacc]
        rw [e]
        constructor
        · intro h'
          injection h' with h'
          injection h' with h1 h2
          exact .inr ⟨h2.symm, h1.symm, .inr ⟨r1, h, rfl, by simp [hacc]⟩⟩
        · rintro (⟨x, _, h', _⟩ | ⟨rfl, rfl, _⟩)
          · obtain ⟨a, y, h1, h2, _⟩ := rules_parse_ok.mp h'
            obtain ⟨_, r2, h3⟩ := rules_any_header h1
            rw [hh] at h3
            simp only [Except.ok.injEq, Prod.mk.injEq] at h3
            rw [← h3.2, hacc] at h2
            cases h2
          · rfl
      | true =>
        have hd : DefiniteAt i ↔ h.length ≠ .indefinite := by
          constructor
          · exact fun g => g _ _ hph
          · intro g r2 h2 e
            rw [hph] at e
            simp only [Except.ok.injEq, Prod.mk.injEq] at e
            rw [← e.2]; exact g
        by_cases hi : h.length = .indefinite
        · have e : ∀ y, optionParse m.header p i ≠ .ok y := by
            cases m
            · intro y hy
              have := C35_indefinite_deviation p i r1 h he hph hacc hi
              rw [show optionParse parseHeader p i = .ok y from hy] at this
              cases this
            · have := (parseHeaderDer_ok.mp hh).2
              rw [hi] at this
              simp [Length.isDefinite] at this
          constructor
          · intro g; exact absurd g (e _)
          · rintro (⟨x, _, _, h'⟩ | ⟨_, _, h' | ⟨r2, h2, h3, h4⟩⟩)
            · exact absurd hi (hd.mp h')
            · exact absurd h' he
            · simp only [Except.ok.injEq, Prod.mk.injEq] at h3
              rw [← h3.2] at h4; exact absurd hacc h4
        · have e : optionParse m.header p i = present (m.parse p i) := by
            cases m
            · exact (((C35_option_parse_partial p i).2.1 he).1 _ _ hh).2 hacc hi
            · exact (((C35_option_parse_partial p i).2.2 he).1 _ _ hh).2 hacc
          rw [e]
          constructor
          · intro g
            cases hm : m.parse p i with
            | error e => rw [hm] at g; cases g
            | ok y =>
              rw [hm] at g
              simp only [present, Except.ok.injEq, Prod.mk.injEq] at g
              obtain ⟨rfl, rfl⟩ := g
              exact .inl ⟨y.2, rfl, rfl, hd.mpr hi⟩
          · rintro (⟨x, rfl, h', _⟩ | ⟨_, _, h' | ⟨r2, h2, h3, h4⟩⟩)
            · rw [h']; rfl
            · exact absurd h' he
            · simp only [Except.ok.injEq, Prod.mk.injEq] at h3
              rw [← h3.2] at h4; exact absurd hacc h4

theorem optionalField_ok {tag : FieldTag} {p : Parser α} {i r : Input} {v : Option α} :
    optionalField m tag p i = .ok (r, v) ↔
      (∃ x, v = some x ∧ ReadsAs m p tag i x r ∧ (tag = .untagged → DefiniteAt i)) ∨
      (v = none ∧ r = i ∧ Missing m p tag i) := by
  have hmis : Missing m p tag i ↔
      (i.data = [] ∨ ∃ r1 h, m.header i = .ok (r1, h) ∧ ¬ Announces p tag h.tag) := by
    constructor
    · rintro (h | ⟨h1, h2⟩)
      · exact .inl h
      · exact .inr ⟨_, _, h1, h2⟩
    · rintro (h | ⟨_, _, h1, h2⟩)
      · exact .done h
      · exact .other h1 h2
  rw [hmis]
  cases tag with
  | untagged =>
    show optionParse m.header p i = _ ↔ _
    rw [optionParse_ok]
    constructor
    · rintro (⟨x, h1, h2, h3⟩ | h)
      · exact .inl ⟨x, h1, .untagged h2, fun _ => h3⟩
      · exact .inr h
    · rintro (⟨x, h1, h2, h3⟩ | h)
      · cases h2 with
        | untagged h => exact .inl ⟨x, h1, h, h3 rfl⟩
      · exact .inr h
  | explicit cls n =>
    show optTaggedField m n _ i = _ ↔ _
    rw [optTaggedField_ok rfl]
    constructor
    · rintro (⟨x, h1, h2⟩ | h)
      · exact .inl ⟨x, h1, requiredField_ok.mp (taggedField_ok.mpr h2), by simp⟩
      · exact .inr h
    · rintro (⟨x, h1, h2, _⟩ | h)
      · exact .inl ⟨x, h1, taggedField_ok.mp (requiredField_ok.mpr h2)⟩
      · exact .inr h
  | implicit cls n =>
    show optTaggedField m n _ i = _ ↔ _
    rw [optTaggedField_ok rfl]
    constructor
    · rintro (⟨x, h1, h2⟩ | h)
      · exact .inl ⟨x, h1, requiredField_ok.mp (taggedField_ok.mpr h2), by simp⟩
      · exact .inr h
    · rintro (⟨x, h1, h2, _⟩ | h)
      · exact .inl ⟨x, h1, taggedField_ok.mp (requiredField_ok.mpr h2)⟩
      · exact .inr h

/-- **C76** Exactly what the parser generated for a field accepts, and the value it gives. -/
theorem C76_field_reads {T : Type} (m : Rules) (f : Field T) (i r : Input) (v : T) :
    f.parse m i = .ok (r, v) ↔ ReadsField m f i v r := by
  cases f with
  | required tag p => exact requiredField_ok
  | optional tag p => exact optionalField_ok
  | default tag p x =>
    show (optionalField m tag p i >>= fun y => _) = _ ↔ _
    rw [bind_eq_ok]
    constructor
    · rintro ⟨⟨r1, y⟩, h1, h2⟩
      simp only [pure, Except.pure, Except.ok.injEq, Prod.mk.injEq] at h2
      obtain ⟨rfl, rfl⟩ := h2
      rcases optionalField_ok.mp h1 with ⟨y, rfl, g1, g2⟩ | ⟨rfl, rfl, g⟩
      · exact .inl ⟨g1, g2⟩
      · exact .inr ⟨rfl, rfl, g⟩
    · rintro (⟨h, hd⟩ | ⟨rfl, rfl, h⟩)
      · exact ⟨(r, some v), optionalField_ok.mpr (.inl ⟨_, rfl, h, hd⟩), rfl⟩
      · exact ⟨(r, none), optionalField_ok.mpr (.inr ⟨rfl, rfl, h⟩), rfl⟩
  | custom f => exact Iff.rfl

theorem fields_run_ok {Ts : List Type} {fs : Fields Ts} {i e : Input} {v : Tup Ts} :
    (fs.fns m).run i = .ok (e, v) ↔ ReadsFields m fs i v e := by
  rw [run_ok]
  induction fs generalizing i with
  | nil =>
    constructor
    · intro h
      simp only [Fields.fns] at h
      cases h; exact .nil
    · intro h; cases h; exact .nil
  | cons f fs ih =>
    constructor
    · intro h
      simp only [Fields.fns] at h
      cases h with
      | cons h ht => exact .cons ((C76_field_reads m f _ _ _).mp h) (ih.mp ht)
    · intro h
      cases h with
      | cons h ht => exact .cons ((C76_field_reads m f _ _ _).mpr h) (ih.mpr ht)

/-- **C76** Exactly what the decoders of a derived SEQUENCE (`tag` 16) or SET (17) accept: an object with
that tag, constructed, whose content starts with the fields, read one after the other, each from where the
previous one ended; optional and default fields may be missing. What is left in the content is ignored,
and so is the class of the object. -/
theorem C76_struct_accepts {Ts : List Type} (m : Rules) (tag : Nat) (fs : Fields Ts) (i r : Input)
    (v : Tup Ts) :
    m.parse (structP m tag fs) i = .ok (r, v) ↔ ∃ a e, m.any i = .ok (r, a) ∧ a.header.tag = tag ∧
      a.header.constructed = true ∧ ReadsFields m fs a.data v e := by
  rw [rules_parse_ok]
  have key : ∀ (a : Any) x, (structP m tag fs).content a.header a.data = .ok (x, v) ↔
      a.header.constructed = true ∧ ReadsFields m fs a.data v x := by
    intro a x
    show (a.header.assertConstructed a.data >>= fun _ => (fs.fns m).run a.data) = _ ↔ _
    rw [bind_eq_ok]
    constructor
    · rintro ⟨_, h1, h2⟩
      exact ⟨assertConstructed_ok.mp h1, fields_run_ok.mp h2⟩
    · rintro ⟨h1, h2⟩
      exact ⟨(), assertConstructed_ok.mpr h1, fields_run_ok.mpr h2⟩
  constructor
  · rintro ⟨a, x, h1, h2, h3⟩
    obtain ⟨h4, h5⟩ := (key a x).mp h3
    exact ⟨a, x, h1, tagIs_iff.mp h2, h4, h5⟩
  · rintro ⟨a, e, h1, h2, h3, h4⟩
    exact ⟨a, e, h1, tagIs_iff.mpr h2, (key a e).mpr ⟨h3, h4⟩⟩

/-- The fields of `struct S { a: u32, #[tag_explicit(0)] #[optional] b: Option<bool>,
#[tag_implicit(1)] #[default(..)] c: &[u8] }`. -/
def sampleFields (m : Rules) : Fields [Nat, Option Bool, Bytes] :=
  match m with
  | .ber => .cons (.required .untagged (uintBer 4)) (.cons (.optional (.explicit .contextSpecific 0) boolBer)
      (.cons (.default (.implicit .contextSpecific 1) octetBer [7]) .nil))
  | .der => .cons (.required .untagged (uintDer 4)) (.cons (.optional (.explicit .contextSpecific 0) boolDer)
      (.cons (.default (.implicit .contextSpecific 1) octetDer [7]) .nil))

instance : DecidableEq (Tup [Nat, Option Bool, Bytes]) :=
  inferInstanceAs (DecidableEq (Nat × Option Bool × Bytes × Unit))

/-- Cases: all fields; only the required one; the last one and something unknown after it; the tag of the
optional field with another class (an error); the optional field of an unknown tag (left in the content);
a primitive object. -/
example :
    Rules.der.parse (structP .der 16 (sampleFields .der)) (Input.fromSlice
        [0x30, 0x0a, 0x02, 0x01, 0x05, 0xa0, 0x03, 0x01, 0x01, 0xff, 0x81, 0x00]) =
      .ok (⟨[], 12, 12⟩, (5, some true, [], ())) ∧
    Rules.der.parse (structP .der 16 (sampleFields .der)) (Input.fromSlice [0x30, 0x03, 0x02, 0x01, 0x05]) =
      .ok (⟨[], 5, 5⟩, (5, none, [7], ())) ∧
    Rules.ber.parse (structP .ber 16 (sampleFields .ber)) (Input.fromSlice
        [0x30, 0x09, 0x02, 0x01, 0x05, 0x81, 0x02, 0x41, 0x42, 0x05, 0x00]) =
      .ok (⟨[], 11, 11⟩, (5, none, [0x41, 0x42], ())) ∧
    (Rules.ber.parse (structP .ber 16 (sampleFields .ber)) (Input.fromSlice
        [0x30, 0x08, 0x02, 0x01, 0x05, 0x60, 0x03, 0x01, 0x01, 0xff])).isOk = false ∧
    Rules.ber.parse (structP .ber 16 (sampleFields .ber)) (Input.fromSlice
        [0x30, 0x08, 0x02, 0x01, 0x05, 0xa2, 0x03, 0x01, 0x01, 0xff]) =
      .ok (⟨[], 10, 10⟩, (5, none, [7], ())) ∧
    (Rules.ber.parse (structP .ber 16 (sampleFields .ber)) (Input.fromSlice
        [0x10, 0x03, 0x02, 0x01, 0x05])).isOk = false := by decide +kernel

end Asn1

import Verif.Spec.DeriveSlice
import Verif.Props.DeriveWrite
import Verif.Props.ContainersAgree
/-!
# Derived SEQUENCE and SET: the byte-slice API (C81)
-/
namespace Asn1
open Spec

variable {α : Type} {m : Rules}

theorem tagged_ok {tag : FieldTag} {ty : SliceType α} {bytes rem : Bytes} {v : α} :
    ty.tagged m tag bytes = .ok (rem, v) ↔ SliceReadsAs m ty tag bytes v rem := by
  have inner : ∀ {x : Except SErr (Bytes × TaggedValue α)},
      (x >>= fun y => (pure (y.1, y.2.inner) : Except SErr (Bytes × α))) = .ok (rem, v) ↔
        x = .ok (rem, ⟨v⟩) := by
    intro x
    rw [bindS_eq_ok]
    constructor
    · rintro ⟨⟨b, t⟩, h1, h2⟩
      cases h2
      exact h1
    · intro h
      exact ⟨_, h, rfl⟩
  cases tag with
  | untagged =>
    have e : ty.tagged m .untagged bytes = ty.from_ bytes := by cases m <;> rfl
    rw [e]
    constructor
    · exact .untagged
    · rintro ⟨h⟩; assumption
  | explicit cls n =>
    cases m
    · show (fromBerWith (explicitTryFrom cls n ty.from_) bytes >>= fun y => _) = _ ↔ _
      rw [inner, fromBerWith_ok]
      constructor
      · rintro ⟨r, a, h1, h2, h3⟩
        obtain ⟨g1, g2, g3, x, g4⟩ := explicitTryFrom_ok.mp h3
        exact .explicit ⟨r, h1, h2⟩ g3 g1 g2 g4
      · intro h
        cases h with
        | explicit h h1 h2 h3 h4 =>
          obtain ⟨r, g1, g2⟩ := h
          exact ⟨r, _, g1, g2, explicitTryFrom_ok.mpr ⟨h2, h3, h1, _, h4⟩⟩
    · show (explicitFromDer cls n ty.from_ bytes >>= fun y => _) = _ ↔ _
      rw [inner, explicitFromDer_ok]
      constructor
      · rintro ⟨r, a, x, h1, h2, g1, g2, g3, g4⟩
        exact .explicit ⟨r, h1, h2⟩ g3 g1 g2 g4
      · intro h
        cases h with
        | explicit h h1 h2 h3 h4 =>
          obtain ⟨r, g1, g2⟩ := h
          exact ⟨r, _, _, g1, g2, h2, h3, h1, h4⟩
  | implicit cls n =>
    cases m
    · show (fromBerWith (implicitTryFrom cls n ty.tag ty.tryFrom) bytes >>= fun y => _) = _ ↔ _
      rw [inner, fromBerWith_ok]
      constructor
      · rintro ⟨r, a, h1, h2, h3⟩
        obtain ⟨g1, g2, g3⟩ := implicitTryFrom_ok.mp h3
        exact .implicit ⟨r, h1, h2⟩ g2 g1 g3
      · intro h
        cases h with
        | implicit h h1 h2 h3 =>
          obtain ⟨r, g1, g2⟩ := h
          exact ⟨r, _, g1, g2, implicitTryFrom_ok.mpr ⟨h2, h1, h3⟩⟩
    · show (implicitFromDer cls n ty.tag ty.tryFrom bytes >>= fun y => _) = _ ↔ _
      rw [inner, implicitFromDer_ok]
      constructor
      · rintro ⟨r, a, h1, h2, g1, g2, g3⟩
        exact .implicit ⟨r, h1, h2⟩ g2 g1 g3
      · intro h
        cases h with
        | implicit h h1 h2 h3 =>
          obtain ⟨r, g1, g2⟩ := h
          exact ⟨r, _, g1, g2, h2, h1, h3⟩

theorem object_header {bytes rem : Bytes} {a : Any} (h : ObjectAt m bytes a rem) :
    bytes ≠ [] ∧ ∃ r, m.header (Input.fromSlice bytes) = .ok (r, a.header) := by
  obtain ⟨r, h1, _⟩ := h
  exact rules_any_header h1

theorem optTagged_ok {tag : FieldTag} {n : Nat} {ty : SliceType α}
    (hn : (∃ cls, tag = .explicit cls n) ∨ ∃ cls, tag = .implicit cls n) {bytes rem : Bytes}
    {v : Option α} :
    ty.optTagged m tag n bytes = .ok (rem, v) ↔
      (∃ x, v = some x ∧ ¬ SliceMissing m ty tag bytes ∧ SliceReadsAs m ty tag bytes x rem) ∨
      (v = none ∧ rem = bytes ∧ SliceMissing m ty tag bytes) := by
  have hann : ∀ t, SliceAnnounces ty tag t ↔ t = n := by
    intro t
    rcases hn with ⟨cls, rfl⟩ | ⟨cls, rfl⟩ <;> exact Iff.rfl
  have hobj : ∀ {x}, SliceReadsAs m ty tag bytes x rem → bytes ≠ [] ∧
      ∃ r h, m.header (Input.fromSlice bytes) = .ok (r, h) ∧ h.tag = n := by
    intro x h
    rcases hn with ⟨cls, rfl⟩ | ⟨cls, rfl⟩
    · cases h with
      | explicit h h1 h2 h3 h4 =>
        obtain ⟨g1, r, g2⟩ := object_header h
        exact ⟨g1, r, _, g2, h2⟩
    · cases h with
      | implicit h h1 h2 h3 =>
        obtain ⟨g1, r, g2⟩ := object_header h
        exact ⟨g1, r, _, g2, h2⟩
  unfold SliceType.optTagged
  by_cases he : bytes = []
  · subst he
    rw [if_pos (show ([] : Bytes).isEmpty = true from rfl)]
    constructor
    · intro h
      cases h
      exact .inr ⟨rfl, rfl, .done rfl⟩
    · rintro (⟨x, _, h, _⟩ | ⟨rfl, rfl, _⟩)
      · exact absurd (.done rfl) h
      · rfl
  · rw [if_neg (by simpa using he), bindS_eq_ok]
    constructor
    · rintro ⟨⟨b, h⟩, h1, h2⟩
      obtain ⟨r, h0, rfl⟩ := wrapBerParser_ok.mp h1
      simp only at h2
      by_cases ht : h.tag = n
      · rw [if_pos ht] at h2
        obtain ⟨⟨b, t⟩, h3, h4⟩ := bindS_eq_ok.mp h2
        cases h4
        refine .inl ⟨t, rfl, ?_, tagged_ok.mp h3⟩
        rintro (h5 | ⟨h5, h6⟩)
        · exact he h5
        · rw [h0] at h5
          simp only [Except.ok.injEq, Prod.mk.injEq] at h5
          rw [← h5.2] at h6
          exact h6 ((hann _).mpr ht)
      · rw [if_neg ht] at h2
        cases h2
        exact .inr ⟨rfl, rfl, .other h0 (fun g => ht ((hann _).mp g))⟩
    · rintro (⟨x, rfl, _, h⟩ | ⟨rfl, rfl, h⟩)
      · obtain ⟨_, r, hd, h1, h2⟩ := hobj h
        refine ⟨(r.data, hd), wrapBerParser_ok.mpr ⟨r, h1, rfl⟩, ?_⟩
        simp only
        rw [if_pos h2]
        exact bindS_eq_ok.mpr ⟨_, tagged_ok.mpr h, rfl⟩
      · rcases h with h | ⟨h1, h2⟩
        · exact absurd h he
        · refine ⟨(_, _), wrapBerParser_ok.mpr ⟨_, h1, rfl⟩, ?_⟩
          simp only
          rw [if_neg (fun g => h2 ((hann _).mpr g))]
          rfl

theorem sliceOptional_ok {tag : FieldTag} {ty : SliceType α} {bytes rem : Bytes} {v : Option α} :
    ty.optional m tag bytes = .ok (rem, v) ↔
      (∃ x, v = some x ∧ ¬ SliceMissing m ty tag bytes ∧ SliceReadsAs m ty tag bytes x rem) ∨
      (v = none ∧ rem = bytes ∧ SliceMissing m ty tag bytes) := by
  cases tag with
  | explicit cls n => exact optTagged_ok (.inl ⟨cls, rfl⟩)
  | implicit cls n => exact optTagged_ok (.inr ⟨cls, rfl⟩)
  | untagged =>
    show optionFrom ty.acceptTag m.header ty.from_ bytes = _ ↔ _
    by_cases hmis : SliceMissing m ty .untagged bytes
    · have e : optionFrom ty.acceptTag m.header ty.from_ bytes = .ok (bytes, none) := by
        have h := C35_option_from ty.acceptTag m.header ty.from_ bytes
        by_cases he : bytes = []
        · exact h.1 he
        · rcases hmis with h1 | ⟨h1, h2⟩
          · exact absurd h1 he
          · exact (h.2 he).1 _ _ h1 (by simpa [SliceAnnounces] using h2)
      rw [e]
      constructor
      · intro h
        cases h
        exact .inr ⟨rfl, rfl, hmis⟩
      · rintro (⟨x, _, h, _⟩ | ⟨rfl, rfl, _⟩)
        · exact absurd hmis h
        · rfl
    · have he : bytes ≠ [] := fun h => hmis (.done h)
      have e : optionFrom ty.acceptTag m.header ty.from_ bytes = present (ty.from_ bytes) := by
        have h := (C35_option_from ty.acceptTag m.header ty.from_ bytes).2 he
        cases hh : m.header (Input.fromSlice bytes) with
        | error e => exact h.2.2 _ hh
        | ok y =>
          refine h.2.1 y.1 y.2 hh ?_
          by_cases ht : ty.acceptTag y.2.tag = true
          · exact ht
          · exact absurd (.other hh ht) hmis
      rw [e]
      unfold present
      constructor
      · intro h
        cases hf : ty.from_ bytes with
        | error e => rw [hf] at h; cases h
        | ok y =>
          rw [hf] at h
          cases h
          exact .inl ⟨_, rfl, hmis, .untagged hf⟩
      · rintro (⟨x, rfl, _, h⟩ | ⟨_, _, h⟩)
        · cases h with
          | untagged h => rw [h]
        · exact absurd h hmis

theorem sliceField_ok {T : Type} {f : SliceField T} {bytes rem : Bytes} {v : T} :
    f.parse m bytes = .ok (rem, v) ↔ SliceReadsField m f bytes v rem := by
  cases f with
  | required tag ty => exact tagged_ok
  | optional tag ty => exact sliceOptional_ok
  | default tag ty x =>
    show (ty.optional m tag bytes >>= fun y => _) = _ ↔ _
    rw [bindS_eq_ok]
    constructor
    · rintro ⟨⟨b, y⟩, h1, h2⟩
      cases h2
      rcases sliceOptional_ok.mp h1 with ⟨z, rfl, h3, h4⟩ | ⟨rfl, rfl, h3⟩
      · exact .inl ⟨h3, h4⟩
      · exact .inr ⟨rfl, rfl, h3⟩
    · rintro (⟨h3, h4⟩ | ⟨rfl, rfl, h3⟩)
      · exact ⟨_, sliceOptional_ok.mpr (.inl ⟨v, rfl, h3, h4⟩), rfl⟩
      · exact ⟨_, sliceOptional_ok.mpr (.inr ⟨rfl, rfl, h3⟩), rfl⟩

theorem sliceFields_ok {Ts : List Type} {fs : SliceFields Ts} {bytes rem : Bytes} {v : Tup Ts} :
    fs.run m bytes = .ok (rem, v) ↔ SliceReadsFields m fs bytes v rem := by
  induction fs generalizing bytes rem with
  | nil =>
    constructor
    · intro h
      cases h
      exact .nil
    · intro h; cases h; rfl
  | cons f fs ih =>
    show (f.parse m bytes >>= fun y => fs.run m y.1 >>= fun z => _) = _ ↔ _
    rw [bindS_eq_ok]
    constructor
    · rintro ⟨⟨b, x⟩, h1, h2⟩
      obtain ⟨⟨c, xs⟩, h3, h4⟩ := bindS_eq_ok.mp h2
      cases h4
      exact .cons (sliceField_ok.mp h1) (ih.mp h3)
    · intro h
      cases h with
      | cons h ht =>
        exact ⟨_, sliceField_ok.mpr h, bindS_eq_ok.mpr ⟨_, ih.mpr ht, rfl⟩⟩

/-- **C81** Exactly what `from_ber` and `from_der` of a derived SEQUENCE (`tag` 16) or SET (17) accept: an
object with that tag number whose content starts with the fields. (The constructed flag is not looked
at, nor the class, nor what follows the fields in the content.) -/
theorem C81_slice_accepts {Ts : List Type} (tag : Nat) (fs : SliceFields Ts) (bytes rem : Bytes)
    (v : Tup Ts) :
    (fromBerWith (structTryFrom tag fs) bytes = .ok (rem, v) ↔
      ∃ a e, ObjectAt .ber bytes a rem ∧ a.header.tag = tag ∧ SliceReadsFields .ber fs a.data.data v e) ∧
    (structFromDer tag fs bytes = .ok (rem, v) ↔
      ∃ a e, ObjectAt .der bytes a rem ∧ a.header.tag = tag ∧ SliceReadsFields .der fs a.data.data v e) := by
  constructor
  · rw [fromBerWith_ok]
    have key : ∀ a : Any, structTryFrom tag fs a = .ok v ↔
        a.header.tag = tag ∧ ∃ e, SliceReadsFields .ber fs a.data.data v e := by
      intro a
      unfold structTryFrom
      rw [bindS_eq_ok]
      constructor
      · rintro ⟨_, h1, h2⟩
        refine ⟨assertTagS_ok.mp h1, ?_⟩
        cases hr : fs.run .ber a.data.data with
        | error e => rw [hr] at h2; cases h2
        | ok y =>
          rw [hr] at h2
          cases h2
          exact ⟨y.1, sliceFields_ok.mp hr⟩
      · rintro ⟨h1, e, h2⟩
        refine ⟨(), assertTagS_ok.mpr h1, ?_⟩
        rw [sliceFields_ok.mpr h2]
    constructor
    · rintro ⟨r, a, h1, h2, h3⟩
      obtain ⟨g1, e, g2⟩ := (key a).mp h3
      exact ⟨a, e, ⟨r, h1, h2⟩, g1, g2⟩
    · rintro ⟨a, e, ⟨r, h1, h2⟩, g1, g2⟩
      exact ⟨r, a, h1, h2, (key a).mpr ⟨g1, e, g2⟩⟩
  · unfold structFromDer
    rw [bindS_eq_ok]
    constructor
    · rintro ⟨⟨b, a⟩, h1, h2⟩
      obtain ⟨r, h0, rfl⟩ := wrapBerParser_ok.mp h1
      obtain ⟨_, h3, h2⟩ := bindS_eq_ok.mp h2
      obtain ⟨⟨e, w⟩, h4, h5⟩ := bindS_eq_ok.mp h2
      cases h5
      exact ⟨a, e, ⟨r, h0, rfl⟩, assertTagS_ok.mp h3, sliceFields_ok.mp h4⟩
    · rintro ⟨a, e, ⟨r, h1, rfl⟩, g1, g2⟩
      exact ⟨(r.data, a), wrapBerParser_ok.mpr ⟨r, h1, rfl⟩, bindS_eq_ok.mpr ⟨(), assertTagS_ok.mpr g1,
        bindS_eq_ok.mpr ⟨_, sliceFields_ok.mpr g2, rfl⟩⟩⟩

/-! ### The two APIs -/

theorem rules_any_move {i j r : Input} {a : Any} (hij : i.data = j.data) (h : m.any i = .ok (r, a)) :
    ∃ r' a', m.any j = .ok (r', a') ∧ r'.data = r.data ∧ SameHdr a.header a'.header ∧
      a'.data.data = a.data.data := by
  cases m
  · exact berAny_move hij h
  · exact derAny_move hij h

theorem rules_header_move {i j r : Input} {h : Header} (hij : i.data = j.data)
    (hh : m.header i = .ok (r, h)) : ∃ r' h', m.header j = .ok (r', h') ∧ h'.tag = h.tag := by
  cases m
  · obtain ⟨e, h1, h2, h3⟩ := parseHeader_local hh
    exact ⟨_, _, h3 j r.data (hij ▸ h1), rfl⟩
  · obtain ⟨g1, g2⟩ := parseHeaderDer_ok.mp hh
    obtain ⟨e, h1, h2, h3⟩ := parseHeader_local g1
    exact ⟨_, _, parseHeaderDer_ok.mpr ⟨h3 j r.data (hij ▸ h1), g2⟩, rfl⟩

theorem readsAs_agree {tag : FieldTag} {ty : SliceType α} {p : Parser α} (h : SameType m ty p tag)
    {i : Input} {rem : Bytes} {v : α} :
    (∃ r, ReadsAs m p tag i v r ∧ r.data = rem) ↔ SliceReadsAs m ty tag i.data v rem := by
  constructor
  · rintro ⟨r, h1, rfl⟩
    cases h1 with
    | untagged h1 => exact .untagged ((h.from_ i _ _).mpr ⟨r, h1, rfl⟩)
    | explicit g1 g2 g3 g4 g5 =>
      obtain ⟨r', a', k1, k2, k3, k4⟩ := rules_any_move (i := i) (j := Input.fromSlice i.data) rfl g1
      have := (h.from_ _ _ _).mpr ⟨_, g5, rfl⟩
      rw [← k4] at this
      exact .explicit ⟨r', k1, k2⟩ (k3.1 ▸ g2) (k3.2.2.1 ▸ g3) (k3.2.1 ▸ g4) this
    | implicit g1 g2 g3 g4 =>
      obtain ⟨r', a', k1, k2, k3, k4⟩ := rules_any_move (i := i) (j := Input.fromSlice i.data) rfl g1
      exact .implicit ⟨r', k1, k2⟩ (k3.1 ▸ g2) (k3.2.2.1 ▸ g3)
        ((h.content ⟨_, _, rfl⟩ _ a' v k3.1 k3.2.1 k3.2.2.1 k3.2.2.2.1 k3.2.2.2.2 k4.symm).mp ⟨_, g4⟩)
  · intro h1
    cases h1 with
    | untagged h1 =>
      obtain ⟨r, g1, g2⟩ := (h.from_ i _ _).mp h1
      exact ⟨r, .untagged g1, g2⟩
    | explicit g1 g2 g3 g4 g5 =>
      obtain ⟨r, g1, rfl⟩ := g1
      obtain ⟨r', a', k1, k2, k3, k4⟩ := rules_any_move (i := Input.fromSlice i.data) (j := i) rfl g1
      rw [← k4] at g5
      obtain ⟨x, l1, _⟩ := (h.from_ _ _ _).mp g5
      exact ⟨r', .explicit k1 (k3.1 ▸ g2) (k3.2.2.1 ▸ g3) (k3.2.1 ▸ g4) l1, k2⟩
    | implicit g1 g2 g3 g4 =>
      obtain ⟨r, g1, rfl⟩ := g1
      obtain ⟨r', a', k1, k2, k3, k4⟩ := rules_any_move (i := Input.fromSlice i.data) (j := i) rfl g1
      have k3' := k3.symm
      obtain ⟨x, hx⟩ := (h.content ⟨_, _, rfl⟩ a' _ v k3'.1 k3'.2.1 k3'.2.2.1 k3'.2.2.2.1 k3'.2.2.2.2
        k4).mpr g4
      exact ⟨r', .implicit k1 (k3.1 ▸ g2) (k3.2.2.1 ▸ g3) hx, k2⟩

theorem announces_agree {tag : FieldTag} {ty : SliceType α} {p : Parser α} (h : SameType m ty p tag)
    {t : Nat} : Announces p tag t ↔ SliceAnnounces ty tag t := by
  cases tag
  · show p.acceptTag t = true ↔ ty.acceptTag t = true
    rw [h.accept]
  · exact Iff.rfl
  · exact Iff.rfl

theorem missing_agree {tag : FieldTag} {ty : SliceType α} {p : Parser α} (h : SameType m ty p tag)
    {i : Input} : Missing m p tag i ↔ SliceMissing m ty tag i.data := by
  constructor
  · rintro (h1 | ⟨h1, h2⟩)
    · exact .done h1
    · obtain ⟨r', h', g1, g2⟩ := rules_header_move (i := i) (j := Input.fromSlice i.data) rfl h1
      exact .other g1 (fun g => h2 ((announces_agree h).mpr (g2 ▸ g)))
  · rintro (h1 | ⟨h1, h2⟩)
    · exact .done h1
    · obtain ⟨r', h', g1, g2⟩ := rules_header_move (i := Input.fromSlice i.data) (j := i) rfl h1
      exact .other g1 (fun g => h2 ((announces_agree h).mp (g2 ▸ g)))

/-- A field that is read is not missing. -/
theorem readsAs_there {tag : FieldTag} {p : Parser α} {i r : Input} {v : α} (h : ReadsAs m p tag i v r) :
    ¬ Missing m p tag i := by
  have : ∃ r a, m.any i = .ok (r, a) ∧ Announces p tag a.header.tag := by
    cases h with
    | untagged h =>
      obtain ⟨a, x, h1, h2, _⟩ := rules_parse_ok.mp h
      exact ⟨_, a, h1, h2⟩
    | explicit g1 g2 g3 g4 g5 => exact ⟨_, _, g1, g3⟩
    | implicit g1 g2 g3 g4 => exact ⟨_, _, g1, g3⟩
  obtain ⟨r, a, h1, h2⟩ := this
  obtain ⟨h3, r1, h4⟩ := rules_any_header h1
  rintro (h5 | ⟨h5, h6⟩)
  · exact h3 h5
  · rw [h4] at h5
    simp only [Except.ok.injEq, Prod.mk.injEq] at h5
    exact h6 (h5.2 ▸ h2)

theorem fields_agree {Ts : List Type} {ss : SliceFields Ts} {fs : Fields Ts} (h : SameFields m ss fs)
    {i : Input} {v : Tup Ts} :
    (∀ e, ReadsFields m fs i v e → SliceReadsFields m ss i.data v e.data) ∧
    (NoPlainOption fs → ∀ rem, SliceReadsFields m ss i.data v rem →
      ∃ e, ReadsFields m fs i v e ∧ e.data = rem) := by
  induction h generalizing i with
  | nil =>
    constructor
    · intro e h; cases h; exact .nil
    · intro _ rem h; cases h; exact ⟨i, .nil, rfl⟩
  | required hs _ ih =>
    constructor
    · intro e h
      cases h with
      | cons h ht => exact .cons ((readsAs_agree hs).mp ⟨_, h, rfl⟩) (ih.1 _ ht)
    · intro hn rem h
      cases h with
      | cons h ht =>
        obtain ⟨r, g1, rfl⟩ := (readsAs_agree hs).mpr h
        obtain ⟨e, g2, g3⟩ := ih.2 hn _ ht
        exact ⟨e, .cons g1 g2, g3⟩
  | optional hs _ ih =>
    constructor
    · intro e h
      cases h with
      | cons h ht =>
        refine .cons ?_ (ih.1 _ ht)
        rcases h with ⟨x, rfl, h1, _⟩ | ⟨rfl, rfl, h1⟩
        · exact .inl ⟨x, rfl, fun g => readsAs_there h1 ((missing_agree hs).mpr g),
            (readsAs_agree hs).mp ⟨_, h1, rfl⟩⟩
        · exact .inr ⟨rfl, rfl, (missing_agree hs).mp h1⟩
    · intro hn rem h
      cases h with
      | cons h ht =>
        rcases h with ⟨x, rfl, h0, h1⟩ | ⟨rfl, rfl, h1⟩
        · obtain ⟨r, g1, rfl⟩ := (readsAs_agree hs).mpr h1
          obtain ⟨e, g2, g3⟩ := ih.2 hn.2 _ ht
          exact ⟨e, .cons (.inl ⟨x, rfl, g1, fun g => absurd g hn.1⟩) g2, g3⟩
        · obtain ⟨e, g2, g3⟩ := ih.2 hn.2 _ ht
          exact ⟨e, .cons (.inr ⟨rfl, rfl, (missing_agree hs).mpr h1⟩) g2, g3⟩
  | default hs _ ih =>
    constructor
    · intro e h
      cases h with
      | cons h ht =>
        refine .cons ?_ (ih.1 _ ht)
        rcases h with ⟨h1, _⟩ | ⟨rfl, rfl, h1⟩
        · exact .inl ⟨fun g => readsAs_there h1 ((missing_agree hs).mpr g),
            (readsAs_agree hs).mp ⟨_, h1, rfl⟩⟩
        · exact .inr ⟨rfl, rfl, (missing_agree hs).mp h1⟩
    · intro hn rem h
      cases h with
      | cons h ht =>
        rcases h with ⟨h0, h1⟩ | ⟨rfl, rfl, h1⟩
        · obtain ⟨r, g1, rfl⟩ := (readsAs_agree hs).mpr h1
          obtain ⟨e, g2, g3⟩ := ih.2 hn.2 _ ht
          exact ⟨e, .cons (.inl ⟨g1, fun g => absurd g hn.1⟩) g2, g3⟩
        · obtain ⟨e, g2, g3⟩ := ih.2 hn.2 _ ht
          exact ⟨e, .cons (.inr ⟨rfl, rfl, (missing_agree hs).mpr h1⟩) g2, g3⟩

theorem struct_agree {Ts : List Type} {tag : Nat} {ss : SliceFields Ts} {fs : Fields Ts}
    (h : SameFields m ss fs) {f : Bytes → Except SErr (Bytes × Tup Ts)}
    (hf : ∀ bytes rem v, f bytes = .ok (rem, v) ↔
      ∃ a e, ObjectAt m bytes a rem ∧ a.header.tag = tag ∧ SliceReadsFields m ss a.data.data v e)
    (i : Input) (v : Tup Ts) :
    (∀ r, m.parse (structP m tag fs) i = .ok (r, v) → f i.data = .ok (r.data, v)) ∧
    (NoPlainOption fs → ∀ rem, f i.data = .ok (rem, v) →
      (∃ r a, m.any i = .ok (r, a) ∧ a.header.constructed = true) →
      ∃ r, m.parse (structP m tag fs) i = .ok (r, v) ∧ r.data = rem) := by
  constructor
  · intro r hr
    obtain ⟨a, e, h1, h2, h3, h4⟩ := (C76_struct_accepts m tag fs i r v).mp hr
    obtain ⟨r', a', k1, k2, k3, k4⟩ := rules_any_move (i := i) (j := Input.fromSlice i.data) rfl h1
    refine (hf _ _ _).mpr ⟨a', e.data, ⟨r', k1, k2⟩, k3.2.2.1 ▸ h2, ?_⟩
    rw [k4]
    exact (fields_agree h).1 _ h4
  · intro hn rem hr ⟨r0, a0, h0, hc⟩
    obtain ⟨a, e, ⟨r, h1, rfl⟩, h2, h3⟩ := (hf _ _ _).mp hr
    obtain ⟨r', a', k1, k2, k3, k4⟩ := rules_any_move (i := Input.fromSlice i.data) (j := i) rfl h1
    rw [h0] at k1
    simp only [Except.ok.injEq, Prod.mk.injEq] at k1
    obtain ⟨rfl, rfl⟩ := k1
    rw [← k4] at h3
    obtain ⟨e', g1, _⟩ := (fields_agree h).2 hn _ h3
    exact ⟨r0, (C76_struct_accepts m tag fs i r0 v).mpr ⟨a0, e', h0, k3.2.2.1 ▸ h2, hc, g1⟩, k2⟩

/-- **C81** (partial) The two APIs of a derived SEQUENCE or SET: what `parse_ber` accepts, `from_ber` accepts
with the same values, and conversely for constructed objects if no optional field is without a tag; and the
same for DER. Missing: `from_ber` also takes primitive objects, and optional fields of indefinite length
(`C35_indefinite_deviation`). -/
theorem C81_apis_agree_partial {Ts : List Type} (tag : Nat) (ss : SliceFields Ts) (fs : Fields Ts)
    (i : Input) (v : Tup Ts) :
    (SameFields .ber ss fs →
      (∀ r, (structP .ber tag fs).parseBer i = .ok (r, v) →
        fromBerWith (structTryFrom tag ss) i.data = .ok (r.data, v)) ∧
      (NoPlainOption fs → ∀ rem, fromBerWith (structTryFrom tag ss) i.data = .ok (rem, v) →
        (∃ r a, parseBerAny i = .ok (r, a) ∧ a.header.constructed = true) →
        ∃ r, (structP .ber tag fs).parseBer i = .ok (r, v) ∧ r.data = rem)) ∧
    (SameFields .der ss fs →
      (∀ r, (structP .der tag fs).parseDer i = .ok (r, v) →
        structFromDer tag ss i.data = .ok (r.data, v)) ∧
      (NoPlainOption fs → ∀ rem, structFromDer tag ss i.data = .ok (rem, v) →
        (∃ r a, parseDerAny i = .ok (r, a) ∧ a.header.constructed = true) →
        ∃ r, (structP .der tag fs).parseDer i = .ok (r, v) ∧ r.data = rem)) :=
  ⟨fun h => struct_agree (m := .ber) h (fun b r w => (C81_slice_accepts tag ss b r w).1) i v,
   fun h => struct_agree (m := .der) h (fun b r w => (C81_slice_accepts tag ss b r w).2) i v⟩

/-- The types whose BER decoders do not look at positions, nor at the tag of an IMPLICIT object. -/
theorem sameType_ber {p : Parser α} {t : Nat} (hl : p.Local) (hacc : p.acceptTag t = true)
    (htag : ∀ h i t, p.content { h with tag := t } i = p.content h i) (tag : FieldTag) :
    SameType .ber ⟨fromBer p, tryFromAny p, t, p.acceptTag⟩ p tag := by
  refine ⟨sameDecoder_ber hl, fun _ => rfl, fun _ a b v h1 h2 h3 h4 h5 h6 => ?_⟩
  rw [tryFromAny_ok]
  constructor
  · rintro ⟨x, hx⟩
    obtain ⟨y, hy⟩ := hl a.header b.header a.data b.data x v ⟨h1, h2, h3, h4, h5⟩ h6 hx
    exact ⟨hacc, y, by rw [htag]; exact hy⟩
  · rintro ⟨_, y, hy⟩
    rw [htag] at hy
    exact hl b.header a.header b.data a.data y v ⟨h1.symm, h2.symm, h3.symm, h4.symm, h5.symm⟩ h6.symm hy

/-! ### Round-trip -/

open Wr

/-- What is written for a field. -/
theorem field_bytes {tag : FieldTag} {t : ToBer α} {v : α} (h : Fits t v) (htag : FieldTag.Valid tag)
    (hs : tag ≠ .untagged → ∀ n, t.totalLen v = .definite n → n < 2 ^ 24) {hd cs bs : Bytes}
    (h1 : (t.writeContent v).exec = (cs, .ok cs.length)) (h2 : t.contentLen v = .definite cs.length)
    (h4 : (t.writeHeader v).exec = (hd, .ok hd.length))
    (h5 : (t.encode v).exec = (hd ++ cs, .ok (hd ++ cs).length))
    (h6 : t.totalLen v = .definite (hd ++ cs).length)
    (hw : Writes (tag.write t v) bs bs.length) :
    (tag = .untagged → bs = hd ++ cs) ∧
    (∀ cls n, tag = .explicit cls n → bs = full cls true n (hd ++ cs)) ∧
    (∀ cls n, tag = .implicit cls n → bs = full cls (t.tagInfo v).2.1 n cs) := by
  have e24 : (2 : Nat) ^ 24 = 16777216 := by decide
  have e64 : (2 : Nat) ^ 64 = 18446744073709551616 := by decide
  refine ⟨?_, ?_, ?_⟩
  · rintro rfl
    exact congrArg Prod.fst (hw.symm.trans h5)
  · rintro cls n rfl
    have h8 := hs (by simp) _ h6
    have hw' : Writes (FieldTag.write (.explicit cls n) t v) (full cls true n (hd ++ cs))
        (full cls true n (hd ++ cs)).length := by
      show Writes (t.encodeTaggedExplicit cls n v) _ _
      unfold ToBer.encodeTaggedExplicit
      rw [h6]
      have := (header_new_writes cls true (n := n) (k := (hd ++ cs).length) htag (by omega)).bind
        (f := fun n1 => t.writeHeader v >>= fun n2 => t.writeContent v >>= fun n3 =>
        (pure (n1 + n2 + n3) : Wr Nat)) (Writes.bind (x := t.writeHeader v) (bs := hd) (a := hd.length) h4
          (Writes.bind (x := t.writeContent v) (bs := cs) (a := cs.length) h1 (writes_pure _)))
      exact this.congr (by simp [full]) (by simp [full]; omega)
    exact congrArg Prod.fst (hw.symm.trans hw')
  · rintro cls n rfl
    have h8 := hs (by simp) _ h6
    have h9 : cs.length < 2 ^ 64 := by simp only [List.length_append] at h8; omega
    have hw' : Writes (FieldTag.write (.implicit cls n) t v) (full cls (t.tagInfo v).2.1 n cs)
        (full cls (t.tagInfo v).2.1 n cs).length := by
      show Writes (t.encodeTaggedImplicit cls n v) _ _
      unfold ToBer.encodeTaggedImplicit
      rw [h2]
      have := (header_new_writes cls (t.tagInfo v).2.1 (n := n) (k := cs.length) htag h9).bind
        (f := fun n1 => t.writeContent v >>= fun n2 => (pure (n1 + n2) : Wr Nat))
        (Writes.bind (x := t.writeContent v) (bs := cs) (a := cs.length) h1 (writes_pure _))
      exact this.congr (by simp [full]) (by simp [full]; omega)
    exact congrArg Prod.fst (hw.symm.trans hw')

theorem object_full (m : Rules) (c : Class) (b : Bool) (n : Nat) (cs rest : Bytes) (hn : n < 2 ^ 32)
    (hs : cs.length < 2 ^ 64) :
    ∃ a : Any, ObjectAt m (full c b n cs ++ rest) a rest ∧ a.header.cls = c ∧
      a.header.constructed = b ∧ a.header.tag = n ∧ a.header.length = .definite cs.length ∧
      a.data.data = cs := by
  obtain ⟨a, g1, g⟩ := rules_any_full m (Input.fromSlice (full c b n cs ++ rest)) c b n cs rest hn hs rfl
  refine ⟨a, ⟨_, g1, ?_⟩, g⟩
  rw [after_data]
  exact List.drop_left' rfl

theorem slice_field_back {U : Type} {tag : FieldTag} {t : ToBer α} {ty : SliceType U} {v : α} {w : U}
    (h : Fits t v) (htag : FieldTag.Valid tag)
    (hs : tag ≠ .untagged → ∀ n, t.totalLen v = .definite n → n < 2 ^ 24)
    (hb : SliceComesBack t ty v w tag) {bs : Bytes} (hw : Writes (tag.write t v) bs bs.length)
    (rest : Bytes) :
    SliceReadsAs m ty tag (bs ++ rest) w rest ∧
    ((tag = .untagged → OwnHeader t v ∧ ty.acceptTag (t.tagInfo v).2.2 = true) →
      ¬ SliceMissing m ty tag (bs ++ rest)) := by
  have e24 : (2 : Nat) ^ 24 = 16777216 := by decide
  have e64 : (2 : Nat) ^ 64 = 18446744073709551616 := by decide
  obtain ⟨hd, cs, h1, h2, h3, h4, h5, h6, h7⟩ := fits_total h
  obtain ⟨b1, b2, b3⟩ := field_bytes h htag hs h1 h2 h4 h5 h6 hw
  have vec : ∀ {bs'}, t.toVec v = .ok bs' → bs' = hd ++ cs := by
    intro bs' g
    unfold ToBer.toVec at g
    rw [h5] at g
    exact (Except.ok.inj g).symm
  have there : ∀ {a : Any}, ObjectAt m (bs ++ rest) a rest → SliceAnnounces ty tag a.header.tag →
      ¬ SliceMissing m ty tag (bs ++ rest) := by
    intro a g1 g2
    obtain ⟨g3, r, g4⟩ := object_header g1
    rintro (g5 | ⟨g5, g6⟩)
    · exact g3 g5
    · rw [g4] at g5
      simp only [Except.ok.injEq, Prod.mk.injEq] at g5
      exact g6 (g5.2 ▸ g2)
  cases hb with
  | untagged hb =>
    obtain ⟨bs', g1, g2⟩ := hb
    have hbs := b1 rfl
    rw [vec g1, ← hbs] at g2
    refine ⟨.untagged (g2 rest), fun ho => ?_⟩
    obtain ⟨ho, hacc⟩ := ho rfl
    unfold OwnHeader at ho
    rw [h4, h2, header_new_writes _ _ h.tag (by omega)] at ho
    have hd' : hd = identOctets (t.tagInfo v).1 (t.tagInfo v).2.1 (t.tagInfo v).2.2 ++
        lenOctets (.definite cs.length) := congrArg Prod.fst ho
    obtain ⟨a, k1, k2, k3, k4, k5, k6⟩ :=
      object_full m (t.tagInfo v).1 (t.tagInfo v).2.1 (t.tagInfo v).2.2 cs rest h.tag (by omega)
    have e : full (t.tagInfo v).1 (t.tagInfo v).2.1 (t.tagInfo v).2.2 cs = bs := by
      rw [hbs, hd']; rfl
    rw [e] at k1
    exact there k1 (by rw [k4]; exact hacc)
  | explicit hb =>
    rename_i cls n
    obtain ⟨bs', g1, g2⟩ := hb
    have hbs := b2 cls n rfl
    have h8 := hs (by simp) _ h6
    rw [vec g1] at g2
    obtain ⟨a, k1, k2, k3, k4, k5, k6⟩ := object_full m cls true n (hd ++ cs) rest htag (by omega)
    rw [← hbs] at k1
    have := g2 []
    rw [List.append_nil, ← k6] at this
    exact ⟨.explicit k1 k2 k4 k3 this, fun _ => there k1 k4⟩
  | implicit hc hb =>
    rename_i cls n cs'
    have hcs : cs' = cs := by rw [h1] at hc; exact (congrArg Prod.fst hc).symm
    subst hcs
    have hbs := b3 cls n rfl
    obtain ⟨a, k1, k2, k3, k4, k5, k6⟩ := object_full m cls (t.tagInfo v).2.1 n cs' rest htag (by omega)
    rw [← hbs] at k1
    exact ⟨.implicit k1 k2 k4 (hb _ k3 rfl k5 k6), fun _ => there k1 k4⟩

theorem slice_fields_back {Ts Us : List Type} {es : EncFields Ts} {ss : SliceFields Us} {v : Tup Ts}
    {w : Tup Us} (hb : SliceBack es ss v w) (hf : FieldsFit es v) {cs : Bytes}
    (hw : ∀ k, Writes (es.write v k) cs (k + cs.length)) (rest : Bytes) :
    SliceReadsFields m ss (cs ++ rest) w rest := by
  have key : ∀ {T : Type} {Ts : List Type} {tag : FieldTag} {t : ToBer T} {es : EncFields Ts} {v : T}
      {vs : Tup Ts} {cs : Bytes}, Fits t v → FieldTag.Valid tag →
      (tag ≠ .untagged → ∀ n, t.totalLen v = .definite n → n < 2 ^ 24) → FieldsFit es vs →
      (∀ k, Writes ((EncFields.cons tag t es).write (v, vs) k) cs (k + cs.length)) →
      ∃ b d, cs = b ++ d ∧ Writes (tag.write t v) b b.length ∧ ∀ k, Writes (es.write vs k) d (k + d.length) := by
    intro T Ts tag t es v vs cs h1 h2 h3 h4 h5
    obtain ⟨b, g1, _⟩ := field_writes h1 h2 h3
    obtain ⟨d, g2, _⟩ := fields_write h4
    refine ⟨b, d, ?_, g1, g2⟩
    have h6 := h5 0
    rw [EncFields.write] at h6
    exact congrArg Prod.fst (h6.symm.trans (g1.bind (g2 _)))
  induction hb generalizing cs with
  | nil =>
    have := congrArg Prod.fst ((hw 0).symm.trans (writes_pure 0))
    simp only at this
    subst this
    exact .nil
  | required hc ht ih =>
    cases hf with
    | cons h1 h2 h3 h4 =>
      obtain ⟨b, d, rfl, g1, g2⟩ := key h1 h2 h3 h4 hw
      obtain ⟨k1, _⟩ := slice_field_back (m := m) h1 h2 h3 hc g1 (d ++ rest)
      rw [List.append_assoc]
      exact .cons k1 (ih h4 g2)
  | default hc ho ht ih =>
    cases hf with
    | cons h1 h2 h3 h4 =>
      obtain ⟨b, d, rfl, g1, g2⟩ := key h1 h2 h3 h4 hw
      obtain ⟨k1, k2⟩ := slice_field_back (m := m) h1 h2 h3 hc g1 (d ++ rest)
      rw [List.append_assoc]
      exact .cons (.inl ⟨k2 ho, k1⟩) (ih h4 g2)

/-- **C81** (partial) The encoding of a derived SEQUENCE or SET with required and default fields comes back
through `from_ber` and `from_der`, if each field does by itself. Missing as in C77: IMPLICIT fields that
spoil the length, fields of type `Option`. -/
theorem C81_slice_roundtrip_partial {Ts Us : List Type} (tag : Nat) (htag : tag < 2 ^ 32)
    (es : EncFields Ts) (ss : SliceFields Us) (v : Tup Ts) (w : Tup Us) (hf : FieldsFit es v)
    (h0 : overcount es v = 0) (h64 : ∀ n, (structToBer tag es).contentLen v = .definite n → n < 2 ^ 64)
    (hb : SliceBack es ss v w) :
    BytesBack (structToBer tag es) (fromBerWith (structTryFrom tag ss)) v w ∧
    BytesBack (structToBer tag es) (structFromDer tag ss) v w := by
  obtain ⟨cs, h1, h2⟩ := fields_write hf
  have hl : (structToBer tag es).contentLen v = .definite cs.length := by
    show es.len v (.definite 0) = _
    rw [h2, h0]; congr 1; omega
  have hn := h64 _ hl
  have he : Encodes (structToBer tag es) v cs := struct_encodes htag ((h1 0).congr rfl (by omega)) hl
  have obj : ∀ (m : Rules) (rest : Bytes), ∃ a : Any,
      ObjectAt m ((structToBer tag es).fullOf v cs ++ rest) a rest ∧ a.header.tag = tag ∧
      SliceReadsFields m ss a.data.data w [] := by
    intro m rest
    obtain ⟨a, k1, k2, k3, k4, k5, k6⟩ := object_full m .universal true tag cs rest htag hn
    refine ⟨a, k1, k4, ?_⟩
    have := slice_fields_back (m := m) hb hf h1 []
    rw [List.append_nil] at this
    rw [k6]; exact this
  constructor
  · refine ⟨_, he.toVec hn, fun rest => ?_⟩
    obtain ⟨a, k1, k2, k3⟩ := obj .ber rest
    exact (C81_slice_accepts tag ss _ _ _).1.mpr ⟨a, _, k1, k2, k3⟩
  · refine ⟨_, he.toVec hn, fun rest => ?_⟩
    obtain ⟨a, k1, k2, k3⟩ := obj .der rest
    exact (C81_slice_accepts tag ss _ _ _).2.mpr ⟨a, _, k1, k2, k3⟩

theorem universal_sliceBack {c : Codec α} {v : α} (h : UniversalValue c v) (hs : SmallContent c.enc v)
    (tag : FieldTag) : SliceComesBack c.enc (berSlice c) v v tag ∧ SliceComesBack c.enc (derSlice c) v v tag ∧
      OwnHeader c.enc v ∧ c.ber.acceptTag (c.enc.tagInfo v).2.2 = true := by
  obtain ⟨cs, hw, hl, ht⟩ := universal_works h
  obtain ⟨n, hn, hlt⟩ := hs
  rw [hl] at hn; injection hn with hn
  have hb := hw.back (by omega)
  refine ⟨?_, ?_, hw.enc.ownHeader (by omega), by rw [hw.tag]; exact hw.accB⟩
  · cases tag with
    | untagged => exact .untagged hb.2.2.1
    | explicit cls n => exact .explicit hb.2.2.1
    | implicit cls n =>
      exact .implicit hw.enc.content fun a g1 g2 g3 g4 => tryFromAny_ok.mpr
        ⟨by rw [g2]; exact hw.accB, hw.ber _ _ (by rw [g1, hw.prim]) g3 g4⟩
  · cases tag with
    | untagged => exact .untagged hb.2.2.2
    | explicit cls n => exact .explicit hb.2.2.2
    | implicit cls n =>
      exact .implicit hw.enc.content fun a g1 g2 g3 g4 => tryFromAny_ok.mpr
        ⟨by rw [g2]; exact hw.accB, hw.ber _ _ (by rw [g1, hw.prim]) g3 g4⟩

theorem universalSlices_back {Ts : List Type} {es : EncFields Ts} {sb sd : SliceFields Ts} {v : Tup Ts}
    (h : UniversalSlices es sb sd v) : FieldsFit es v ∧ SliceBack es sb v v ∧ SliceBack es sd v v := by
  induction h with
  | nil => exact ⟨.nil, .nil, .nil⟩
  | required hu hs hv ht _ ih =>
    obtain ⟨h1, h2, h3⟩ := ih
    obtain ⟨g1, g2, g3⟩ := universal_sliceBack hu hs _
    exact ⟨.cons (Works.fits hu hs) hv ht h1, .required g1 h2, .required g2 h3⟩
  | default hu hs hv ht _ ih =>
    obtain ⟨h1, h2, h3⟩ := ih
    obtain ⟨g1, g2, g3⟩ := universal_sliceBack hu hs _
    exact ⟨.cons (Works.fits hu hs) hv ht h1, .default g1 (fun _ => g3) h2, .default g2 (fun _ => g3) h3⟩

/-- **C81** (partial) In particular the structs of universal types. -/
theorem C81_slice_universal_partial {Ts : List Type} (tag : Nat) (htag : tag < 2 ^ 32) (es : EncFields Ts)
    (sb sd : SliceFields Ts) (v : Tup Ts) (h : UniversalSlices es sb sd v) (h0 : overcount es v = 0)
    (h64 : ∀ n, (structToBer tag es).contentLen v = .definite n → n < 2 ^ 64) :
    BytesBack (structToBer tag es) (fromBerWith (structTryFrom tag sb)) v v ∧
    BytesBack (structToBer tag es) (structFromDer tag sd) v v := by
  obtain ⟨h1, h2, h3⟩ := universalSlices_back h
  exact ⟨(C81_slice_roundtrip_partial tag htag es sb v v h1 h0 h64 h2).1,
    (C81_slice_roundtrip_partial tag htag es sd v v h1 h0 h64 h3).2⟩

/-! ### `check_constraints` -/

/-- **C81** Exactly what `check_constraints` of a derived struct accepts: the tag number is right and the
content starts with one DER object for each field, which passes the check of its type. -/
theorem C81_check_accepts (tag : Nat) (checks : List (Any → Except SErr Unit)) (a : Any) :
    structCheck tag checks a = .ok () ↔ a.header.tag = tag ∧ Checked checks a.data.data := by
  have key : ∀ b, checkFields checks b = .ok () ↔ Checked checks b := by
    induction checks with
    | nil => exact fun b => ⟨fun _ => .nil, fun _ => rfl⟩
    | cons c cs ih =>
      intro b
      rw [checkFields]
      constructor
      · intro h
        cases hp : wrapBerParser parseDerAny b with
        | error e => rw [hp] at h; cases h
        | ok y =>
          rw [hp] at h
          obtain ⟨u, h1, h2⟩ := bindS_eq_ok.mp h
          obtain ⟨r, h3, h4⟩ := wrapBerParser_ok.mp hp
          exact .cons ⟨r, h3, h4⟩ h1 ((ih _).mp h2)
      · intro h
        cases h with
        | cons h hc ht =>
          obtain ⟨r, h1, rfl⟩ := h
          have h2 : wrapBerParser parseDerAny b = .ok (r.data, _) := wrapBerParser_ok.mpr ⟨r, h1, rfl⟩
          rw [h2]
          exact bindS_eq_ok.mpr ⟨(), hc, (ih _).mpr ht⟩
  unfold structCheck
  rw [bindS_eq_ok]
  constructor
  · rintro ⟨_, h1, h2⟩
    exact ⟨assertTagS_ok.mp h1, (key _).mp h2⟩
  · rintro ⟨h1, h2⟩
    exact ⟨(), assertTagS_ok.mpr h1, (key _).mpr h2⟩

/-- The fields of `struct S { a: u32, #[tag_explicit(0)] b: bool, #[tag_implicit(1)] #[default(..)]
c: &[u8] }` for `from_ber` and `from_der`. -/
def sampleSliceBer : SliceFields [Nat, Bool, Bytes] :=
  .cons (.required .untagged (berSlice (uintC 4)))
    (.cons (.required (.explicit .contextSpecific 0) (berSlice boolC))
      (.cons (.default (.implicit .contextSpecific 1) (berSlice octetC) [7]) .nil))
/-- The same for `from_der`. -/
def sampleSliceDer : SliceFields [Nat, Bool, Bytes] :=
  .cons (.required .untagged (derSlice (uintC 4)))
    (.cons (.required (.explicit .contextSpecific 0) (derSlice boolC))
      (.cons (.default (.implicit .contextSpecific 1) (derSlice octetC) [7]) .nil))

instance : DecidableEq (Tup [Nat, Bool, Bytes]) :=
  inferInstanceAs (DecidableEq (Nat × Bool × Bytes × Unit))
instance : DecidableEq (Tup [Option Bool, Nat]) :=
  inferInstanceAs (DecidableEq (Option Bool × Nat × Unit))

theorem berContent_tag (h : Header) (t : Nat) (i : Input) (n : Nat) :
    berContent { h with tag := t } i n = berContent h i n := by
  have key : ∀ n, (skipContent n i { h with tag := t }).map Prod.fst = (skipContent n i h).map Prod.fst := by
    intro n
    cases n with
    | zero => rfl
    | succ d =>
      rw [skipContent, skipContent]
      cases hl : h.length with
      | indefinite => rfl
      | definite l =>
        simp only
        have : ∀ t, (if l = 0 ∧ t = tagEndOfContent then (.ok (i, true) : PRes Bool) else do
            let (i, _) ← takeS l i
            pure (i, false)).map Prod.fst = (takeS l i).map Prod.fst := by
          intro t
          split
          · next h => rw [h.1, takeS_eq, if_pos (Nat.zero_le _), after_zero]; rfl
          · cases takeS l i <;> rfl
        rw [this, this]
  have hk := key n
  unfold berContent
  cases h1 : skipContent n i { h with tag := t } with
  | error e =>
    cases h2 : skipContent n i h with
    | error e' => rw [h1, h2] at hk; simp [Except.map] at hk; rw [hk]
    | ok y => rw [h1, h2] at hk; cases hk
  | ok x =>
    cases h2 : skipContent n i h with
    | error e' => rw [h1, h2] at hk; cases hk
    | ok y =>
      rw [h1, h2] at hk
      simp only [Except.map, Except.ok.injEq] at hk
      obtain ⟨x1, x2⟩ := x
      obtain ⟨y1, y2⟩ := y
      simp only at hk
      subst hk
      rfl

theorem octetContent_tag (h : Header) (i : Input) (t : Nat) :
    octetBer.content { h with tag := t } i = octetBer.content h i := by
  show octetContent _ i = octetContent _ i
  unfold octetContent OCTETSTRING_MAX_RECURSION
  rw [parseSegmented, parseSegmented]
  simp only [segContent, berGetContent, berContent_tag]
  rfl

/-- Cases for `C81_slice_accepts`: all fields there; the last one left out; the tag of the second with another
class. -/
example :
    structFromDer 16 sampleSliceDer
        [0x30, 0x0a, 0x02, 0x01, 0x05, 0xa0, 0x03, 0x01, 0x01, 0xff, 0x81, 0x00, 9] =
      .ok ([9], (5, true, [], ())) ∧
    fromBerWith (structTryFrom 16 sampleSliceBer)
        [0x30, 0x08, 0x02, 0x01, 0x05, 0xa0, 0x03, 0x01, 0x01, 0xff] = .ok ([], (5, true, [7], ())) ∧
    (fromBerWith (structTryFrom 16 sampleSliceBer)
        [0x30, 0x08, 0x02, 0x01, 0x05, 0x60, 0x03, 0x01, 0x01, 0xff]).isOk = false := by decide +kernel

/-- A case for `C81_apis_agree_partial`: the same struct in both APIs. -/
example : SameFields .ber sampleSliceBer sampleBer ∧ NoPlainOption sampleBer := by
  have h1 := sameType_ber (t := 2) (strong_uint 4).1.loc rfl (fun _ _ _ => rfl) .untagged
  have h2 := sameType_ber (t := 1) strong_bool.1.loc rfl (fun _ _ _ => rfl) (.explicit .contextSpecific 0)
  have h3 : SameType .ber (berSlice octetC) octetBer (.implicit .contextSpecific 1) :=
    sameType_ber (t := 4) strong_octet.1.loc rfl
      octetContent_tag _
  exact ⟨.required h1 (.required h2 (.default h3 .nil)), ⟨by simp, trivial⟩⟩

/-- A case for `C81_slice_universal_partial`. -/
example : UniversalSlices sampleEnc sampleSliceBer sampleSliceDer (258, true, [1, 2, 3], ()) := by
  refine .required (c := uintC 4) (.uint 4 (by decide) (by decide)) ⟨2, by decide +kernel, by decide⟩ trivial
    (by simp) ?_
  refine .required (c := boolC) .bool ⟨1, rfl, by decide⟩ (by show 0 < 2 ^ 32; decide) (fun _ k hk => ?_) ?_
  · rw [show boolC.enc.totalLen true = .definite 3 by decide +kernel] at hk
    injection hk with hk; subst hk; decide
  · refine .default (c := octetC) .octetString ⟨3, rfl, by decide⟩ (by show 1 < 2 ^ 32; decide)
      (fun _ k hk => ?_) .nil
    rw [show octetC.enc.totalLen [1, 2, 3] = .definite 5 by decide +kernel] at hk
    injection hk with hk; subst hk; decide

/-- The fields of `struct S { a: Option<bool>, b: u8 }`. -/
def sampleOptSlice : SliceFields [Option Bool, Nat] :=
  .cons (.optional .untagged (derSlice boolC)) (.cons (.required .untagged (derSlice (uintC 1))) .nil)

/-- **C81** (deviation) `check_constraints` expects an object for every field, also for those that may be
left out. For `struct S { a: Option<bool>, b: u8 }` it takes the INTEGER for the missing BOOLEAN and refuses
what `from_der` accepts. -/
theorem C81_check_deviation (v : UInt8) (h1 : 1 ≤ v.toNat) (h2 : v.toNat < 128) :
    structFromDer 16 sampleOptSlice [0x30, 3, 2, 1, v] =
      (.ok ([], (none, v.toNat, ())) : Except SErr (Bytes × Tup [Option Bool, Nat])) ∧
    ∃ r a, parseDerAny (Input.fromSlice [0x30, 3, 2, 1, v]) = .ok (r, a) ∧
      structCheck 16 [booleanCheck, checkDerInt] a ≠ .ok () := by
  have key : ∀ n, n < 128 → 1 ≤ n →
      (structFromDer 16 sampleOptSlice [0x30, 3, 2, 1, UInt8.ofNat n] =
        (.ok ([], (none, n, ())) : Except SErr (Bytes × Tup [Option Bool, Nat]))) ∧
      ((parseDerAny (Input.fromSlice [0x30, 3, 2, 1, UInt8.ofNat n])).map fun y =>
        decide (structCheck 16 [booleanCheck, checkDerInt] y.2 ≠ .ok ())) = .ok true := by
    decide +kernel
  obtain ⟨k1, k2⟩ := key v.toNat h2 h1
  rw [UInt8.ofNat_toNat] at k1 k2
  refine ⟨k1, ?_⟩
  cases hp : parseDerAny (Input.fromSlice [0x30, 3, 2, 1, v]) with
  | error e => rw [hp] at k2; cases k2
  | ok y =>
    rw [hp] at k2
    exact ⟨y.1, y.2, rfl, by simpa [Except.map] using k2⟩

/-- Cases for `C81_check_accepts`: an INTEGER and a BOOLEAN; an INTEGER with a superfluous byte. -/
example :
    (parseDerAny (Input.fromSlice [0x30, 6, 2, 1, 5, 1, 1, 0xff])).map
      (fun y => structCheck 16 [checkDerInt, booleanCheck] y.2) = .ok (.ok ()) ∧
    (parseDerAny (Input.fromSlice [0x30, 7, 2, 2, 0, 5, 1, 1, 0xff])).map
      (fun y => (structCheck 16 [checkDerInt, booleanCheck] y.2).isOk) = .ok false := by decide +kernel

end Asn1

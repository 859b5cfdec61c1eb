import Verif.Proofs.Ber
/-!
# The language of complete BER elements accepted by the parser
-/
namespace Asn1
open Spec

/-- Headers are self-delimiting: two readings of the same bytes agree. -/
theorem header_unique {c c' : Class} {p p' : Bool} {t t' : Nat} {l l' : Length}
    {id id' len len' x x' : Bytes}
    (h1 : Ident c p t id) (h2 : Len p l len) (h1' : Ident c' p' t' id') (h2' : Len p' l' len')
    (he : id ++ len ++ x = id' ++ len' ++ x') :
    c = c' ∧ p = p' ∧ t = t' ∧ l = l' ∧ id = id' ∧ len = len' ∧ x = x' := by
  let i : Input := ⟨id ++ len ++ x, 0, 0⟩
  have e1 : parseHeader i = .ok (after i (id.length + len.length),
      ⟨c, p, t, l, some id, some (first i (id.length + len.length))⟩) :=
    parseHeader_ok.mpr ⟨id, len, h1, h2, by simp [i], rfl, rfl, rfl⟩
  have e2 : parseHeader i = .ok (after i (id'.length + len'.length),
      ⟨c', p', t', l', some id', some (first i (id'.length + len'.length))⟩) :=
    parseHeader_ok.mpr ⟨id', len', h1', h2', by simp [i, he], rfl, rfl, rfl⟩
  rw [e1] at e2
  simp only [Except.ok.injEq, Prod.mk.injEq, Header.mk.injEq, Option.some.injEq] at e2
  obtain ⟨_, rfl, rfl, rfl, rfl, rfl, _⟩ := e2
  have := List.append_cancel_left (by simpa [List.append_assoc] using he : id ++ (len ++ x) = id ++ (len' ++ x'))
  have hd := h2
  -- both length groups start with the same byte, which fixes their size
  have hlen : len.length = len'.length := by
    cases h2 with
    | short b hb hl =>
      cases h2' with
      | short b' hb' hl' => rfl
      | indefinite b' hb' hc' hl' => rfl
      | long b' bs' hb' h0' h1' hv' hl' => simp at this; rw [this.1] at hb; omega
    | indefinite b hb hc hl =>
      cases h2' with
      | short b' hb' hl' => rfl
      | indefinite b' hb' hc' hl' => rfl
      | long b' bs' hb' h0' h1' hv' hl' => simp at this; rw [this.1] at hb; omega
    | long b bs hb h0 h1 hv hl =>
      cases h2' with
      | short b' hb' hl' => simp at this; rw [this.1] at hb; omega
      | indefinite b' hb' hc' hl' => simp at this; rw [this.1] at hb; omega
      | long b' bs' hb' h0' h1' hv' hl' => simp at this ⊢; rw [this.1] at hb; omega
  obtain ⟨a, b⟩ := List.append_inj this hlen
  simp [a, b]

/-- One element (header and content) as read by one turn of the loop. -/
def oneElem (d : Nat) (i : Input) : PRes Bool :=
  parseHeader i >>= fun x => skipContent d x.1 x.2

theorem oneElem_zero (i : Input) (v) : oneElem 0 i ≠ .ok v := by
  unfold oneElem
  intro h
  obtain ⟨x, _, h⟩ := bind_eq_ok.mp h
  simp [skipContent, nomErr] at h

/-- The end-of-contents octets, as the code sees them. -/
theorem oneElem_eoc {d : Nat} {i r : Input} :
    oneElem (d + 1) i = .ok (r, true) ↔
      ∃ e, LaxEoc e ∧ i.data = e ++ r.data ∧ r = after i e.length := by
  unfold oneElem
  constructor
  · intro h
    obtain ⟨⟨i2, hd⟩, hp, h⟩ := bind_eq_ok.mp h
    obtain ⟨id, len, h1, h2, h3, h4, h5, h6⟩ := parseHeader_ok.mp hp
    simp only at h
    cases hl : hd.length with
    | definite n =>
      rw [skipContent_def hl] at h
      split at h
      · rename_i hc
        simp at h; subst h
        refine ⟨id ++ len, ⟨hd.cls, hd.constructed, id, len, ?_, ?_, rfl⟩, h3, by simpa using h4⟩
        · have := hc.2; simp [tagEndOfContent] at this; rw [← this]; exact h1
        · rw [hl, hc.1] at h2; exact h2
      · obtain ⟨_, _, h⟩ := bind_eq_ok.mp h
        simp at h
    | indefinite =>
      rw [skipContent_indef hl] at h
      split at h
      · exfalso
        -- the loop always answers `false`
        have : ∀ (n : Nat) (j : Input), j.data.length ≤ n →
            ∀ r, skipLoopL (fun i h => skipContent d i h) j ≠ .ok (r, true) := by
          intro n
          induction n with
          | zero =>
            intro j hj r h
            obtain ⟨k, hk, hk', _⟩ := skipLoopL_two (good_skipContent d) h
            omega
          | succ n ih =>
            intro j hj r h
            rw [skipLoopL_eq (good_skipContent d)] at h
            obtain ⟨⟨i2, h2⟩, hp, h⟩ := bind_eq_ok.mp h
            obtain ⟨⟨i3, eoc⟩, hk, h⟩ := bind_eq_ok.mp h
            have := skipStep_lt (good_skipContent d) hp hk
            cases eoc
            · simp only [Bool.false_eq_true, if_false] at h
              exact ih i3 (by omega) _ h
            · simp at h
        exact this _ _ (Nat.le_refl _) _ h
      · simp [nomErr] at h
  · rintro ⟨e, ⟨c, p, id, len, h1, h2, rfl⟩, h3, h4⟩
    refine bind_eq_ok.mpr ⟨(r, ⟨c, p, 0, .definite 0, some id,
      some (first i (id.length + len.length))⟩), ?_, ?_⟩
    · exact parseHeader_ok.mpr ⟨id, len, h1, h2, h3, by simpa using h4, rfl, rfl⟩
    · simp only
      rw [skipContent_def (n := 0) rfl]
      simp [tagEndOfContent]

theorem laxEoc_def {c : Class} {p : Bool} {t n : Nat} {id len content : Bytes}
    (h1 : Ident c p t id) (h2 : Len p (.definite n) len) (hc : content.length = n) :
    LaxEoc (id ++ len ++ content) ↔ n = 0 ∧ t = 0 := by
  constructor
  · rintro ⟨c', p', id', len', h1', h2', he⟩
    obtain ⟨_, _, rfl, hl, _⟩ := header_unique (x' := []) h1 h2 h1' h2' (by simpa using he)
    simp at hl; exact ⟨hl, rfl⟩
  · rintro ⟨rfl, rfl⟩
    have : content = [] := List.length_eq_zero_iff.mp hc
    subst this
    exact ⟨c, p, id, len, h1, h2, by simp⟩

theorem laxEoc_indef {c : Class} {p : Bool} {t : Nat} {id len x : Bytes}
    (h1 : Ident c p t id) (h2 : Len p .indefinite len) : ¬ LaxEoc (id ++ len ++ x) := by
  rintro ⟨c', p', id', len', h1', h2', he⟩
  obtain ⟨_, _, rfl, hl, _⟩ := header_unique (x' := []) h1 h2 h1' h2' (by simpa using he)
  simp at hl

/-- What the loop reads, given what one turn reads. -/
theorem skipLoopL_ok {d : Nat} (P : Bytes → Prop)
    (hone : ∀ i r, oneElem (d + 1) i = .ok (r, false) ↔
      ∃ it, P it ∧ ¬ LaxEoc it ∧ i.data = it ++ r.data ∧ r = after i it.length)
    {i r : Input} {a : Bool} :
    skipLoopL (fun i h => skipContent (d + 1) i h) i = .ok (r, a) ↔
      a = false ∧ ∃ items eoc, Items LaxEoc P items eoc ∧
        i.data = items.flatten ++ eoc ++ r.data ∧
        r = after i (items.flatten.length + eoc.length) := by
  have hs := good_skipContent (d + 1)
  have step : ∀ j, skipLoopL (fun i h => skipContent (d + 1) i h) j =
      oneElem (d + 1) j >>= fun y => if y.2 then pure (y.1, false)
        else skipLoopL (fun i h => skipContent (d + 1) i h) y.1 := by
    intro j
    rw [skipLoopL_eq hs, oneElem]
    cases parseHeader j <;> rfl
  constructor
  · have : ∀ (n : Nat) (j r : Input) (a : Bool), j.data.length ≤ n →
        skipLoopL (fun i h => skipContent (d + 1) i h) j = .ok (r, a) →
        a = false ∧ ∃ items eoc, Items LaxEoc P items eoc ∧
          j.data = items.flatten ++ eoc ++ r.data ∧
          r = after j (items.flatten.length + eoc.length) := by
      intro n
      induction n with
      | zero =>
        intro j r a hj h
        obtain ⟨k, hk, hk', _⟩ := skipLoopL_two hs h
        omega
      | succ n ih =>
        intro j r a hj h
        rw [step] at h
        obtain ⟨⟨i3, eoc⟩, h1, h⟩ := bind_eq_ok.mp h
        have hlt : i3.data.length + 2 ≤ j.data.length := by
          obtain ⟨⟨i2, h2⟩, hp, hk⟩ := bind_eq_ok.mp h1
          exact skipStep_lt hs hp hk
        cases eoc
        · simp only [Bool.false_eq_true, if_false] at h
          obtain ⟨rfl, items, eoc, ⟨hi1, hi2⟩, hd, hr⟩ := ih i3 _ _ (by omega) h
          obtain ⟨it, hP, hE, hd', hr'⟩ := (hone _ _).mp h1
          refine ⟨rfl, it :: items, eoc, ⟨?_, hi2⟩, ?_, ?_⟩
          · intro x hx
            simp at hx
            rcases hx with rfl | hx
            · exact ⟨hP, hE⟩
            · exact hi1 x hx
          · rw [hd', hd]; simp
          · rw [hr, hr']; simp; congr 1; omega
        · simp at h
          obtain ⟨rfl, rfl⟩ := h
          obtain ⟨e, he, hd, hr⟩ := oneElem_eoc.mp h1
          exact ⟨rfl, [], e, ⟨by simp, he⟩, by simpa using hd, by simpa using hr⟩
    exact this _ i r a (Nat.le_refl _)
  · rintro ⟨rfl, items, eoc, ⟨hi1, hi2⟩, hd, hr⟩
    induction items generalizing i with
    | nil =>
      rw [step]
      have := (oneElem_eoc (d := d) (i := i) (r := r)).mpr ⟨eoc, hi2, by simpa using hd, by simpa using hr⟩
      rw [this]; rfl
    | cons it items ih =>
      rw [step]
      have := (hone i (after i it.length)).mpr
        ⟨it, (hi1 it (by simp)).1, (hi1 it (by simp)).2, by simp [hd], rfl⟩
      rw [this]
      simp only [bind_ok, Bool.false_eq_true, if_false]
      refine ih (fun x hx => hi1 x (by simp [hx])) ?_ ?_
      · simp [hd]
      · rw [hr]; simp; congr 1; omega

/-- One turn of the loop reads exactly one complete element. -/
theorem oneElem_ok (d : Nat) : ∀ i r, oneElem (d + 1) i = .ok (r, false) ↔
      ∃ it, Elem LaxEoc d it ∧ ¬ LaxEoc it ∧ i.data = it ++ r.data ∧ r = after i it.length := by
  have hdef : ∀ d i r, (∃ it, DefElem it ∧ ¬ LaxEoc it ∧ i.data = it ++ r.data ∧
      r = after i it.length) → oneElem (d + 1) i = .ok (r, false) := by
    rintro d i r ⟨it, ⟨c, p, tag, id, len, content, h1, h2, rfl⟩, hE, hd, hr⟩
    rw [laxEoc_def h1 h2 rfl] at hE
    unfold oneElem
    refine bind_eq_ok.mpr ⟨(after i (id.length + len.length), ⟨c, p, tag,
      .definite content.length, some id, some (first i (id.length + len.length))⟩), ?_, ?_⟩
    · exact parseHeader_ok.mpr ⟨id, len, h1, h2, by simp [hd], rfl, rfl, rfl⟩
    · simp only
      rw [skipContent_def (n := content.length) rfl, if_neg (by simpa [tagEndOfContent] using hE),
        takeS_eq, if_pos (by simp [hd])]
      simp [hr]; congr 1; omega
  have hdef' : ∀ (d : Nat) (i i2 r : Input) (hdr : Header) (n : Nat), parseHeader i = .ok (i2, hdr) →
      hdr.length = .definite n → skipContent (d + 1) i2 hdr = .ok (r, false) →
      ∃ it, DefElem it ∧ ¬ LaxEoc it ∧ i.data = it ++ r.data ∧ r = after i it.length := by
    intro d i i2 r hdr n hp hl h
    obtain ⟨id, len, h1, h2, h3, h4, h5, h6⟩ := parseHeader_ok.mp hp
    rw [skipContent_def hl] at h
    split at h
    · simp at h
    · rename_i hne
      obtain ⟨⟨r2, c2⟩, h, he⟩ := bind_eq_ok.mp h
      simp at he; subst he
      rw [takeS_eq] at h
      split at h <;> simp at h
      rename_i hle
      have hlen : (i2.data.take n).length = n := by simp; omega
      refine ⟨id ++ len ++ i2.data.take n, ⟨hdr.cls, hdr.constructed, hdr.tag, id, len, _, h1, ?_, rfl⟩,
        ?_, ?_, ?_⟩
      · rw [hlen, ← hl]; exact h2
      · rw [laxEoc_def h1 (hl ▸ h2) hlen]; simpa [tagEndOfContent] using hne
      · rw [← h, h3]; simp
      · rw [← h]
        have : (id ++ len ++ List.take n i2.data).length = id.length + len.length + n := by
          simp only [List.length_append, hlen]
        rw [this]
        conv => lhs; rw [h4]
        simp
  induction d with
  | zero =>
    intro i r
    constructor
    · intro h
      obtain ⟨⟨i2, hdr⟩, hp, h⟩ := bind_eq_ok.mp h
      simp only at h
      cases hl : hdr.length with
      | definite n => exact hdef' 0 i i2 r hdr n hp hl h
      | indefinite =>
        exfalso
        rw [skipContent_indef hl] at h
        split at h
        · rw [skipLoopL_eq (good_skipContent 0)] at h
          obtain ⟨x, _, h⟩ := bind_eq_ok.mp h
          simp [skipContent, nomErr] at h
        · simp [nomErr] at h
    · exact hdef 0 i r
  | succ d ih =>
    intro i r
    constructor
    · intro h
      obtain ⟨⟨i2, hdr⟩, hp, h⟩ := bind_eq_ok.mp h
      simp only at h
      cases hl : hdr.length with
      | definite n =>
        obtain ⟨it, h1, h2⟩ := hdef' _ i i2 r hdr n hp hl h
        exact ⟨it, Or.inl h1, h2⟩
      | indefinite =>
        rw [skipContent_indef hl] at h
        split at h
        · rename_i hcons
          obtain ⟨_, items, eoc, hi, hd, hr⟩ := (skipLoopL_ok _ ih).mp h
          obtain ⟨id, len, h1, h2, h3, h4, h5, h6⟩ := parseHeader_ok.mp hp
          rw [hcons] at h1
          rw [hl, hcons] at h2
          refine ⟨id ++ len ++ (items.flatten ++ eoc),
            Or.inr ⟨hdr.cls, hdr.tag, id, len, items, eoc, h1, h2, hi, by simp⟩,
            laxEoc_indef h1 h2, ?_, ?_⟩
          · rw [h3, hd]; simp
          · rw [hr, h4]; simp; congr 1; omega
        · simp [nomErr] at h
    · rintro ⟨it, h1, hE, hd, hr⟩
      rcases h1 with h1 | ⟨c, tag, id, len, items, eoc, h1, h2, hi, rfl⟩
      · exact hdef _ i r ⟨it, h1, hE, hd, hr⟩
      · unfold oneElem
        refine bind_eq_ok.mpr ⟨(after i (id.length + len.length), ⟨c, true, tag, .indefinite,
          some id, some (first i (id.length + len.length))⟩), ?_, ?_⟩
        · exact parseHeader_ok.mpr ⟨id, len, h1, h2, by simp [hd], rfl, rfl, rfl⟩
        · simp only
          rw [skipContent_indef rfl]
          simp only [if_true]
          refine (skipLoopL_ok _ ih).mpr ⟨rfl, items, eoc, hi, ?_, ?_⟩
          · simp [hd]
          · rw [hr]; simp; congr 1; omega

/-- The content of an object after its header, for a recursion limit `d + 1`. -/
theorem berContent_ok {hdr : Header} {i r data : Input} {d : Nat} :
    berContent hdr i (d + 1) = .ok (r, data) ↔
      match hdr.length with
      | .definite n => n ≤ i.data.length ∧ r = after i n ∧ data = first i n
      | .indefinite => hdr.constructed = true ∧ 0 < d ∧ ∃ items eoc,
          Items LaxEoc (Elem LaxEoc (d - 1)) items eoc ∧
          i.data = items.flatten ++ eoc ++ r.data ∧
          r = after i (items.flatten.length + eoc.length) ∧
          data = first i (items.flatten.length + eoc.length - 2) := by
  rw [berContent_eq]
  cases hl : hdr.length with
  | definite n =>
    rw [skipContent_def hl]
    simp only [Length.isDefinite, if_true, Nat.sub_zero]
    split
    · rename_i hc
      simp [hc.1]
      constructor
      · rintro ⟨rfl, rfl⟩; simp
      · rintro ⟨rfl, rfl⟩; simp
    · rw [takeS_eq]
      split
      · rename_i hle
        simp [hle]
        constructor
        · rintro ⟨rfl, rfl⟩; simp
        · rintro ⟨rfl, rfl⟩; simp
      · rename_i hle
        simp; omega
  | indefinite =>
    rw [skipContent_indef hl]
    cases hdr.constructed
    · simp [nomErr]
    · simp only [if_true, Length.isDefinite, Bool.false_eq_true, if_false, true_and]
      cases d with
      | zero =>
        simp only [Nat.lt_irrefl, false_and, iff_false]
        intro h
        obtain ⟨x, h, _⟩ := bind_eq_ok.mp h
        rw [skipLoopL_eq (good_skipContent 0)] at h
        obtain ⟨x, _, h⟩ := bind_eq_ok.mp h
        simp [skipContent, nomErr] at h
      | succ d =>
        simp only [Nat.zero_lt_succ, true_and, Nat.add_sub_cancel]
        constructor
        · intro h
          obtain ⟨⟨r', a⟩, h1, h2⟩ := bind_eq_ok.mp h
          obtain ⟨_, items, eoc, hi, hd, hr⟩ := (skipLoopL_ok _ (oneElem_ok d)).mp h1
          simp at h2
          obtain ⟨rfl, rfl⟩ := h2
          refine ⟨items, eoc, hi, hd, hr, ?_⟩
          have hst : r'.start = i.start + (items.flatten.length + eoc.length) := by
            conv => lhs; rw [hr]
            simp
          rw [hst]; congr 1; omega
        · rintro ⟨items, eoc, hi, hd, hr, rfl⟩
          refine bind_eq_ok.mpr ⟨(r, false),
            (skipLoopL_ok _ (oneElem_ok d)).mpr ⟨rfl, items, eoc, hi, hd, hr⟩, ?_⟩
          have hst : r.start = i.start + (items.flatten.length + eoc.length) := by
            conv => lhs; rw [hr]
            simp
          simp [hst]

theorem parseBerAny_ok {i r : Input} {a : Any} :
    parseBerAny i = .ok (r, a) ↔
      ∃ r1, parseHeader i = .ok (r1, a.header) ∧
        berContent a.header r1 MAX_RECURSION = .ok (r, a.data) := by
  unfold parseBerAny
  constructor
  · intro h
    obtain ⟨⟨r1, hd⟩, hp, h⟩ := bind_eq_ok.mp h
    obtain ⟨⟨r2, c⟩, hc, h⟩ := bind_eq_ok.mp h
    simp at h
    obtain ⟨rfl, rfl⟩ := h
    exact ⟨r1, hp, hc⟩
  · rintro ⟨r1, hp, hc⟩
    refine bind_eq_ok.mpr ⟨_, hp, bind_eq_ok.mpr ⟨_, hc, rfl⟩⟩

theorem parseDerAny_ok {i r : Input} {a : Any} :
    parseDerAny i = .ok (r, a) ↔
      ∃ r1 n, parseHeader i = .ok (r1, a.header) ∧ a.header.length = .definite n ∧
        n ≤ r1.data.length ∧ r = after r1 n ∧ a.data = first r1 n := by
  rw [parseDerAny_eq]
  constructor
  · intro h
    obtain ⟨⟨r1, hd⟩, hp, h⟩ := bind_eq_ok.mp h
    obtain ⟨⟨r2, c⟩, hc, h⟩ := bind_eq_ok.mp h
    simp at h
    obtain ⟨rfl, rfl⟩ := h
    obtain ⟨hp, hdef⟩ := parseHeaderDer_ok.mp hp
    unfold derContent at hc
    simp only at hc hdef hp ⊢
    cases hl : hd.length with
    | indefinite => rw [hl] at hdef; simp [Length.isDefinite] at hdef
    | definite n =>
      rw [hl] at hc
      simp only [takeS_eq] at hc
      split at hc <;> simp at hc
      exact ⟨r1, n, hp, rfl, by assumption, hc.1.symm, hc.2.symm⟩
  · rintro ⟨r1, n, hp, hl, hle, rfl, hd⟩
    refine bind_eq_ok.mpr ⟨_, parseHeaderDer_ok.mpr ⟨hp, by simp [hl, Length.isDefinite]⟩,
      bind_eq_ok.mpr ⟨(after r1 n, first r1 n), ?_, ?_⟩⟩
    · simp [derContent, hl, takeS_eq, hle]
    · simp [← hd]

end Asn1

import Verif.Proofs.Forms
/-!
# The form of the lengths and `from_ber`
-/
namespace Asn1
open Spec

variable {α β : Type}

/-- A conversion that gives the same value for alike objects. -/
def BlindFrom (f : Any → Except SErr α) : Prop := ∀ (d : Nat) (a a' : Any) (v : α), d ≤ 49 → Alike d a a' →
  Consistent a.header a.data → Consistent a'.header a'.data → f a = .ok v → f a' = .ok v

/-- A decoder that gives the same value for the same objects in other forms. -/
def AgreeFrom (g : Bytes → Except SErr (Bytes × α)) : Prop := ∀ (d : Nat) (b b' r : Bytes) (v : α), d ≤ 49 →
  LikeObjects d b b' → g b = .ok (r, v) → ∃ r', g b' = .ok (r', v) ∧ LikeObjects d r r'

theorem agree_from {f : Any → Except SErr α} (h : BlindFrom f) : AgreeFrom (fromBerWith f) := by
  intro d b b' r v hd hs hv
  obtain ⟨x, a, h1, h2, h3⟩ := fromBerWith_ok.mp hv
  cases hs with
  | nil => exact absurd h1 (parse_nil_fails _ rfl _)
  | @cons _ c c' t t' hb ht =>
    obtain ⟨a1, a', g1, g2, g3⟩ := same_parse (i := Input.fromSlice (c ++ t)) (j := Input.fromSlice (c' ++ t'))
      hb hd rfl rfl
    rw [g1] at h1
    injection h1 with h1
    injection h1 with h1 h5
    subst h1 h5
    refine ⟨t', fromBerWith_ok.mpr ⟨_, a', g2, after_left rfl, h d _ _ v hd g3 (consistent_ber g1)
      (consistent_ber g2) h3⟩, ?_⟩
    rw [← h2, after_left rfl]
    exact ht

theorem agree_repeatsB {g : Bytes → Except SErr (Bytes × α)} (hg : AgreeFrom g) {b : Bytes} {vs : List α}
    (h : RepeatsB g b vs) : ∀ {d : Nat} {b' : Bytes}, d ≤ 49 → LikeObjects d b b' → RepeatsB g b' vs := by
  induction h with
  | nil =>
    intro d b' _ hs
    rw [likeObjects_empty hs rfl]
    exact .nil
  | cons hne hp _ ih =>
    intro d b' hd hs
    obtain ⟨r', h1, h2⟩ := hg d _ _ _ _ hd hs hp
    exact .cons (fun he => hne (likeObjects_empty (likeObjects_symm hs) he)) h1 (ih hd h2)

theorem alike_constructed {d : Nat} {a a' : Any} (h : Alike d a a') (hc : a.header.constructed = true) :
    a'.header.constructed = true ∧ LikeObjects d a.data.data a'.data.data := by
  have h4 := h.2.2.2
  rw [if_pos hc] at h4
  exact ⟨h.2.2.1 ▸ hc, h4⟩

/-- The contents of alike objects, in either form. -/
theorem alike_data {d : Nat} {a a' : Any} (h : Alike d a a') :
    LikeObjects d a.data.data a'.data.data ∨ a.data.data = a'.data.data := by
  have h4 := h.2.2.2
  by_cases hc : a.header.constructed = true
  · rw [if_pos hc] at h4; exact .inl h4
  · rw [if_neg hc] at h4; exact .inr h4.2

theorem blind_simple {p : Parser α} (h : Tree p) : BlindFrom (tryFromAny p) := by
  intro d a a' v hd ha hc hc' hv
  obtain ⟨h1, x, h2⟩ := tryFromAny_ok.mp hv
  obtain ⟨⟨y, w⟩, h3, h4⟩ := alike_content h.1 h.2 hd ha hc hc' _ h2
  simp only at h4
  subst h4
  exact tryFromAny_ok.mpr ⟨ha.2.1 ▸ h1, y, h3⟩

theorem blind_items {f : Any → Except SErr α} (h : BlindFrom f) {d : Nat} {a a' : Any} {vs : List α} (hd : d ≤ 49)
    (ha : Alike d a a') (hc : a.header.constructed = true)
    (hv : collectItems (fromBerWith f) a.data.data = .ok vs) :
    collectItems (fromBerWith f) a'.data.data = .ok vs :=
  (collectItems_ok (endsIn_fromBerWith f)).mpr (agree_repeatsB (agree_from h)
    ((collectItems_ok (endsIn_fromBerWith f)).mp hv) hd (alike_constructed ha hc).2)

theorem blind_vecFrom {f : Any → Except SErr α} (tag : Nat) (h : BlindFrom f) :
    BlindFrom (seqTryFrom tag (fromBerWith f)) := by
  intro d a a' v hd ha _ _ hv
  obtain ⟨h1, h2, h3⟩ := seqTryFrom_ok.mp hv
  exact seqTryFrom_ok.mpr ⟨ha.2.1 ▸ h1, (alike_constructed ha h2).1, blind_items h hd ha h2 h3⟩

theorem blind_setFrom {σ : Type} {f : Any → Except SErr α} (S : SetImpl α σ) (h : BlindFrom f) :
    BlindFrom (setTryFrom S (fromBerWith f)) := by
  intro d a a' v hd ha _ _ hv
  obtain ⟨_, h1, hv⟩ := bindS_eq_ok.mp hv
  obtain ⟨_, h2, hv⟩ := bindS_eq_ok.mp hv
  obtain ⟨vs, h3, hv⟩ := bindS_eq_ok.mp hv
  have hc := assertConstructedS_ok.mp h2
  exact bindS_eq_ok.mpr ⟨(), assertTagS_ok.mpr (ha.2.1 ▸ assertTagS_ok.mp h1), bindS_eq_ok.mpr
    ⟨(), assertConstructedS_ok.mpr (alike_constructed ha hc).1, bindS_eq_ok.mpr
      ⟨vs, blind_items h hd ha hc h3, hv⟩⟩⟩

theorem blind_explicitFrom {f : Any → Except SErr α} (cls : Class) (tag : Nat) (h : BlindFrom f) :
    BlindFrom (explicitTryFrom cls tag (fromBerWith f)) := by
  intro d a a' v hd ha _ _ hv
  obtain ⟨h1, h2, h3, x, h4⟩ := explicitTryFrom_ok.mp hv
  obtain ⟨h5, h6⟩ := alike_constructed ha h2
  obtain ⟨r', h7, _⟩ := agree_from h d _ _ _ _ hd h6 h4
  exact explicitTryFrom_ok.mpr ⟨ha.2.1 ▸ h1, h5, ha.1 ▸ h3, r', h7⟩

theorem blind_implicitFrom {f : Any → Except SErr α} (cls : Class) (tag innerTag : Nat) (h : BlindFrom f) :
    BlindFrom (implicitTryFrom cls tag innerTag f) := by
  intro d a a' v hd ha hc hc' hv
  obtain ⟨h1, h2, h3⟩ := implicitTryFrom_ok.mp hv
  refine implicitTryFrom_ok.mpr ⟨ha.2.1 ▸ h1, ha.1 ▸ h2, h d
    ⟨{ a.header with tag := innerTag }, a.data⟩ _ _ hd ⟨ha.1, rfl, ha.2.2.1, ?_⟩ hc hc' h3⟩
  have h4 := ha.2.2.2
  by_cases hk : a.header.constructed = true
  · rw [if_pos hk] at h4; exact if_pos (c := a.header.constructed = true) hk ▸ h4
  · rw [if_neg hk] at h4
    obtain ⟨⟨g1, g2, _, g4, g5⟩, g6⟩ := h4
    exact if_neg (c := a.header.constructed = true) hk ▸ ⟨⟨g1, g2, rfl, g4, g5⟩, g6⟩

theorem blind_aliasFrom {f : Any → Except SErr α} (h : BlindFrom f) : BlindFrom (aliasTryFrom f) := by
  intro d a a' v hd ha hc hc' hv
  obtain ⟨w, h1, h2⟩ := bindS_eq_ok.mp hv
  exact bindS_eq_ok.mpr ⟨w, h d _ _ _ hd ha hc hc' h1, h2⟩

theorem blind_structFrom {Ts : List Type} {fs : SliceFields Ts} (tag : Nat) (h : AgreeFrom (fs.run .ber)) :
    BlindFrom (structTryFrom tag fs) := by
  intro d a a' v hd ha _ _ hv
  obtain ⟨_, h1, hv⟩ := bindS_eq_ok.mp hv
  refine bindS_eq_ok.mpr ⟨(), assertTagS_ok.mpr (ha.2.1 ▸ assertTagS_ok.mp h1), ?_⟩
  cases hr : fs.run .ber a.data.data with
  | error e => rw [hr] at hv; cases hv
  | ok x =>
    obtain ⟨r, w⟩ := x
    rw [hr] at hv
    cases hv
    rcases alike_data ha with hs | he
    · obtain ⟨r', h2, _⟩ := h d _ _ _ _ hd hs hr
      rw [h2]
    · rw [← he, hr]

/-! ### Fields -/

theorem agree_inner {f : Any → Except SErr (TaggedValue α)} (h : BlindFrom f) :
    AgreeFrom (fun i => fromBerWith f i >>= fun x => pure (x.1, x.2.inner)) := by
  intro d b b' r v hd hs hv
  obtain ⟨⟨r1, t⟩, h1, h2⟩ := bindS_eq_ok.mp hv
  obtain ⟨r', h3, h4⟩ := agree_from h d _ _ _ _ hd hs h1
  cases h2
  exact ⟨r', bindS_eq_ok.mpr ⟨_, h3, rfl⟩, h4⟩

theorem agree_taggedFrom {f : Any → Except SErr α} {n : Nat} {acc : Nat → Bool} (tag : FieldTag) (h : BlindFrom f) :
    AgreeFrom ((⟨fromBerWith f, f, n, acc⟩ : SliceType α).tagged .ber tag) := by
  cases tag with
  | untagged => exact agree_from h
  | explicit cls k => exact agree_inner (blind_explicitFrom cls k h)
  | implicit cls k => exact agree_inner (blind_implicitFrom cls k n h)

theorem same_headerFrom {d : Nat} {b b' : Bytes} (hd : d ≤ 49) (hs : LikeObjects d b b') (hne : b ≠ []) :
    ∃ r h r' h', wrapBerParser parseHeader b = .ok (r, h) ∧ wrapBerParser parseHeader b' = .ok (r', h') ∧
      h.tag = h'.tag := by
  obtain ⟨r, h, r', h', h1, h2, h3, _⟩ :=
    same_header (i := Input.fromSlice b) (j := Input.fromSlice b') hd hs hne
  exact ⟨_, h, _, h', wrapBerParser_ok.mpr ⟨r, h1, rfl⟩, wrapBerParser_ok.mpr ⟨r', h2, rfl⟩, h3⟩

theorem agree_optTaggedFrom {ty : SliceType α} (tag : FieldTag) (k : Nat) (h : AgreeFrom (ty.tagged .ber tag)) :
    AgreeFrom (ty.optTagged .ber tag k) := by
  intro d b b' r v hd hs hv
  unfold SliceType.optTagged at hv ⊢
  by_cases he : b = []
  · subst he
    have he' := likeObjects_empty hs rfl
    subst he'
    cases hv
    exact ⟨[], rfl, .nil⟩
  · have he' : b' ≠ [] := fun e => he (likeObjects_empty (likeObjects_symm hs) e)
    rw [if_neg (by simpa using he)] at hv
    rw [if_neg (by simpa using he')]
    obtain ⟨x, hh, x', hh', g1, g2, g3⟩ := same_headerFrom hd hs he
    have g1' : wrapBerParser (Rules.ber).header b = .ok (x, hh) := g1
    have g2' : wrapBerParser (Rules.ber).header b' = .ok (x', hh') := g2
    obtain ⟨⟨y, h1⟩, h2, h3⟩ := bindS_eq_ok.mp hv
    rw [g1'] at h2
    cases h2
    by_cases hk : hh.tag = k
    · simp only [if_pos hk] at h3
      obtain ⟨⟨r1, w⟩, h4, h5⟩ := bindS_eq_ok.mp h3
      obtain ⟨r', h6, h7⟩ := h d _ _ _ _ hd hs h4
      cases h5
      exact ⟨r', bindS_eq_ok.mpr ⟨_, g2', by
        simp only [if_pos (g3 ▸ hk : hh'.tag = k)]; exact bindS_eq_ok.mpr ⟨_, h6, rfl⟩⟩, h7⟩
    · simp only [if_neg hk] at h3
      cases h3
      exact ⟨b', bindS_eq_ok.mpr ⟨_, g2', by simp only [if_neg (g3 ▸ hk : ¬ hh'.tag = k)]; rfl⟩, hs⟩

theorem agree_optionFrom {g : Bytes → Except SErr (Bytes × α)} (acc : Nat → Bool) (h : AgreeFrom g) :
    AgreeFrom (optionFrom acc parseHeader g) := by
  intro d b b' r v hd hs hv
  unfold optionFrom at hv ⊢
  by_cases he : b = []
  · subst he
    have he' := likeObjects_empty hs rfl
    subst he'
    cases hv
    exact ⟨[], rfl, .nil⟩
  · have he' : b' ≠ [] := fun e => he (likeObjects_empty (likeObjects_symm hs) e)
    rw [if_neg (by simpa using he)] at hv
    rw [if_neg (by simpa using he')]
    obtain ⟨x, hh, x', hh', g1, g2, g3⟩ := same_headerFrom hd hs he
    simp only [g1] at hv
    simp only [g2, ← g3]
    by_cases hk : (!acc hh.tag) = true
    · rw [if_pos hk] at hv ⊢
      cases hv
      exact ⟨b', rfl, hs⟩
    · rw [if_neg hk] at hv ⊢
      cases hg : g b with
      | error e => rw [hg] at hv; cases hv
      | ok y =>
        obtain ⟨r1, w⟩ := y
        rw [hg] at hv
        cases hv
        obtain ⟨r', h6, h7⟩ := h d _ _ _ _ hd hs hg
        rw [h6]
        exact ⟨r', rfl, h7⟩

theorem agree_optionalFrom {f : Any → Except SErr α} {n : Nat} {acc : Nat → Bool} (tag : FieldTag)
    (h : BlindFrom f) : AgreeFrom ((⟨fromBerWith f, f, n, acc⟩ : SliceType α).optional .ber tag) := by
  cases tag with
  | untagged => exact agree_optionFrom acc (agree_from h)
  | explicit cls k => exact agree_optTaggedFrom _ k (agree_taggedFrom (.explicit cls k) h)
  | implicit cls k => exact agree_optTaggedFrom _ k (agree_taggedFrom (.implicit cls k) h)

theorem agree_consFrom {T : Type} {Ts : List Type} {f : SliceField T} {fs : SliceFields Ts}
    (h : AgreeFrom (f.parse .ber)) (ht : AgreeFrom (fs.run .ber)) : AgreeFrom ((SliceFields.cons f fs).run .ber) := by
  intro d b b' r v hd hs hv
  obtain ⟨⟨r1, w⟩, h1, hv⟩ := bindS_eq_ok.mp hv
  obtain ⟨⟨r2, ws⟩, h2, hv⟩ := bindS_eq_ok.mp hv
  cases hv
  obtain ⟨r1', g1, g2⟩ := h d _ _ _ _ hd hs h1
  obtain ⟨r2', g3, g4⟩ := ht d _ _ _ _ hd g2 h2
  exact ⟨r2', bindS_eq_ok.mpr ⟨_, g1, bindS_eq_ok.mpr ⟨_, g3, rfl⟩⟩, g4⟩

mutual

theorem blind_treeFrom : {α : Type} → {f : Any → Except SErr α} → TreeFrom f → BlindFrom f
  | _, _, .simple h => blind_simple (tree_type h)
  | _, _, .vec tag h => blind_vecFrom tag (blind_treeFrom h)
  | _, _, .set S h => blind_setFrom S (blind_treeFrom h)
  | _, _, .explicit cls tag h => blind_explicitFrom cls tag (blind_treeFrom h)
  | _, _, .implicit cls tag it h => blind_implicitFrom cls tag it (blind_treeFrom h)
  | _, _, .struct tag h => blind_structFrom tag (agree_treeSlices h)
  | _, _, .alias h => blind_aliasFrom (blind_treeFrom h)

theorem agree_treeSlices : {Ts : List Type} → {fs : SliceFields Ts} → TreeSlices fs → AgreeFrom (fs.run .ber)
  | _, _, .nil => fun _ b b' r v _ hs hv => by cases hv; exact ⟨b', rfl, hs⟩
  | _, _, .required tag h ht => agree_consFrom (agree_taggedFrom tag (blind_treeFrom h)) (agree_treeSlices ht)
  | _, _, .optional tag h ht => agree_consFrom (agree_optionalFrom tag (blind_treeFrom h)) (agree_treeSlices ht)
  | _, _, .default tag x h ht => by
    have h1 := blind_treeFrom h
    refine agree_consFrom (fun d b b' r v hd hs hv => ?_) (agree_treeSlices ht)
    obtain ⟨⟨r1, w⟩, h2, h3⟩ := bindS_eq_ok.mp hv
    obtain ⟨r', h4, h5⟩ := agree_optionalFrom tag h1 d _ _ _ _ hd hs h2
    cases h3
    exact ⟨r', bindS_eq_ok.mpr ⟨_, h4, rfl⟩, h5⟩

end

end Asn1

import Verif.Spec.Stream
import Verif.Proofs.BerLang
import Verif.Props.OctetString
import Verif.Proofs.Codec
/-!
# Errors do not go away when more bytes arrive, unless the bytes end within a tag
-/
namespace Asn1
open Spec

variable {α β : Type}

/-- An error of `p` is an error, the same one, if more bytes follow; or the bytes end within a tag (`T`). -/
def Firm (T : Bytes → Prop) (p : Input → PRes α) : Prop := ∀ i j e, p i = .error (.error j e) →
  (e = .invalidTag ∧ T i.data) ∨ ∀ y, ∃ j', p (extend i y) = .error (.error j' e)

theorem firm_takeS (T : Bytes → Prop) (c : Nat) : Firm T (takeS c) := by
  intro i j e h
  rw [takeS_eq] at h; split at h <;> simp at h

theorem firm_pure (T : Bytes → Prop) (a : α) : Firm T (fun i => (.ok (i, a) : PRes α)) := by
  intro i j e h; simp at h

theorem firm_fail (T : Bytes → Prop) (f : Input → Input) (e : InnerError) :
    Firm T (fun i => (nomErr (f i) e : PRes α)) := by
  intro i j e' h
  simp only [nomErr, Except.error.injEq, PErr.error.injEq] at h
  exact .inr fun y => ⟨f (extend i y), by rw [← h.2]; rfl⟩

theorem endsInTag_here {d : Nat} {x : Bytes} (h : PartOfTag x) : EndsInTag d x := by
  cases d
  · exact h
  · exact .inl h

theorem endsInTag_succ {d : Nat} {x : Bytes} (h : EndsInTag d x) : EndsInTag (d + 1) x := by
  induction d generalizing x with
  | zero => exact .inl h
  | succ d ih =>
    rcases h with h | ⟨c, tag, id, len, items, rest, h1, h2, h3, h4, h5⟩
    · exact .inl h
    · exact .inr ⟨c, tag, id, len, items, rest, h1, h2,
        fun it hit => ⟨elem_mono (Nat.le_succ d) (h3 it hit).1, (h3 it hit).2⟩, ih h4, h5⟩

theorem endsInTag_mono {d d' : Nat} {x : Bytes} (hd : d ≤ d') (h : EndsInTag d x) : EndsInTag d' x := by
  induction d' with
  | zero => rw [Nat.le_zero.mp hd] at h; exact h
  | succ d' ih =>
    rcases Nat.lt_or_ge d (d' + 1) with g | g
    · exact endsInTag_succ (ih (by omega))
    · rw [Nat.le_antisymm hd g] at h; exact h

/-- The bytes end within a tag in an indefinite-length encoding. -/
def CutItems (x : Bytes) : Prop := ∃ d, ∃ items : List Bytes, ∃ rest, (∀ it ∈ items, Elem LaxEoc d it ∧ ¬ LaxEoc it) ∧
  EndsInTag d rest ∧ x = items.flatten ++ rest

theorem cutItems_cons {d : Nat} {it x : Bytes} (h1 : Elem LaxEoc d it) (h2 : ¬ LaxEoc it) (h : CutItems x) :
    CutItems (it ++ x) := by
  obtain ⟨d', items, rest, h3, h4, rfl⟩ := h
  refine ⟨max d d', it :: items, rest, ?_, endsInTag_mono (by omega) h4, by simp⟩
  intro z hz
  rcases List.mem_cons.mp hz with rfl | hz
  · exact ⟨elem_mono (by omega) h1, h2⟩
  · exact ⟨elem_mono (by omega) (h3 z hz).1, (h3 z hz).2⟩

/-- The loop over the octets of a tag number. -/
theorem tagLoop_firm {input : Input} {fuel : Nat} {rem : Input} {c cnt : Nat} {e : PErr}
    (hf : rem.data.length < fuel) (h : tagLoop input fuel rem c cnt = .error e) :
    ((∀ b ∈ rem.data, 128 ≤ b.toNat) ∧ rem.data.length + cnt ≤ 5) ∨
    ∀ (y : Bytes) (input' : Input) (fuel' : Nat), (extend rem y).data.length < fuel' →
      tagLoop input' fuel' (extend rem y) c cnt = .error (.error input' .invalidTag) := by
  induction fuel generalizing rem c cnt with
  | zero => omega
  | succ fuel ih =>
    unfold tagLoop at h
    cases hb : beU8 rem with
    | error e' =>
      have h0 := (beU8_err.mp hb).1
      by_cases hc : cnt ≤ 5
      · left; simp [h0, hc]
      · right
        intro y input' fuel' hf'
        cases fuel' with
        | zero => omega
        | succ fuel' =>
          unfold tagLoop
          cases hb2 : beU8 (extend rem y) with
          | error _ => rfl
          | ok v => simp only; rw [if_pos (by omega), nomErr]
    | ok v =>
      obtain ⟨r1, b⟩ := v
      obtain ⟨h1, h2⟩ := beU8_ok.mp hb
      have hl1 : r1.data.length < fuel := by rw [h1] at hf; simp at hf; omega
      rw [hb] at h
      simp only at h
      have hext := fun y => good_beU8.ext _ _ _ y hb
      have hr : ∀ y, (extend rem y).data.length = (extend r1 y).data.length + 1 := by
        intro y; simp [h1]
      split at h
      · rename_i hc
        right
        intro y input' fuel' hf'
        cases fuel' with
        | zero => omega
        | succ fuel' =>
          unfold tagLoop
          rw [hext y]; simp only; rw [if_pos hc, nomErr]
      · rename_i hc
        split at h
        · simp at h
        · rename_i hb80
          have hbl : 128 ≤ b.toNat := by have := mt (and80_eq b).mpr hb80; omega
          rcases ih hl1 h with ⟨g1, g2⟩ | g
          · left
            rw [h1]
            refine ⟨fun x hx => ?_, by simp; omega⟩
            rcases List.mem_cons.mp hx with rfl | hx
            · exact hbl
            · exact g1 x hx
          · right
            intro y input' fuel' hf'
            cases fuel' with
            | zero => omega
            | succ fuel' =>
              unfold tagLoop
              rw [hext y]; simp only
              rw [if_neg hc, if_neg hb80]
              exact g y input' fuel' (by have := hr y; omega)

theorem firm_parseHeader : Firm PartOfTag parseHeader := by
  intro i j e h
  unfold parseHeader at h
  rcases bind_eq_err.mp h with h1 | ⟨⟨rem, b0⟩, h0, h⟩
  · simpa using (beU8_err.mp h1).2
  simp only at h
  obtain ⟨c, hc⟩ := Option.ne_none_iff_exists'.mp (Class.tryFrom_ne b0)
  rw [hc] at h
  simp only at h
  obtain ⟨hd0, hr0⟩ := beU8_ok.mp h0
  have hext := fun y => good_beU8.ext _ _ _ y h0
  rcases bind_eq_err.mp h with h1 | ⟨⟨rem1, tag, cnt⟩, h1, h⟩
  · unfold parseTag at h1
    simp only at h1
    split at h1
    · rename_i h1f
      have he := tagLoop_err (by omega) h1
      simp only [PErr.error.injEq] at he
      rcases tagLoop_firm (by omega) h1 with ⟨g1, g2⟩ | g
      · refine .inl ⟨he.2, b0, rem.data, hd0, ?_, g1, by omega⟩
        have h31 : (b0 &&& 31).toNat = 31 := by rw [h1f]; rfl
        rw [UInt8.toNat_and] at h31
        have : (31 : UInt8).toNat = 2 ^ 5 - 1 := rfl
        rw [this, Nat.and_two_pow_sub_one_eq_mod] at h31
        exact h31
      · refine .inr fun y => ⟨extend i y, ?_⟩
        unfold parseHeader
        rw [hext y]
        simp only [bind_ok, hc]
        unfold parseTag
        simp only [h1f, if_true]
        rw [g y (extend i y) _ (Nat.lt_succ_self _), he.2]
        rfl
    · simp at h1
  obtain ⟨c', p, ident, hi, hc', hcons, hd, hr, hcnt⟩ := (ident_ok h0).mp h1
  have hext1 := fun y => (ident_ok (rem' := extend rem1 y) (tag := tag) (cnt := cnt)
    (hext y)).mpr ⟨c', p, ident, hi, hc', hcons, by simp [hd],
      by rw [hr, after_extend (by simp [hd])], hcnt⟩
  simp only at h
  rw [if_neg (by simp [hcnt, hd])] at h
  have hcnt' : ∀ y, ¬ cnt > (extend i y).data.length := by
    intro y; simp [hcnt, hd]
  rcases bind_eq_err.mp h with h2 | ⟨⟨rem2, lb⟩, h2, h⟩
  · simpa using (beU8_err.mp h2).2
  have hext2 := fun y => good_beU8.ext _ _ _ y h2
  simp only at h
  rcases bind_eq_err.mp h with h3 | ⟨⟨rem3, len⟩, h3, h⟩
  · refine .inr fun y => ⟨extend i y, ?_⟩
    have key : parseLength (extend i y) (b0 &&& 32 != 0) lb (extend rem2 y) =
        .error (.error (extend i y) e) := by
      unfold parseLength at h3 ⊢
      split at h3
      · rename_i hb
        rw [if_pos hb]
        split at h3
        · rename_i hb2
          rw [if_pos hb2]
          simp only [nomErr, Except.error.injEq, PErr.error.injEq] at h3 ⊢
          exact ⟨trivial, h3.2⟩
        · simp at h3
      · rename_i hb
        rw [if_neg hb]
        split at h3
        · simp at h3
        · rename_i hb2
          rw [if_neg hb2]
          split at h3
          · rename_i hb3
            rw [if_pos hb3]
            simp only [nomErr, Except.error.injEq, PErr.error.injEq] at h3 ⊢
            exact ⟨trivial, h3.2⟩
          · rename_i hb3
            rw [if_neg hb3]
            rcases bind_eq_err.mp h3 with h4 | ⟨⟨r4, lbs⟩, h4, h5⟩
            · rw [takeS_eq] at h4; split at h4 <;> simp at h4
            · rw [(good_takeS _).ext _ _ _ y h4]
              simp only [bind_ok] at h5 ⊢
              cases hu : bytesToU64 lbs.data 0 with
              | some l => rw [hu] at h5; simp at h5
              | none =>
                rw [hu] at h5
                simp only [nomErr, Except.error.injEq, PErr.error.injEq] at h5 ⊢
                exact ⟨trivial, h5.2⟩
    unfold parseHeader
    rw [hext y]
    simp only [bind_ok, hc]
    rw [hext1 y]
    simp only [bind_ok]
    rw [if_neg (hcnt' y), hext2 y]
    simp only [bind_ok]
    rw [key]
    rfl
  · exfalso
    obtain ⟨hd2, hr2⟩ := beU8_ok.mp h2
    obtain ⟨ls, hl, hd3, hr3⟩ := parseLength_ok.mp h3
    simp only at h
    have hst : rem3.start - i.start = ident.length + (lb :: ls).length := by
      rw [hr3, hr2, hr]; simp; omega
    rw [if_neg (by rw [hr3, hr2, hr]; simp), hst, take_eq,
      if_pos (by rw [hd, hd2, hd3]; simp)] at h
    simp at h

theorem firm_skipLoopL {d : Nat}
    (hf : ∀ h : Header, Firm (fun x => h.length = .indefinite ∧ h.constructed = true ∧ CutItems x)
      (fun i => skipContent d i h)) : Firm CutItems (skipLoopL (fun i h => skipContent d i h)) := by
  have hs := good_skipContent d
  have main : ∀ (n : Nat) (i : Input), i.data.length ≤ n → ∀ j e,
      skipLoopL (fun i h => skipContent d i h) i = .error (.error j e) →
      (e = .invalidTag ∧ CutItems i.data) ∨
        ∀ y, ∃ j', skipLoopL (fun i h => skipContent d i h) (extend i y) = .error (.error j' e) := by
    intro n
    induction n with
    | zero =>
      intro i hi j e h
      have hnil : i.data = [] := List.length_eq_zero_iff.mp (by omega)
      have hp : parseHeader i = .error (.incomplete 1) := by
        unfold parseHeader beU8; rw [hnil]; rfl
      rw [skipLoopL_eq hs, hp] at h
      simp at h
    | succ n ih =>
      intro i hi j e h
      rw [skipLoopL_eq hs] at h
      rcases bind_eq_err.mp h with hp | ⟨⟨i2, h2⟩, hp, h⟩
      · rcases firm_parseHeader _ _ _ hp with ⟨g1, g2⟩ | g
        · exact .inl ⟨g1, 0, [], i.data, by simp, g2, by simp⟩
        · refine .inr fun y => ?_
          obtain ⟨j', g⟩ := g y
          exact ⟨j', by rw [skipLoopL_eq hs, g]; rfl⟩
      obtain ⟨k, hk2, hk3, hi2⟩ := parseHeader_consumes hp
      rcases bind_eq_err.mp h with hk | ⟨⟨i3, eoc⟩, hk, h⟩
      · rcases hf h2 _ _ _ hk with ⟨g1, g2, g3, d', items, rest, g4, g5, g6⟩ | g
        · obtain ⟨id, len, q1, q2, q3, q4, q5, q6⟩ := parseHeader_ok.mp hp
          refine .inl ⟨g1, d' + 1, [], i.data, by simp, .inr ⟨h2.cls, h2.tag, id, len, items, rest,
            g3 ▸ q1, ?_, g4, g5, ?_⟩, by simp⟩
          · rw [g2, g3] at q2; exact q2
          · simp only at q3 g6; rw [q3, g6]; simp
        · refine .inr fun y => ?_
          obtain ⟨j', g⟩ := g y
          refine ⟨j', ?_⟩
          have g : skipContent d (extend i2 y) h2 = _ := g
          rw [skipLoopL_eq hs, good_parseHeader.ext _ _ _ y hp]
          simp only [bind_ok]
          rw [g]; rfl
      have hlt := skipStep_lt hs hp hk
      have heq : ∀ y, skipLoopL (fun i h => skipContent d i h) (extend i y) =
          (if eoc = true then pure (extend i3 y, false)
            else skipLoopL (fun i h => skipContent d i h) (extend i3 y)) := by
        intro y
        rw [skipLoopL_eq hs, good_parseHeader.ext _ _ _ y hp]
        simp only [bind_ok]
        have := (hs h2).ext _ _ _ y hk
        simp only at this
        rw [this]
        rfl
      cases eoc
      · simp only [Bool.false_eq_true, if_false] at heq h
        rcases ih i3 (by omega) j e h with ⟨g1, g2⟩ | g
        · left
          refine ⟨g1, ?_⟩
          cases d with
          | zero => simp [skipContent, nomErr] at hk
          | succ d =>
            have h1 : oneElem (d + 1) i = .ok (i3, false) := bind_eq_ok.mpr ⟨_, hp, hk⟩
            obtain ⟨it, q1, q2, q3, q4⟩ := (oneElem_ok d _ _).mp h1
            rw [q3]
            exact cutItems_cons q1 q2 g2
        · exact .inr fun y => by rw [heq]; exact g y
      · simp at h
  exact fun i => main _ i (Nat.le_refl _)

theorem firm_skipContent (d : Nat) (hdr : Header) :
    Firm (fun x => hdr.length = .indefinite ∧ hdr.constructed = true ∧ CutItems x)
      (fun i => skipContent d i hdr) := by
  induction d generalizing hdr with
  | zero => exact firm_fail _ id .berMaxDepth
  | succ d ih =>
    cases hl : hdr.length with
    | definite n =>
      simp only [skipContent_def hl]
      by_cases h : n = 0 ∧ hdr.tag = tagEndOfContent
      · simp only [if_pos h]; exact firm_pure _ true
      · simp only [if_neg h]
        intro i j e h
        rcases bind_eq_err.mp h with h1 | ⟨_, _, h1⟩
        · rw [takeS_eq] at h1; split at h1 <;> simp at h1
        · simp at h1
    | indefinite =>
      simp only [skipContent_indef hl]
      cases hc : hdr.constructed
      · exact firm_fail _ id .constructExpected
      · intro i j e h
        rcases firm_skipLoopL ih i j e h with ⟨g1, g2⟩ | g
        · exact .inl ⟨g1, by simp, by simp, g2⟩
        · exact .inr g

theorem firm_berContent (hdr : Header) (d : Nat) :
    Firm (fun x => hdr.length = .indefinite ∧ hdr.constructed = true ∧ CutItems x)
      (fun i => berContent hdr i d) := by
  simp only [berContent_eq]
  intro i j e h
  rcases bind_eq_err.mp h with h1 | ⟨_, _, h2⟩
  · rcases firm_skipContent d hdr _ _ _ h1 with g | g
    · exact .inl g
    · refine .inr fun y => ?_
      obtain ⟨j', g⟩ := g y
      exact ⟨j', bind_eq_err.mpr (.inl g)⟩
  · simp at h2

theorem firm_derContent (T : Bytes → Prop) (hdr : Header) : Firm T (derContent hdr) := by
  unfold derContent
  cases hdr.length with
  | definite l => exact firm_takeS T l
  | indefinite => exact firm_fail T id _

theorem firm_parseHeaderDer : Firm PartOfTag parseHeaderDer := by
  intro i j e hp
  unfold parseHeaderDer at hp ⊢
  rcases bind_eq_err.mp hp with h1 | ⟨⟨r1, hd⟩, h1, h2⟩
  · rcases firm_parseHeader _ _ _ h1 with g | g
    · exact .inl g
    · refine .inr fun y => ?_
      obtain ⟨j', g⟩ := g y
      exact ⟨j', bind_eq_err.mpr (.inl g)⟩
  · refine .inr fun y => ⟨extend i y, ?_⟩
    rw [good_parseHeader.ext _ _ _ y h1]
    simp only [bind_ok] at h2 ⊢
    split at h2
    · rename_i h3
      rw [if_pos h3]
      have h4 := (PErr.error.injEq _ _ _ _ ▸ Except.error.inj h2 : _ ∧ _).2
      rw [nomErr, h4]
    · simp at h2

end Asn1

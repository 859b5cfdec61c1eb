import Verif.Spec.Width
import Verif.Proofs.Weight
import Verif.Props.Generic
import Verif.Props.DeriveRead
/-!
# Targets whose `usize` has `w` bits: the decoders
-/
namespace Asn1
open Asn1.Spec

variable {α β : Type} {w : Nat} {o : Bool}

/-- Two answers are the same, or the second is `InvalidLength`, and if `o` does not hold the first is an error too. -/
def AnswersAlike (o : Bool) (f g : Except PErr α) : Prop :=
  g = f ∨ ((o = true ∨ ∃ e, f = .error e) ∧ ∃ j, g = .error (.error j .invalidLength))

theorem answers_bind {o} {f g : Except PErr α} {k k' : α → Except PErr β} (h : AnswersAlike o f g)
    (hk : ∀ x, f = .ok x → AnswersAlike o (k x) (k' x)) : AnswersAlike o (f >>= k) (g >>= k') := by
  rcases h with rfl | ⟨ho | ⟨e, rfl⟩, j, rfl⟩
  · cases hf : g with
    | error e => exact .inl rfl
    | ok x => exact hk x hf
  · exact .inr ⟨.inl ho, j, rfl⟩
  · exact .inr ⟨.inr ⟨e, rfl⟩, j, rfl⟩

/-- With the same first part. -/
theorem answers_then {o} {f : Except PErr α} {k k' : α → Except PErr β}
    (hk : ∀ x, f = .ok x → AnswersAlike o (k x) (k' x)) : AnswersAlike o (f >>= k) (f >>= k') :=
  answers_bind (.inl rfl) hk

theorem answers_strict {f g : Except PErr α} (h : AnswersAlike false f g) : SameOrTooLong f g := by
  rcases h with h | ⟨h | h, hj⟩
  · exact .inl h
  · cases h
  · exact .inr ⟨h, hj⟩

theorem answers_refused {o} {f g : Except PErr α} (h : AnswersAlike o f g) : SameOrRefused f g := by
  rcases h with h | ⟨_, hj⟩
  · exact .inl h
  · exact .inr hj

/-! ### Headers -/

theorem parseLengthW_eq (hw : 8 ≤ w) (input : Input) (c : Bool) (b : UInt8) (rem : Input) :
    parseLengthW w input c b rem = parseLength input c b rem >>= fun x =>
      match x.2 with
      | .definite l => if l < 2 ^ w then .ok x else nomErr input .invalidLength
      | .indefinite => .ok x := by
  unfold parseLengthW parseLength
  by_cases h1 : b = 0x80
  · rw [if_pos h1, if_pos h1]
    cases c <;> rfl
  rw [if_neg h1, if_neg h1]
  by_cases h2 : b &&& 0x80 = 0
  · rw [if_pos h2, if_pos h2]
    have hb := b.toNat_lt
    have : 2 ^ 8 ≤ 2 ^ w := Nat.pow_le_pow_right (by decide) hw
    simp only [bind_ok]
    rw [if_pos (by omega)]
  rw [if_neg h2, if_neg h2]
  by_cases h3 : b = 0xff
  · rw [if_pos h3, if_pos h3]; rfl
  rw [if_neg h3, if_neg h3]
  cases takeS (b &&& 0x7f).toNat rem with
  | error e => rfl
  | ok x =>
    obtain ⟨r, lb⟩ := x
    simp only [bind_ok]
    cases bytesToU64 lb.data 0 with
    | none => rfl
    | some l => rfl

/-- The header parsers differ on the headers whose length does not fit, which one of them refuses. -/
theorem parseHeaderW_cases (hw : 8 ≤ w) (i : Input) :
    (parseHeaderW w i = parseHeader i ∧ ∀ r h l, parseHeader i = .ok (r, h) → h.length = .definite l → l < 2 ^ w) ∨
    ∃ r h l, parseHeader i = .ok (r, h) ∧ h.length = .definite l ∧ 2 ^ w ≤ l ∧
      parseHeaderW w i = .error (.error i .invalidLength) := by
  have hp := good_parseHeader.noPanic i
  generalize hf : parseHeader i = f at hp
  generalize hg : parseHeaderW w i = g
  unfold parseHeader at hf
  unfold parseHeaderW at hg
  cases h1 : beU8 i with
  | error e => rw [h1] at hf hg; subst hf hg; exact .inl ⟨rfl, fun _ _ _ h => nomatch h⟩
  | ok x =>
  obtain ⟨r0, b0⟩ := x
  rw [h1] at hf hg
  simp only [bind_ok] at hf hg
  cases h2 : Class.tryFrom (b0 >>> 6) with
  | none => simp only [h2] at hf; exact absurd hf.symm hp
  | some cls =>
  simp only [h2] at hf hg
  cases h3 : parseTag i b0 r0 with
  | error e => rw [h3] at hf hg; subst hf hg; exact .inl ⟨rfl, fun _ _ _ h => nomatch h⟩
  | ok x =>
  obtain ⟨r1, tag, cnt⟩ := x
  rw [h3] at hf hg
  simp only [bind_ok] at hf hg
  by_cases h4 : cnt > i.data.length
  · rw [if_pos h4] at hf; exact absurd hf.symm hp
  rw [if_neg h4] at hf hg
  cases h5 : beU8 r1 with
  | error e => rw [h5] at hf hg; subst hf hg; exact .inl ⟨rfl, fun _ _ _ h => nomatch h⟩
  | ok x =>
  obtain ⟨r2, lb⟩ := x
  rw [h5] at hf hg
  simp only [bind_ok] at hf hg
  rw [parseLengthW_eq hw] at hg
  cases h6 : parseLength i ((b0 &&& 0x20) != 0) lb r2 with
  | error e => rw [h6] at hf hg; subst hf hg; exact .inl ⟨rfl, fun _ _ _ h => nomatch h⟩
  | ok x =>
  obtain ⟨r3, len⟩ := x
  rw [h6] at hf hg
  simp only [bind_ok] at hf hg
  by_cases h7 : r3.start < i.start
  · rw [if_pos h7] at hf; exact absurd hf.symm hp
  rw [if_neg h7] at hf
  cases h8 : i.take (r3.start - i.start) with
  | error e =>
    rw [h8] at hf
    have : e = .panic := by
      unfold Input.take at h8
      by_cases h9 : r3.start - i.start ≤ i.data.length
      · rw [if_pos h9] at h8; cases h8
      · rw [if_neg h9] at h8; exact (Except.error.inj h8).symm
    subst this
    exact absurd hf.symm hp
  | ok rh =>
  rw [h8] at hf
  have hf' : f = .ok (r3, ⟨cls, (b0 &&& 0x20) != 0, tag, len, some (i.data.take cnt), some rh⟩) := hf.symm
  cases len with
  | indefinite =>
    simp only [bind_ok] at hg
    rw [if_neg h7, h8] at hg
    refine .inl ⟨?_, ?_⟩
    · rw [hf', ← hg]; rfl
    · intro r h l h9 h10
      rw [hf'] at h9
      cases h9
      cases h10
  | definite l =>
    simp only at hg
    by_cases hl : l < 2 ^ w
    · rw [if_pos hl] at hg
      simp only [bind_ok] at hg
      rw [if_neg h7, h8] at hg
      refine .inl ⟨?_, ?_⟩
      · rw [hf', ← hg]; rfl
      · intro r h l' h9 h10
        rw [hf'] at h9
        cases h9
        cases h10
        exact hl
    · rw [if_neg hl] at hg
      exact .inr ⟨_, _, l, hf', rfl, by omega, hg.symm⟩

/-! ### Contents -/

theorem skipContent_long {d : Nat} {i : Input} {h : Header} {l : Nat} (hl : h.length = .definite l)
    (hi : i.data.length < l) : ∃ e, skipContent d i h = .error e := by
  cases d with
  | zero => exact ⟨_, rfl⟩
  | succ d =>
    simp only [skipContent, hl]
    rw [if_neg (by omega), takeS_eq, if_neg (by omega)]
    exact ⟨_, rfl⟩

theorem skipLoopW_same (hw : 8 ≤ w) {skip skip' : Input → Header → PRes Bool}
    (hg : ∀ h, Good fun i => skip i h)
    (hlong : ∀ i h l, h.length = .definite l → i.data.length < l → ∃ e, skip i h = .error e)
    (hs : ∀ i h, i.data.length < 2 ^ w → AnswersAlike o (skip i h) (skip' i h)) (fuel : Nat) (i : Input)
    (hi : i.data.length < 2 ^ w) : AnswersAlike o (skipLoop skip fuel i) (skipLoopW w skip' fuel i) := by
  induction fuel generalizing i with
  | zero => exact .inl rfl
  | succ fuel ih =>
    unfold skipLoop skipLoopW
    rcases parseHeaderW_cases hw i with ⟨h1, _⟩ | ⟨r, h, l, h1, h2, h3, h4⟩
    · rw [h1]
      refine answers_then fun x hx => ?_
      obtain ⟨r, h⟩ := x
      obtain ⟨k, hk, rfl⟩ := good_parseHeader.adv _ _ _ hx
      have hr : (after i k).data.length < 2 ^ w := by simp; omega
      refine answers_bind (hs _ h hr) fun y hy => ?_
      obtain ⟨r', eoc⟩ := y
      obtain ⟨k', hk', rfl⟩ := (hg h).adv _ _ _ hy
      cases eoc with
      | true => exact .inl rfl
      | false => exact ih _ (by simp at hr ⊢; omega)
    · rw [h1, h4]
      obtain ⟨k, hk, rfl⟩ := good_parseHeader.adv _ _ _ h1
      obtain ⟨e, he⟩ := hlong (after i k) h l h2 (by simp; omega)
      refine .inr ⟨.inr ⟨e, ?_⟩, i, rfl⟩
      simp only [bind_ok]
      rw [he]
      rfl

theorem skipContentW_same (hw : 8 ≤ w) (d : Nat) (i : Input) (h : Header) (hi : i.data.length < 2 ^ w) :
    AnswersAlike o (skipContent d i h) (skipContentW w d i h) := by
  induction d generalizing i h with
  | zero => exact .inl rfl
  | succ d ih =>
    unfold skipContent skipContentW
    cases h.length with
    | definite l => exact .inl rfl
    | indefinite =>
      refine answers_then fun _ _ => ?_
      exact skipLoopW_same hw (good_skipContent d) (fun i h l h1 h2 => skipContent_long h1 h2)
        (fun i h hi => ih i h hi) _ i hi

theorem berContentW_same (hw : 8 ≤ w) (h : Header) (i : Input) (d : Nat) (hi : i.data.length < 2 ^ w) :
    AnswersAlike o (berContent h i d) (berContentW w h i d) :=
  answers_bind (skipContentW_same hw d i h hi) fun _ _ => .inl rfl

theorem berContent_long {h : Header} {i : Input} {d l : Nat} (hl : h.length = .definite l)
    (hi : i.data.length < l) : ∃ e, berContent h i d = .error e := by
  obtain ⟨e, he⟩ := skipContent_long (d := d) hl hi
  refine ⟨e, ?_⟩
  unfold berContent
  rw [he]
  rfl

/-! ### Decoders -/

/-- The two decoders answer alike on what fits the memory, and do not give back more than they were given. -/
structure SameOn (w : Nat) (o : Bool) (f g : Input → PRes α) : Prop where
  same : ∀ i, i.data.length < 2 ^ w → AnswersAlike o (f i) (g i)
  less : ∀ i r v, f i = .ok (r, v) → r.data.length ≤ i.data.length

/-- The two types decode contents alike. -/
structure SameParser (w : Nat) (o : Bool) (p p' : Parser α) : Prop where
  accept : p'.acceptTag = p.acceptTag
  content : ∀ h i, i.data.length < 2 ^ w → AnswersAlike o (p.content h i) (p'.content h i)

theorem sameParser_refl (p : Parser α) : SameParser w o p p := ⟨rfl, fun _ _ _ => .inl rfl⟩

theorem headerDerW_cases (hw : 8 ≤ w) (i : Input) :
    parseHeaderDerW w i = parseHeaderDer i ∨
    ∃ r h l, parseHeaderDer i = .ok (r, h) ∧ h.length = .definite l ∧ 2 ^ w ≤ l ∧
      parseHeaderDerW w i = .error (.error i .invalidLength) := by
  rcases parseHeaderW_cases hw i with ⟨h1, _⟩ | ⟨r, h, l, h1, h2, h3, h4⟩
  · left; unfold parseHeaderDerW parseHeaderDer; rw [h1]
  · right
    refine ⟨r, h, l, parseHeaderDer_ok.mpr ⟨h1, by rw [h2]; rfl⟩, h2, h3, ?_⟩
    unfold parseHeaderDerW
    rw [h4]
    rfl

theorem parseBerW_same (hw : 8 ≤ w) {p p' : Parser α} (hp : SameParser w o p p') (i : Input)
    (hi : i.data.length < 2 ^ w) : AnswersAlike o (p.parseBer i) (p'.parseBerW w i) := by
  unfold Parser.parseBer Parser.parseBerW
  rcases parseHeaderW_cases hw i with ⟨h1, _⟩ | ⟨r, h, l, h1, h2, h3, h4⟩
  · rw [h1]
    refine answers_then fun x hx => ?_
    obtain ⟨r, h⟩ := x
    obtain ⟨k, hk, rfl⟩ := good_parseHeader.adv _ _ _ hx
    have hr : (after i k).data.length < 2 ^ w := by simp; omega
    simp only [hp.accept]
    cases p.acceptTag h.tag with
    | false => exact .inl rfl
    | true =>
      simp only [Bool.not_true, Bool.false_eq_true, if_false]
      refine answers_bind (berContentW_same hw h _ _ hr) fun y hy => ?_
      obtain ⟨r', data⟩ := y
      have hd : data.data.length < 2 ^ w := by
        rw [berContent_eq] at hy
        obtain ⟨z, _, hz⟩ := bind_eq_ok.mp hy
        cases hz
        simp at hr ⊢
        omega
      exact answers_bind (hp.content h data hd) fun _ _ => .inl rfl
  · rw [h1, h4]
    obtain ⟨k, hk, rfl⟩ := good_parseHeader.adv _ _ _ h1
    obtain ⟨e, he⟩ := berContent_long (d := MAX_RECURSION) h2 (i := after i k) (by simp; omega)
    refine .inr ⟨.inr ?_, i, rfl⟩
    simp only [bind_ok]
    cases p.acceptTag h.tag with
    | false => exact ⟨_, rfl⟩
    | true =>
      simp only [Bool.not_true, Bool.false_eq_true, if_false]
      rw [he]
      exact ⟨e, rfl⟩

theorem parseDerW_same (hw : 8 ≤ w) {p p' : Parser α} (hp : SameParser w o p p') (i : Input)
    (hi : i.data.length < 2 ^ w) : AnswersAlike o (p.parseDer i) (p'.parseDerW w i) := by
  unfold Parser.parseDer Parser.parseDerW
  rcases headerDerW_cases hw i with h1 | ⟨r, h, l, h1, h2, h3, h4⟩
  · rw [h1]
    refine answers_then fun x hx => ?_
    obtain ⟨r, h⟩ := x
    obtain ⟨k, hk, rfl⟩ := good_parseHeaderDer.adv _ _ _ hx
    refine answers_then fun n _ => ?_
    simp only [hp.accept]
    cases p.acceptTag h.tag with
    | false => exact .inl rfl
    | true =>
      simp only [Bool.not_true, Bool.false_eq_true, if_false]
      refine answers_then fun y hy => ?_
      obtain ⟨r', data⟩ := y
      have hd : data.data.length < 2 ^ w := by
        rw [takeS_eq] at hy
        split at hy
        · cases hy
          simp
          omega
        · cases hy
      exact answers_bind (hp.content h data hd) fun _ _ => .inl rfl
  · rw [h1, h4]
    obtain ⟨k, hk, rfl⟩ := good_parseHeaderDer.adv _ _ _ h1
    refine .inr ⟨.inr ?_, i, rfl⟩
    simp only [bind_ok, h2, definiteInner]
    cases p.acceptTag h.tag with
    | false => exact ⟨_, rfl⟩
    | true =>
      simp only [Bool.not_true, Bool.false_eq_true, if_false]
      rw [takeS_eq, if_neg (by simp; omega)]
      exact ⟨_, rfl⟩

theorem parseW_same (hw : 8 ≤ w) (m : Rules) {p p' : Parser α} (hp : SameParser w o p p') :
    SameOn w o (m.parse p) (m.parseW w p') where
  same i hi := by
    cases m
    · exact parseBerW_same hw hp i hi
    · exact parseDerW_same hw hp i hi
  less i r v h := by
    obtain ⟨a, x, h1, _⟩ := rules_parse_ok.mp h
    have : ∃ k, k ≤ i.data.length ∧ r = after i k := by
      cases m
      · exact good_parseBerAny.adv _ _ _ h1
      · exact good_parseDerAny.adv _ _ _ h1
    obtain ⟨k, hk, rfl⟩ := this
    simp

theorem anyW_same (hw : 8 ≤ w) (m : Rules) (i : Input) (hi : i.data.length < 2 ^ w) :
    AnswersAlike o (m.any i) (m.anyW w i) := by
  cases m
  · show AnswersAlike o (parseBerAny i) (parseBerAnyW w i)
    unfold parseBerAny parseBerAnyW
    rcases parseHeaderW_cases hw i with ⟨h1, _⟩ | ⟨r, h, l, h1, h2, h3, h4⟩
    · rw [h1]
      refine answers_then fun x hx => ?_
      obtain ⟨r, h⟩ := x
      obtain ⟨k, hk, rfl⟩ := good_parseHeader.adv _ _ _ hx
      exact answers_bind (berContentW_same hw h _ _ (by simp; omega)) fun _ _ => .inl rfl
    · rw [h1, h4]
      obtain ⟨k, hk, rfl⟩ := good_parseHeader.adv _ _ _ h1
      obtain ⟨e, he⟩ := berContent_long (d := MAX_RECURSION) h2 (i := after i k) (by simp; omega)
      refine .inr ⟨.inr ⟨e, ?_⟩, i, rfl⟩
      simp only [bind_ok]
      rw [he]
      rfl
  · show AnswersAlike o (parseDerAny i) (parseDerAnyW w i)
    unfold parseDerAny parseDerAnyW
    rcases headerDerW_cases hw i with h1 | ⟨r, h, l, h1, h2, h3, h4⟩
    · rw [h1]; exact .inl rfl
    · rw [h1, h4]
      obtain ⟨k, hk, rfl⟩ := good_parseHeaderDer.adv _ _ _ h1
      refine .inr ⟨.inr ?_, i, rfl⟩
      simp only [bind_ok, h2, Length.isDefinite, Bool.not_true, Bool.false_eq_true, if_false, derContent]
      rw [takeS_eq, if_neg (by simp; omega)]
      exact ⟨_, rfl⟩

/-! ### Types -/

theorem forIter_same {σ : Type} {parse parse' : Input → PRes Any} (hs : SameOn w o parse parse')
    {f f' : σ → Any → Except PErr (Bool × σ)} (hd : ∀ i r a, parse i = .ok (r, a) → a.data.data.length ≤ i.data.length)
    (hf : ∀ s a, a.data.data.length < 2 ^ w → AnswersAlike o (f s a) (f' s a)) (fuel : Nat) (it : AnyIter) (s : σ)
    (hi : it.input.data.length < 2 ^ w) :
    AnswersAlike o (forIter parse f fuel it s) (forIter parse' f' fuel it s) := by
  induction fuel generalizing it s with
  | zero => exact .inl rfl
  | succ fuel ih =>
    unfold forIter AnyIter.next
    by_cases hc : (it.hasError || it.input.isEmpty) = true
    · rw [if_pos hc, if_pos hc]; exact .inl rfl
    rw [if_neg hc, if_neg hc]
    rcases hs.same it.input hi with he | ⟨he, j, hj⟩
    · rw [he]
      cases hp : parse it.input with
      | error e =>
        cases e <;> exact .inl rfl
      | ok x =>
        obtain ⟨r, a⟩ := x
        simp only
        by_cases h1 : r.start < it.input.start
        · rw [if_pos h1]; exact .inl rfl
        rw [if_neg h1]
        cases h2 : it.input.take (r.start - it.input.start) with
        | error e => exact .inl rfl
        | ok d =>
          simp only [bind_ok, pure_ok]
          have ha := hd _ _ _ hp
          have hr := hs.less _ _ _ hp
          rcases hf s a (by omega) with h3 | ⟨ho | ⟨e, h3⟩, j, h4⟩
          · rw [h3]
            cases f s a with
            | error e => exact .inl rfl
            | ok y =>
              obtain ⟨b, s'⟩ := y
              cases b with
              | false => exact .inl rfl
              | true => exact ih _ _ (by simp only; omega)
          · rw [h4]; exact .inr ⟨.inl ho, j, rfl⟩
          · rw [h3, h4]; exact .inr ⟨.inr ⟨e, rfl⟩, j, rfl⟩
    · rw [hj]
      rcases he with ho | ⟨e, he⟩
      · exact .inr ⟨.inl ho, j, rfl⟩
      · rw [he]
        refine .inr ⟨.inr ?_, j, rfl⟩
        cases e <;> exact ⟨_, rfl⟩

theorem collect_same {parse parse' : Input → PRes Any} (hs : SameOn w o parse parse')
    (hd : ∀ i r a, parse i = .ok (r, a) → a.data.data.length ≤ i.data.length) {p p' : Parser α}
    (hp : SameParser w o p p') (i : Input) (hi : i.data.length < 2 ^ w) :
    AnswersAlike o ((AnyIter.new i).tryParseCollect parse p) ((AnyIter.new i).tryParseCollect parse' p') := by
  refine answers_bind (forIter_same hs hd (fun s a ha => ?_) _ _ _ hi) fun _ _ => .inl rfl
  unfold parseCollectStep
  rw [hp.accept]
  cases p.acceptTag a.header.tag with
  | false => exact .inl rfl
  | true =>
    simp only [Bool.not_true, Bool.false_eq_true, if_false]
    rcases hp.content a.header a.data ha with h1 | ⟨ho | ⟨e, h1⟩, j, h2⟩
    · rw [h1]; exact .inl rfl
    · rw [h2]; exact .inr ⟨.inl ho, j, rfl⟩
    · rw [h1, h2]; exact .inr ⟨.inr ⟨e, rfl⟩, j, rfl⟩

theorem vecP_same {parse parse' : Input → PRes Any} (hs : SameOn w o parse parse')
    (hd : ∀ i r a, parse i = .ok (r, a) → a.data.data.length ≤ i.data.length) {p p' : Parser α}
    (hp : SameParser w o p p') : SameParser w o (vecP parse p) (vecP parse' p') where
  accept := rfl
  content h i hi := by
    refine answers_then (fun _ _ => ?_)
    cases i.isEmpty with
    | true => exact .inl rfl
    | false => exact collect_same hs hd hp i hi

theorem arrayP_same {parse parse' : Input → PRes Any} (hs : SameOn w o parse parse')
    (hd : ∀ i r a, parse i = .ok (r, a) → a.data.data.length ≤ i.data.length) {p p' : Parser α}
    (hp : SameParser w o p p') (N : Nat) : SameParser w o (arrayP N parse p) (arrayP N parse' p') where
  accept := rfl
  content h i hi := answers_bind ((vecP_same hs hd hp).content h i hi) fun _ _ => .inl rfl

theorem setItemsP_same {parse parse' : Input → PRes Any} (hs : SameOn w o parse parse')
    (hd : ∀ i r a, parse i = .ok (r, a) → a.data.data.length ≤ i.data.length) {p p' : Parser α}
    (hp : SameParser w o p p') : SameParser w o (setItemsP parse p) (setItemsP parse' p') where
  accept := rfl
  content _ i hi := answers_then (fun _ _ => collect_same hs hd hp i hi)

theorem map_same {p p' : Parser α} (hp : SameParser w o p p') (f : α → β) :
    SameParser w o (p.map f) (p'.map f) where
  accept := hp.accept
  content h i hi := by
    unfold Parser.map
    simp only
    rcases hp.content h i hi with h1 | ⟨ho | ⟨e, h1⟩, j, h2⟩
    · rw [h1]; exact .inl rfl
    · rw [h2]; exact .inr ⟨.inl ho, j, rfl⟩
    · rw [h1, h2]; exact .inr ⟨.inr ⟨e, rfl⟩, j, rfl⟩

theorem explicitP_same {f g : Input → PRes α} (hs : SameOn w o f g) (cls : Class) (n : Nat) :
    SameParser w o (explicitP cls n f) (explicitP cls n g) where
  accept := rfl
  content _ i hi := by
    refine answers_then (fun _ _ => ?_)
    simp only
    split
    · exact .inl rfl
    · split
      · exact .inl rfl
      · exact answers_bind (hs.same i hi) fun _ _ => .inl rfl

theorem implicitP_same {p p' : Parser α} (hp : SameParser w o p p') (cls : Class) (n : Nat) :
    SameParser w o (implicitP cls n p) (implicitP cls n p') where
  accept := rfl
  content h i hi := by
    show AnswersAlike o (if _ then _ else _) (if _ then _ else _)
    split
    · exact .inl rfl
    · exact answers_bind (hp.content h i hi) fun _ _ => .inl rfl

theorem requiredFieldW_same (hw : 8 ≤ w) (m : Rules) {p p' : Parser α} (hp : SameParser w o p p') (tag : FieldTag) :
    SameOn w o (requiredField m tag p) (requiredFieldW w m tag p') := by
  have key : ∀ {q q' : Parser (TaggedValue α)}, SameParser w o q q' → SameOn w o (taggedField m q) (taggedFieldW w m q') := by
    intro q q' hq
    have h := parseW_same hw m hq
    refine ⟨fun i hi => answers_bind (h.same i hi) fun _ _ => .inl rfl, fun i r v hv => ?_⟩
    obtain ⟨⟨r', t⟩, h1, h2⟩ := bind_eq_ok.mp hv
    cases h2
    exact h.less _ _ _ h1
  cases tag with
  | untagged => exact parseW_same hw m hp
  | explicit cls n => exact key (explicitP_same (parseW_same hw m hp) cls n)
  | implicit cls n => exact key (implicitP_same hp cls n)

theorem rules_headerW_cases (hw : 8 ≤ w) (m : Rules) (i : Input) :
    m.headerW w i = m.header i ∨ m.headerW w i = .error (.error i .invalidLength) := by
  cases m
  · rcases parseHeaderW_cases hw i with ⟨h, _⟩ | ⟨_, _, _, _, _, _, h⟩
    · exact .inl h
    · exact .inr h
  · rcases headerDerW_cases hw i with h | ⟨_, _, _, _, _, _, h⟩
    · exact .inl h
    · exact .inr h

theorem header_less {m : Rules} {i r : Input} {h : Header} (hh : m.header i = .ok (r, h)) :
    r.data.length ≤ i.data.length := by
  have : ∃ k, k ≤ i.data.length ∧ r = after i k := by
    cases m
    · exact good_parseHeader.adv _ _ _ hh
    · exact good_parseHeaderDer.adv _ _ _ hh
  obtain ⟨k, hk, rfl⟩ := this
  simp

theorem optionParseW_same (hw : 8 ≤ w) (m : Rules) {p p' : Parser α} (hp : SameParser w true p p') :
    SameOn w true (optionParse m.header p) (optionParseW w m p') where
  same i hi := by
    unfold optionParse optionParseW
    cases i.isEmpty with
    | true => exact .inl rfl
    | false =>
      simp only [Bool.false_eq_true, if_false]
      rcases rules_headerW_cases hw m i with h1 | h1
      · rw [h1]
        refine answers_then fun x hx => ?_
        obtain ⟨r, h⟩ := x
        have hr := header_less hx
        simp only [hp.accept]
        cases hat : p.acceptTag h.tag with
        | false => exact .inl rfl
        | true =>
          simp only [Bool.not_true, Bool.false_eq_true, if_false]
          refine answers_bind (berContentW_same hw h _ _ (by omega)) fun y hy => ?_
          obtain ⟨r', data⟩ := y
          have hd := berContent_len hy
          refine answers_bind ?_ fun _ _ => .inl rfl
          unfold optionContent optionContentW
          simp only [hp.accept, hat, Bool.not_true, Bool.false_eq_true, if_false]
          refine answers_bind (berContentW_same hw h _ _ (by omega)) fun z hz => ?_
          obtain ⟨r2, data2⟩ := z
          have hd2 := berContent_len hz
          exact answers_bind (hp.content h data2 (by omega)) fun _ _ => .inl rfl
      · rw [h1]
        exact .inr ⟨.inl rfl, i, rfl⟩
  less i r v h := by
    unfold optionParse at h
    cases he : i.isEmpty with
    | true =>
      rw [he, if_pos rfl] at h
      cases h
      exact Nat.le_refl _
    | false =>
      rw [he] at h
      simp only [Bool.false_eq_true, if_false] at h
      obtain ⟨⟨r1, hd⟩, h1, h2⟩ := bind_eq_ok.mp h
      have := header_less h1
      simp only at h2
      cases hat : p.acceptTag hd.tag with
      | false =>
        rw [hat] at h2
        cases h2
        exact Nat.le_refl _
      | true =>
        rw [hat] at h2
        simp only [Bool.not_true, Bool.false_eq_true, if_false] at h2
        obtain ⟨⟨r2, data⟩, h3, h4⟩ := bind_eq_ok.mp h2
        obtain ⟨y, h5, h6⟩ := bind_eq_ok.mp h4
        cases h6
        have := berContent_len h3
        simp only
        omega

theorem optTaggedFieldW_same (hw : 8 ≤ w) (m : Rules) (tag : Nat) {p p' : Parser (TaggedValue α)}
    (hp : SameParser w true p p') : SameOn w true (optTaggedField m tag p) (optTaggedFieldW w m tag p') where
  same i hi := by
    unfold optTaggedField optTaggedFieldW
    cases i.isEmpty with
    | true => exact .inl rfl
    | false =>
      simp only [Bool.false_eq_true, if_false]
      rcases rules_headerW_cases hw m i with h1 | h1
      · rw [h1]
        refine answers_then fun x hx => ?_
        obtain ⟨r, h⟩ := x
        by_cases ht : h.tag = tag
        · simp only [if_pos ht]
          exact answers_bind ((parseW_same hw m hp).same i hi) fun _ _ => .inl rfl
        · simp only [if_neg ht]
          exact .inl rfl
      · rw [h1]
        exact .inr ⟨.inl rfl, i, rfl⟩
  less i r v h := by
    unfold optTaggedField at h
    cases he : i.isEmpty with
    | true =>
      rw [he, if_pos rfl] at h
      cases h
      exact Nat.le_refl _
    | false =>
      rw [he] at h
      simp only [Bool.false_eq_true, if_false] at h
      obtain ⟨⟨r1, hd⟩, h1, h2⟩ := bind_eq_ok.mp h
      by_cases ht : hd.tag = tag
      · simp only [if_pos ht] at h2
        obtain ⟨⟨r2, t⟩, h3, h4⟩ := bind_eq_ok.mp h2
        cases h4
        exact (parseW_same hw m hp).less _ _ _ h3
      · simp only [if_neg ht] at h2
        cases h2
        exact Nat.le_refl _

theorem optionalFieldW_same (hw : 8 ≤ w) (m : Rules) {p p' : Parser α} (hp : SameParser w true p p')
    (tag : FieldTag) : SameOn w true (optionalField m tag p) (optionalFieldW w m tag p') := by
  cases tag with
  | untagged => exact optionParseW_same hw m hp
  | explicit cls n => exact optTaggedFieldW_same hw m n (explicitP_same (parseW_same hw m hp) cls n)
  | implicit cls n => exact optTaggedFieldW_same hw m n (implicitP_same hp cls n)

theorem items_same (hw : 8 ≤ w) (o : Bool) (m : Rules) : SameOn w o (itemsOf m) (m.anyParseW w) := by
  cases m
  · exact parseW_same hw .ber (sameParser_refl anyBer)
  · exact parseW_same hw .der (sameParser_refl anyDer)

theorem items_less (m : Rules) (i r : Input) (a : Any) (h : itemsOf m i = .ok (r, a)) :
    a.data.data.length ≤ i.data.length := by
  cases m
  · have h' : parseBerAny i = .ok (r, a) := by rw [← anyBer_parseBer]; exact h
    have := berAny_len h'
    omega
  · have h' : parseDerAny i = .ok (r, a) := by rw [← anyDer_parseDer]; exact h
    have := derAny_len h'
    omega

/-! ### Constructed strings -/

theorem takeSplit_len {i r d : Input} {n : Nat} (h : i.takeSplit n = .ok (r, d)) : d.data.length ≤ i.data.length := by
  unfold Input.takeSplit at h
  obtain ⟨x, _, h2⟩ := bind_eq_ok.mp h
  obtain ⟨y, h3, h4⟩ := bind_eq_ok.mp h2
  cases h4
  unfold Input.take at h3
  by_cases hn : n ≤ i.data.length
  · rw [if_pos hn] at h3
    cases h3
    simp
    omega
  · rw [if_neg hn] at h3
    cases h3

theorem segContentW_same (hw : 8 ≤ w) (h : Header) (i : Input) (hi : i.data.length < 2 ^ w) :
    AnswersAlike o (segContent h i) (segContentW w h i) := by
  unfold segContent segContentW berGetContent
  cases h.length.isDefinite with
  | true =>
    rw [if_pos rfl, if_pos rfl]
    exact berContentW_same hw h i MAX_RECURSION hi
  | false =>
    rw [if_neg Bool.false_ne_true, if_neg Bool.false_ne_true]
    exact .inl rfl

theorem segContent_len {h : Header} {i r d : Input} (hs : segContent h i = .ok (r, d)) :
    d.data.length ≤ i.data.length := by
  unfold segContent berGetContent at hs
  cases hd : h.length.isDefinite with
  | true =>
    rw [hd, if_pos rfl] at hs
    have := berContent_len hs
    omega
  | false =>
    rw [hd, if_neg Bool.false_ne_true] at hs
    exact takeSplit_len hs

theorem anyBer_same (hw : 8 ≤ w) (o : Bool) : SameOn w o anyBer.parseBer (anyBer.parseBerW w) :=
  parseW_same hw .ber (sameParser_refl anyBer)

theorem anyBer_less (i r : Input) (a : Any) (h : anyBer.parseBer i = .ok (r, a)) :
    a.data.data.length ≤ i.data.length := items_less .ber i r a h

theorem parseSegmentedW_same (hw : 8 ≤ w) (acceptTag : Nat → Bool) (empty : α) (append : α → α → α)
    (leaf : Header → Input → PRes α) (limit : Nat) (h : Header) (i : Input) (hi : i.data.length < 2 ^ w) :
    AnswersAlike o (parseSegmented acceptTag empty append leaf limit h i)
      (parseSegmentedW w acceptTag empty append leaf limit h i) := by
  induction limit generalizing h i with
  | zero => exact .inl rfl
  | succ limit ih =>
    unfold parseSegmented parseSegmentedW berGetContent
    cases i.isEmpty with
    | true => rw [if_pos rfl, if_pos rfl]; exact .inl rfl
    | false =>
    simp only [Bool.false_eq_true, if_false]
    cases h.constructed with
    | true =>
      simp only [if_true]
      refine answers_bind (segContentW_same hw h i hi) fun x hx => ?_
      obtain ⟨r, d⟩ := x
      have hd := segContent_len hx
      refine answers_bind (forIter_same (anyBer_same hw o) anyBer_less (fun s a ha => ?_) _ _ _
        (show d.data.length < 2 ^ w by omega)) fun _ _ => .inl rfl
      unfold segStep
      by_cases h1 : a.header.tag = tagEndOfContent
      · rw [if_pos h1, if_pos h1]; exact .inl rfl
      rw [if_neg h1, if_neg h1]
      cases acceptTag a.header.tag with
      | false => simp only [Bool.not_false, if_true]; exact .inl rfl
      | true =>
      simp only [Bool.not_true, Bool.false_eq_true, if_false]
      cases a.data.isEmpty with
      | true => simp only [if_true]; exact .inl rfl
      | false =>
      simp only [Bool.false_eq_true, if_false]
      rcases ih a.header a.data ha with h3 | ⟨ho | ⟨e, h3⟩, j, h4⟩
      · rw [h3]; exact .inl rfl
      · rw [h4]; exact .inr ⟨.inl ho, j, rfl⟩
      · rw [h3, h4]; exact .inr ⟨.inr ⟨e, rfl⟩, j, rfl⟩
    | false =>
      simp only [Bool.false_eq_true, if_false]
      refine answers_bind (berContentW_same hw h i MAX_RECURSION hi) fun x _ => ?_
      exact .inl rfl

theorem strings_same (hw : 8 ≤ w) {α : Type} {c : Codec α} {p' : Parser α} (h : StringsBer w c p') :
    SameParser w o c.ber p' := by
  have hstr : ∀ hd i, i.data.length < 2 ^ w → AnswersAlike o (strBytes hd i) (strBytesW w hd i) := by
    intro hd i hi
    unfold strBytes strBytesW
    cases hd.constructed with
    | true =>
      rw [if_neg (by decide), if_neg (by decide)]
      exact parseSegmentedW_same hw _ _ _ _ _ _ _ hi
    | false =>
      rw [if_pos (by decide), if_pos (by decide)]
      exact .inl rfl
  have hwide : ∀ hd i, i.data.length < 2 ^ w → AnswersAlike o (wideBytes hd i) (wideBytesW w hd i) := by
    intro hd i hi
    unfold wideBytes wideBytesW
    cases hd.constructed with
    | true =>
      rw [if_pos rfl, if_pos rfl]
      exact .inl rfl
    | false =>
      rw [if_neg (by decide), if_neg (by decide)]
      exact parseSegmentedW_same hw _ _ _ _ _ _ _ hi
  cases h with
  | octet =>
    refine ⟨rfl, fun hd i hi => ?_⟩
    show AnswersAlike o (octetContent hd i) ((octetBerW w).content hd i)
    unfold octetContent octetBerW
    simp only
    cases hd.constructed with
    | true =>
      rw [if_neg (by decide), if_neg (by decide)]
      exact parseSegmentedW_same hw _ _ _ _ _ _ _ hi
    | false =>
      rw [if_pos (by decide), if_pos (by decide)]
      exact .inl rfl
  | bit =>
    refine ⟨rfl, fun hd i hi => ?_⟩
    show AnswersAlike o (bitContent hd i) ((bitBerW w).content hd i)
    unfold bitContent bitBerW
    simp only
    cases hd.constructed with
    | true =>
      rw [if_neg (by decide), if_neg (by decide)]
      exact parseSegmentedW_same hw _ _ _ _ _ _ _ hi
    | false =>
      rw [if_pos (by decide), if_pos (by decide)]
      exact .inl rfl
  | str k => exact ⟨rfl, fun hd i hi => answers_bind (hstr hd i hi) fun _ _ => .inl rfl⟩
  | string => exact ⟨rfl, fun hd i hi => answers_bind (hstr hd i hi) fun _ _ => .inl rfl⟩
  | bmp => exact ⟨rfl, fun hd i hi => answers_bind (hwide hd i hi) fun _ _ => .inl rfl⟩
  | univ => exact ⟨rfl, fun hd i hi => answers_bind (hwide hd i hi) fun _ _ => .inl rfl⟩

theorem compiled_same (hw : 8 ≤ w) {m : Rules} {α : Type} {p p' : Parser α} (h : Compiled w m o p p') :
    SameParser w o p p' := by
  refine Compiled.rec (w := w) (m := m) (o := o)
    (motive_1 := fun {α} p p' _ => SameParser w o p p')
    (motive_2 := fun {Ts} vs vs' _ => (∀ k t, vs'.accept k t = vs.accept k t) ∧ ∀ k h i, i.data.length < 2 ^ w →
      AnswersAlike o (vs.content m k h i) (vs'.contentW w m k h i))
    (motive_3 := fun {Ts} fs fs' _ => ∀ i : Input, i.data.length < 2 ^ w →
      AnswersAlike o ((fs.fns m).run i) ((fs'.fnsW w m).run i))
    ?_ ?_ ?_ ?_ ?_ ?_ ?_ ?_ ?_ ?_ ?_ ?_ ?_ ?_ ?_ ?_ ?_ ?_ ?_ ?_ ?_ h
  · intro _ _ _ _; exact sameParser_refl _
  · intro _ _ _ _; exact sameParser_refl _
  · intro _ _ _ h _; exact strings_same hw h
  · intro _ _; exact sameParser_refl _
  · intro _ _; exact sameParser_refl _
  · intro _; exact sameParser_refl _
  · intro _; exact sameParser_refl _
  · intro _ _ _ _ ih; exact vecP_same (items_same hw o m) (items_less m) ih
  · intro _ _ _ N _ ih; exact arrayP_same (items_same hw o m) (items_less m) ih N
  · intro _ _ _ _ ih; exact map_same (setItemsP_same (items_same hw o m) (items_less m) ih) _
  · intro _ _ _ _ S _ ih; exact map_same (setItemsP_same (items_same hw o m) (items_less m) ih) _
  · intro _ _ _ cls n _ ih; exact explicitP_same (parseW_same hw m ih) cls n
  · intro _ _ _ cls n _ ih; exact implicitP_same ih cls n
  · intro Ts fs fs' tag _ ih
    exact ⟨rfl, fun hd i hi => answers_then fun _ _ => ih i hi⟩
  · intro Ts vs vs' k _ ih
    refine ⟨funext fun t => ih.1 k t, fun hd i hi => ?_⟩
    cases k with
    | explicit => exact answers_then fun _ _ => ih.2 _ _ _ hi
    | implicit => exact ih.2 _ _ _ hi
    | untagged => exact ih.2 _ _ _ hi
  · exact ⟨fun _ _ => rfl, fun _ _ _ _ => .inl rfl⟩
  · intro T Ts t p p' vs vs' _ _ ih iht
    have hacc : ∀ k n, variantAccept k t p' n = variantAccept k t p n := by
      intro k n
      cases k with
      | explicit => rfl
      | implicit => rfl
      | untagged => show p'.acceptTag n = p.acceptTag n; rw [ih.accept]
    refine ⟨fun k n => ?_, fun k h i hi => ?_⟩
    · show (variantAccept k t p' n || vs'.accept k n) = (variantAccept k t p n || vs.accept k n)
      rw [hacc, iht.1]
    · unfold Variants.content Variants.contentW
      rw [hacc]
      by_cases ha : variantAccept k t p h.tag = true
      · rw [if_pos ha, if_pos ha]
        refine answers_bind ?_ fun _ _ => .inl rfl
        cases k with
        | explicit => exact (parseW_same hw m ih).same i hi
        | implicit => exact ih.content h i hi
        | untagged => exact ih.content h i hi
      · rw [if_neg ha, if_neg ha]
        exact answers_bind (iht.2 k h i hi) fun _ _ => .inl rfl
  · intro i _; exact .inl rfl
  · intro T Ts p p' fs fs' tag _ _ ih iht i hi
    have h1 := requiredFieldW_same hw m ih tag
    refine answers_bind (h1.same i hi) fun x hx => ?_
    obtain ⟨r, v⟩ := x
    have := h1.less _ _ _ hx
    exact answers_bind (iht r (by omega)) fun _ _ => .inl rfl
  · intro T Ts p p' fs fs' tag ho _ _ ih iht i hi
    subst ho
    have h1 := optionalFieldW_same hw m ih tag
    refine answers_bind (h1.same i hi) fun x hx => ?_
    obtain ⟨r, v⟩ := x
    have := h1.less _ _ _ hx
    exact answers_bind (iht r (by omega)) fun _ _ => .inl rfl
  · intro T Ts p p' x fs fs' tag ho _ _ ih iht i hi
    subst ho
    have h1 := optionalFieldW_same hw m ih tag
    refine answers_bind (answers_bind (h1.same i hi) fun _ _ => .inl rfl) fun y hy => ?_
    obtain ⟨r, v⟩ := y
    obtain ⟨⟨r', v'⟩, h2, h3⟩ := bind_eq_ok.mp hy
    cases h3
    have := h1.less _ _ _ h2
    exact answers_bind (iht r (by omega)) fun _ _ => .inl rfl

end Asn1

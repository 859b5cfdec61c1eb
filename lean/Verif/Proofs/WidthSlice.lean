import Verif.Props.Width
import Verif.Spec.WidthSlice
/-!
# Proofs: the byte-slice API on targets whose `usize` has `w` bits
-/
namespace Asn1
open Asn1.Spec

variable {α β σ : Type} {w : Nat} {o : Bool}

/-- The second answer is the first, or `InvalidLength` (only where the first is an error too, unless `o`). -/
def AlikeS (o : Bool) (f g : Except SErr α) : Prop :=
  g = f ∨ ((o = true ∨ ∃ e, f = .error e) ∧ g = .error (.error .invalidLength))

theorem alikeS_bind {f g : Except SErr α} {k k' : α → Except SErr β} (h : AlikeS o f g)
    (hk : ∀ x, f = .ok x → AlikeS o (k x) (k' x)) : AlikeS o (f >>= k) (g >>= k') := by
  rcases h with rfl | ⟨ho | ⟨e, rfl⟩, rfl⟩
  · cases hf : g with
    | error e => exact .inl rfl
    | ok x => exact hk x hf
  · exact .inr ⟨.inl ho, rfl⟩
  · exact .inr ⟨.inr ⟨e, rfl⟩, rfl⟩

theorem alikeS_then {f : Except SErr α} {k k' : α → Except SErr β}
    (hk : ∀ x, f = .ok x → AlikeS o (k x) (k' x)) : AlikeS o (f >>= k) (f >>= k') :=
  alikeS_bind (.inl rfl) hk

theorem alikeS_strict {f g : Except SErr α} (h : AlikeS false f g) : SameOrTooLongS f g := by
  rcases h with h | ⟨h | h, hj⟩
  · exact .inl h
  · cases h
  · exact .inr ⟨h, hj⟩

theorem alikeS_refused {f g : Except SErr α} (h : AlikeS o f g) : SameOrRefusedS f g := by
  rcases h with h | ⟨_, hj⟩
  · exact .inl h
  · exact .inr hj

/-- The two conversions answer alike. -/
def SameTry (w : Nat) (o : Bool) (f f' : Any → Except SErr α) : Prop :=
  ∀ a, a.data.data.length < 2 ^ w → AlikeS o (f a) (f' a)

/-- The two functions on byte slices answer alike. -/
structure SameFrom (w : Nat) (o : Bool) (m : Rules) (g g' : Bytes → Except SErr (Bytes × α)) : Prop where
  same : ∀ bs, bs.length < 2 ^ w → AlikeS o (g bs) (g' bs)
  less : ∀ bs r v, g bs = .ok (r, v) → r.length ≤ bs.length
  start : ∀ bs, (∃ j, m.headerW w (Input.fromSlice bs) = .error (.error j .invalidLength)) →
    g' bs = .error (.error .invalidLength)

theorem wrap_any (hw : 8 ≤ w) (m : Rules) (bs : Bytes) (hi : bs.length < 2 ^ w) :
    AlikeS o (wrapBerParser m.any bs) (wrapBerParser (m.anyW w) bs) := by
  rcases wrap_same (C134_any hw m (Input.fromSlice bs) hi) with h | ⟨h, h'⟩
  · exact .inl h
  · exact .inr ⟨.inr h, h'⟩

theorem wrap_any_len {m : Rules} {bs r : Bytes} {a : Any} (h : wrapBerParser m.any bs = .ok (r, a)) :
    r.length ≤ bs.length ∧ a.data.data.length ≤ bs.length := by
  obtain ⟨i, hr, rfl⟩ := wrapBerParser_ok.mp h
  cases m
  · have := berAny_len hr
    simp only [Input.fromSlice] at this
    omega
  · have := derAny_len hr
    simp only [Input.fromSlice] at this
    omega

theorem wrap_any_start {m : Rules} {bs : Bytes}
    (h : ∃ j, m.headerW w (Input.fromSlice bs) = .error (.error j .invalidLength)) :
    wrapBerParser (m.anyW w) bs = .error (.error .invalidLength) := by
  obtain ⟨j, hj⟩ := h
  have hx : m.anyW w (Input.fromSlice bs) = .error (.error j .invalidLength) := by
    cases m
    · have hj : parseHeaderW w (Input.fromSlice bs) = _ := hj
      show parseBerAnyW w (Input.fromSlice bs) = _
      unfold parseBerAnyW
      rw [hj]
      rfl
    · have hj : parseHeaderDerW w (Input.fromSlice bs) = _ := hj
      show parseDerAnyW w (Input.fromSlice bs) = _
      unfold parseDerAnyW
      rw [hj]
      rfl
  unfold wrapBerParser
  rw [hx]
  rfl

/-- What reads a generic object first. -/
theorem sameFrom_any (hw : 8 ≤ w) (m : Rules) {k k' : Bytes × Any → Except SErr (Bytes × α)}
    (hk : ∀ r a, a.data.data.length < 2 ^ w → AlikeS o (k (r, a)) (k' (r, a)))
    (hr : ∀ r a r' v, k (r, a) = .ok (r', v) → r' = r) :
    SameFrom w o m (fun bs => wrapBerParser m.any bs >>= k) (fun bs => wrapBerParser (m.anyW w) bs >>= k') where
  same bs hi := alikeS_bind (wrap_any hw m bs hi) fun ⟨r, a⟩ hx => hk r a (by have := wrap_any_len hx; omega)
  less bs r v h := by
    obtain ⟨⟨r', a⟩, h1, h2⟩ := bind_eq_ok.mp h
    rw [hr _ _ _ _ h2]
    exact (wrap_any_len h1).1
  start bs h := by
    show (wrapBerParser (m.anyW w) bs >>= k') = _
    rw [wrap_any_start h]
    rfl

theorem sameFrom_fromBerWith (hw : 8 ≤ w) {f f' : Any → Except SErr α} (h : SameTry w o f f') :
    SameFrom w o .ber (fromBerWith f) (fromBerWithW w f') :=
  sameFrom_any hw .ber (fun r a ha => alikeS_bind (h a ha) fun _ _ => .inl rfl) (by
    intro r a r' v h
    obtain ⟨x, _, h⟩ := bind_eq_ok.mp h
    cases h; rfl)

theorem collect_sameS {m : Rules} {g g' : Bytes → Except SErr (Bytes × α)} (hg : SameFrom w o m g g') (fuel : Nat)
    (it : SeqIter) (hi : it.data.length < 2 ^ w) :
    AlikeS o (SeqIter.collect g fuel it) (SeqIter.collect g' fuel it) := by
  induction fuel generalizing it with
  | zero => exact .inl rfl
  | succ n ih =>
    unfold SeqIter.collect SeqIter.next
    by_cases hd : (it.hasError || it.data.isEmpty) = true
    · rw [if_pos hd, if_pos hd]; exact .inl rfl
    · rw [if_neg hd, if_neg hd]
      rcases hg.same it.data hi with h | ⟨h, h'⟩
      · rw [h]
        cases hx : g it.data with
        | error e => cases e <;> exact .inl rfl
        | ok x =>
          obtain ⟨r, v⟩ := x
          have hl := hg.less _ _ _ hx
          have := ih { it with data := r } (show r.length < 2 ^ w by omega)
          rcases this with h | ⟨ho | ⟨e, h⟩, h'⟩
          · refine .inl ?_; simp only [h]
          · refine .inr ⟨.inl ho, ?_⟩; simp only [h']
          · refine .inr ⟨.inr ⟨e, ?_⟩, ?_⟩
            · simp only [h]
            · simp only [h']
      · rw [h']
        refine .inr ⟨?_, rfl⟩
        rcases h with ho | ⟨e, he⟩
        · exact .inl ho
        · rw [he]
          cases e <;> exact .inr ⟨_, rfl⟩

theorem items_sameS {m : Rules} {g g' : Bytes → Except SErr (Bytes × α)} (hg : SameFrom w o m g g') (bs : Bytes)
    (hi : bs.length < 2 ^ w) : AlikeS o (collectItems g bs) (collectItems g' bs) :=
  collect_sameS hg _ _ hi

theorem sameTry_seq {m : Rules} {g g' : Bytes → Except SErr (Bytes × α)} (hg : SameFrom w o m g g') (tag : Nat) :
    SameTry w o (seqTryFrom tag g) (seqTryFrom tag g') := fun _ ha =>
  alikeS_then fun _ _ => alikeS_then fun _ _ => items_sameS hg _ ha

theorem sameTry_set {m : Rules} {g g' : Bytes → Except SErr (Bytes × α)} (hg : SameFrom w o m g g')
    (S : SetImpl α σ) : SameTry w o (setTryFrom S g) (setTryFrom S g') := fun _ ha =>
  alikeS_then fun _ _ => alikeS_then fun _ _ => alikeS_bind (items_sameS hg _ ha) fun _ _ => .inl rfl

theorem sameTry_explicit {m : Rules} {g g' : Bytes → Except SErr (Bytes × α)} (hg : SameFrom w o m g g')
    (cls : Class) (n : Nat) : SameTry w o (explicitTryFrom cls n g) (explicitTryFrom cls n g') := by
  intro a ha
  refine alikeS_then fun _ _ => alikeS_then fun _ _ => ?_
  by_cases hc : a.header.cls ≠ cls
  · rw [if_pos hc, if_pos hc]; exact .inl rfl
  · rw [if_neg hc, if_neg hc]
    rcases hg.same _ ha with h | ⟨ho | ⟨e, he⟩, h⟩
    · rw [h]; exact .inl rfl
    · rw [h]; exact .inr ⟨.inl ho, rfl⟩
    · rw [h, he]; exact .inr ⟨.inr ⟨_, rfl⟩, rfl⟩

theorem sameTry_implicit {f f' : Any → Except SErr α} (h : SameTry w o f f') (cls : Class) (n t : Nat) :
    SameTry w o (implicitTryFrom cls n t f) (implicitTryFrom cls n t f') := by
  intro a ha
  refine alikeS_then fun _ _ => ?_
  by_cases hc : a.header.cls ≠ cls
  · rw [if_pos hc, if_pos hc]; exact .inl rfl
  · rw [if_neg hc, if_neg hc]
    exact alikeS_bind (h _ ha) fun _ _ => .inl rfl

theorem ok_of_then {ε : Type} {f : Except ε α} {k : α → Except ε β} {x : β} (h : (f >>= k) = .ok x) :
    ∃ y, k y = .ok x := by
  obtain ⟨y, _, h⟩ := bind_eq_ok.mp h
  exact ⟨y, h⟩

theorem sameFrom_explicit (hw : 8 ≤ w) {g g' : Bytes → Except SErr (Bytes × α)} (hg : SameFrom w o .der g g')
    (cls : Class) (n : Nat) : SameFrom w o .der (explicitFromDer cls n g) (explicitFromDerW w cls n g') :=
  sameFrom_any hw .der
    (fun r a ha => by
      refine alikeS_then fun _ _ => alikeS_then fun _ _ => ?_
      by_cases hc : a.header.cls ≠ cls
      · rw [if_pos hc, if_pos hc]; exact .inl rfl
      · rw [if_neg hc, if_neg hc]
        exact alikeS_bind (hg.same _ ha) fun _ _ => .inl rfl)
    (by
      intro r a r' v h
      obtain ⟨_, h⟩ := ok_of_then h
      obtain ⟨_, h⟩ := ok_of_then h
      split at h
      · cases h
      · obtain ⟨_, h⟩ := ok_of_then h
        cases h; rfl)

theorem sameFrom_implicit (hw : 8 ≤ w) {f f' : Any → Except SErr α} (h : SameTry w o f f') (cls : Class) (n t : Nat) :
    SameFrom w o .der (implicitFromDer cls n t f) (implicitFromDerW w cls n t f') :=
  sameFrom_any hw .der (fun r a ha => alikeS_bind (sameTry_implicit h cls n t a ha) fun _ _ => .inl rfl)
    (by
      intro r a r' v h
      obtain ⟨_, h⟩ := ok_of_then h
      cases h; rfl)

/-- The two types of a field answer alike. -/
structure SameSlice (w : Nat) (o : Bool) (m : Rules) (ty ty' : SliceType α) : Prop where
  from_ : SameFrom w o m ty.from_ ty'.from_
  try_ : SameTry w o ty.tryFrom ty'.tryFrom
  tag : ty'.tag = ty.tag
  accept : ty'.acceptTag = ty.acceptTag

theorem sameFrom_map {m : Rules} {g g' : Bytes → Except SErr (Bytes × α)} (hg : SameFrom w o m g g') (k : α → β) :
    SameFrom w o m (fun bs => g bs >>= fun x => .ok (x.1, k x.2)) (fun bs => g' bs >>= fun x => .ok (x.1, k x.2)) where
  same bs hi := alikeS_bind (hg.same bs hi) fun _ _ => .inl rfl
  less bs r v h := by
    obtain ⟨⟨r', a⟩, h1, h2⟩ := bind_eq_ok.mp h
    cases h2
    exact hg.less _ _ _ h1
  start bs h := by
    show (g' bs >>= _) = _
    rw [hg.start bs h]
    rfl

theorem sameFrom_tagged (hw : 8 ≤ w) {m : Rules} {ty ty' : SliceType α} (h : SameSlice w o m ty ty') (tag : FieldTag) :
    SameFrom w o m (ty.tagged m tag) (ty'.taggedW w m tag) := by
  cases tag with
  | untagged => exact h.from_
  | explicit cls n =>
    cases m
    · exact sameFrom_map (sameFrom_fromBerWith hw (sameTry_explicit h.from_ cls n)) (·.inner)
    · exact sameFrom_map (sameFrom_explicit hw h.from_ cls n) (·.inner)
  | implicit cls n =>
    cases m
    · have := sameFrom_map (sameFrom_fromBerWith hw (sameTry_implicit h.try_ cls n ty.tag)) (·.inner)
      rw [← h.tag] at this
      have h2 := sameFrom_map (sameFrom_fromBerWith hw (sameTry_implicit h.try_ cls n ty'.tag)) (·.inner)
      obtain ⟨f, t, tg, ac⟩ := ty
      obtain ⟨f', t', tg', ac'⟩ := ty'
      obtain rfl : tg' = tg := h.tag
      exact h2
    · have h2 := sameFrom_map (sameFrom_implicit hw h.try_ cls n ty'.tag) (·.inner)
      obtain ⟨f, t, tg, ac⟩ := ty
      obtain ⟨f', t', tg', ac'⟩ := ty'
      obtain rfl : tg' = tg := h.tag
      exact h2

/-- A header is read alike, or refused, with `InvalidLength`, because of its length. -/
theorem headerS_cases (hw : 8 ≤ w) (m : Rules) (bs : Bytes) :
    wrapBerParser (m.headerW w) bs = wrapBerParser m.header bs ∨
      (wrapBerParser (m.headerW w) bs = .error (.error .invalidLength) ∧
        ∃ j, m.headerW w (Input.fromSlice bs) = .error (.error j .invalidLength)) := by
  have hx : m.headerW w (Input.fromSlice bs) = m.header (Input.fromSlice bs) ∨
      ∃ j, m.headerW w (Input.fromSlice bs) = .error (.error j .invalidLength) := by
    cases m
    · rcases parseHeaderW_cases hw (Input.fromSlice bs) with ⟨h1, _⟩ | ⟨r, h, l, h1, h2, h3, h4⟩
      · exact .inl h1
      · exact .inr ⟨_, h4⟩
    · rcases headerDerW_cases hw (Input.fromSlice bs) with h1 | ⟨r, h, l, h1, h2, h3, h4⟩
      · exact .inl h1
      · exact .inr ⟨_, h4⟩
  unfold wrapBerParser
  rcases hx with h | ⟨j, h⟩
  · rw [h]; exact .inl rfl
  · rw [h]; exact .inr ⟨rfl, j, rfl⟩

theorem option_sameS (hw : 8 ≤ w) {m : Rules} {ty ty' : SliceType α} (h : SameSlice w true m ty ty') (bs : Bytes)
    (hi : bs.length < 2 ^ w) :
    AlikeS true (optionFrom ty.acceptTag m.header ty.from_ bs) (optionFrom ty'.acceptTag (m.headerW w) ty'.from_ bs) := by
  unfold optionFrom
  rw [h.accept]
  by_cases he : bs.isEmpty
  · rw [if_pos he, if_pos he]; exact .inl rfl
  · rw [if_neg he, if_neg he]
    rcases headerS_cases hw m bs with h1 | ⟨h1, h2⟩
    · rw [h1]
      have hsome : AlikeS true (match ty.from_ bs with | .ok (rem, t) => .ok (rem, some t) | .error e => .error e)
          (match ty'.from_ bs with | .ok (rem, t) => .ok (rem, some t) | .error e => .error e) := by
        rcases h.from_.same bs hi with h | ⟨_, h⟩
        · rw [h]; exact .inl rfl
        · rw [h]; exact .inr ⟨.inl rfl, rfl⟩
      cases wrapBerParser m.header bs with
      | error e => exact hsome
      | ok x =>
        obtain ⟨_, hd⟩ := x
        simp only
        by_cases ha : (!ty.acceptTag hd.tag) = true
        · rw [if_pos ha, if_pos ha]; exact .inl rfl
        · rw [if_neg ha, if_neg ha]; exact hsome
    · rw [h1, h.from_.start bs h2]
      exact .inr ⟨.inl rfl, rfl⟩

theorem optional_sameS (hw : 8 ≤ w) {m : Rules} {ty ty' : SliceType α} (h : SameSlice w true m ty ty') (tag : FieldTag)
    (bs : Bytes) (hi : bs.length < 2 ^ w) : AlikeS true (ty.optional m tag bs) (ty'.optionalW w m tag bs) := by
  have key : ∀ n, AlikeS true (ty.optTagged m tag n bs) (ty'.optTaggedW w m tag n bs) := by
    intro n
    unfold SliceType.optTagged SliceType.optTaggedW
    by_cases he : bs.isEmpty
    · rw [if_pos he, if_pos he]; exact .inl rfl
    · rw [if_neg he, if_neg he]
      rcases headerS_cases hw m bs with h1 | ⟨h1, _⟩
      · rw [h1]
        refine alikeS_then fun ⟨_, hd⟩ _ => ?_
        show AlikeS true (if hd.tag = n then _ else _) (if hd.tag = n then _ else _)
        by_cases hn : hd.tag = n
        · rw [if_pos hn, if_pos hn]
          exact alikeS_bind ((sameFrom_tagged hw h tag).same bs hi) fun _ _ => .inl rfl
        · rw [if_neg hn, if_neg hn]; exact .inl rfl
      · rw [h1]; exact .inr ⟨.inl rfl, rfl⟩
  cases tag with
  | untagged => exact option_sameS hw h bs hi
  | explicit cls n => exact key n
  | implicit cls n => exact key n

theorem optional_lessS (hw : 8 ≤ w) {m : Rules} {ty ty' : SliceType α} (h : SameSlice w o m ty ty') {tag : FieldTag}
    {bs r : Bytes} {v : Option α} (hx : ty.optional m tag bs = .ok (r, v)) : r.length ≤ bs.length := by
  have key : ∀ n, ty.optTagged m tag n bs = .ok (r, v) → r.length ≤ bs.length := by
    intro n hx
    unfold SliceType.optTagged at hx
    split at hx
    · cases hx; exact Nat.le_refl _
    · obtain ⟨⟨_, hd⟩, hx⟩ := ok_of_then hx
      have hx : (if hd.tag = n then _ else _) = _ := hx
      split at hx
      · obtain ⟨⟨_, _⟩, h1, h2⟩ := bind_eq_ok.mp hx
        cases h2
        exact (sameFrom_tagged hw h tag).less _ _ _ h1
      · cases hx; exact Nat.le_refl _
  cases tag with
  | untagged =>
    have hx : optionFrom ty.acceptTag m.header ty.from_ bs = _ := hx
    unfold optionFrom at hx
    split at hx
    · cases hx; exact Nat.le_refl _
    · have hsome : (match ty.from_ bs with | .ok (rem, t) => .ok (rem, some t) | .error e => .error e) =
          Except.ok (r, v) → r.length ≤ bs.length := by
        intro hx
        cases hg : ty.from_ bs with
        | error e => rw [hg] at hx; cases hx
        | ok x =>
          rw [hg] at hx
          obtain ⟨r', t⟩ := x
          cases hx
          exact h.from_.less _ _ _ hg
      cases hy : wrapBerParser m.header bs with
      | error e => rw [hy] at hx; exact hsome hx
      | ok x =>
        obtain ⟨_, hd⟩ := x
        rw [hy] at hx
        simp only at hx
        by_cases ha : (!ty.acceptTag hd.tag) = true
        · rw [if_pos ha] at hx; cases hx; exact Nat.le_refl _
        · rw [if_neg ha] at hx; exact hsome hx
  | explicit cls n => exact key n hx
  | implicit cls n => exact key n hx

/-- The two lists of fields answer alike. -/
structure SameRun (w : Nat) (o : Bool) (m : Rules) {Ts : List Type} (fs fs' : SliceFields Ts) : Prop where
  same : ∀ bs, bs.length < 2 ^ w → AlikeS o (fs.run m bs) (fs'.runW w m bs)

theorem sameRun_cons {m : Rules} {T : Type} {Ts : List Type} {f f' : SliceField T} {fs fs' : SliceFields Ts}
    (hs : ∀ bs, bs.length < 2 ^ w → AlikeS o (f.parse m bs) (f'.parseW w m bs))
    (hl : ∀ bs r v, f.parse m bs = .ok (r, v) → r.length ≤ bs.length) (ht : SameRun w o m fs fs') :
    SameRun w o m (.cons f fs) (.cons f' fs') where
  same bs hi := by
    show AlikeS o (f.parse m bs >>= _) (f'.parseW w m bs >>= _)
    refine alikeS_bind (hs bs hi) fun ⟨r, v⟩ hx => ?_
    have := hl _ _ _ hx
    exact alikeS_bind (ht.same r (by omega)) fun _ _ => .inl rfl

theorem sameFrom_alias (hw : 8 ≤ w) {f f' : Any → Except SErr α} (h : SameTry w o f f') (tag : Nat) :
    SameFrom w o .der (aliasFromDer tag f) (aliasFromDerW w tag f') :=
  sameFrom_any hw .der (fun _ a ha => alikeS_then fun _ _ => alikeS_bind (h a ha) fun _ _ => .inl rfl)
    (by
      intro r a r' v h
      obtain ⟨_, h⟩ := ok_of_then h
      obtain ⟨_, h⟩ := ok_of_then h
      cases h; rfl)

theorem sameFrom_aliasAny (hw : 8 ≤ w) : SameFrom w o .der aliasAnyFromDer (aliasAnyFromDerW w) :=
  sameFrom_any hw .der (fun _ _ _ => .inl rfl) (by intro r a r' v h; cases h; rfl)

theorem sameFrom_derAny (hw : 8 ≤ w) : SameFrom w o .der (wrapBerParser parseDerAny) (wrapBerParser (parseDerAnyW w)) where
  same bs hi := wrap_any hw .der bs hi
  less _ _ _ h := (wrap_any_len (m := .der) h).1
  start _ h := wrap_any_start h

theorem sameFrom_raw (hw : 8 ≤ w) (tag : Nat) : SameFrom w o .der (rawFromDer tag) (rawFromDerW w tag) :=
  sameFrom_any hw .der (fun _ _ _ => .inl rfl) (by
    intro r a r' v h
    obtain ⟨_, h⟩ := ok_of_then h
    cases h; rfl)

theorem sameFrom_seq (hw : 8 ≤ w) {g g' : Bytes → Except SErr (Bytes × α)} (hg : SameFrom w o .der g g') (tag : Nat) :
    SameFrom w o .der (seqFromDer tag g) (seqFromDerW w tag g') :=
  sameFrom_any hw .der (fun _ _ ha => alikeS_then fun _ _ => alikeS_bind (items_sameS hg _ ha) fun _ _ => .inl rfl)
    (by
      intro r a r' v h
      obtain ⟨_, h⟩ := ok_of_then h
      obtain ⟨_, h⟩ := ok_of_then h
      cases h; rfl)

theorem sameFrom_set (hw : 8 ≤ w) {g g' : Bytes → Except SErr (Bytes × α)} (hg : SameFrom w o .der g g')
    (S : SetImpl α σ) : SameFrom w o .der (setFromDer S g) (setFromDerW w S g') :=
  sameFrom_any hw .der
    (fun _ _ ha => alikeS_then fun _ _ => alikeS_then fun _ _ => alikeS_bind (items_sameS hg _ ha) fun _ _ => .inl rfl)
    (by
      intro r a r' v h
      obtain ⟨_, h⟩ := ok_of_then h
      obtain ⟨_, h⟩ := ok_of_then h
      obtain ⟨_, h⟩ := ok_of_then h
      cases h; rfl)

theorem sameTry_struct {Ts : List Type} {fs fs' : SliceFields Ts} (h : SameRun w o .ber fs fs') (tag : Nat) :
    SameTry w o (structTryFrom tag fs) (structTryFromW w tag fs') := by
  intro a ha
  refine alikeS_then fun _ _ => ?_
  rcases h.same _ ha with h | ⟨ho | ⟨e, he⟩, h⟩
  · rw [h]; exact .inl rfl
  · rw [h]; exact .inr ⟨.inl ho, rfl⟩
  · rw [h, he]; exact .inr ⟨.inr ⟨_, rfl⟩, rfl⟩

theorem sameFrom_struct (hw : 8 ≤ w) {Ts : List Type} {fs fs' : SliceFields Ts} (h : SameRun w o .der fs fs')
    (tag : Nat) : SameFrom w o .der (structFromDer tag fs) (structFromDerW w tag fs') :=
  sameFrom_any hw .der (fun _ a ha => alikeS_then fun _ _ => alikeS_bind (h.same _ ha) fun _ _ => .inl rfl)
    (by
      intro r a r' v h
      obtain ⟨_, h⟩ := ok_of_then h
      obtain ⟨_, h⟩ := ok_of_then h
      cases h; rfl)

theorem sameTry_plain (hw : 8 ≤ w) {p p' : Parser α} (h : Compiled w .ber o p p') :
    SameTry w o (tryFromAny p) (tryFromAny p') := by
  intro a ha
  have hs := compiled_same hw h
  unfold tryFromAny
  rw [hs.accept]
  cases p.acceptTag a.header.tag with
  | false => exact .inl rfl
  | true =>
    simp only [Bool.not_true, Bool.false_eq_true, if_false]
    rcases hs.content a.header a.data ha with h1 | ⟨ho | ⟨e, h1⟩, j, h2⟩
    · rw [h1]; exact .inl rfl
    · rw [h2]; exact .inr ⟨.inl ho, rfl⟩
    · rw [h1, h2]; exact .inr ⟨.inr ⟨_, rfl⟩, rfl⟩

theorem sameFrom_plain (hw : 8 ≤ w) {p p' : Parser α} (h : Compiled w .ber o p p') (check : Any → Except SErr Unit) :
    SameFrom w o .der (fromDer p check) (fromDerW w p' check) :=
  sameFrom_any hw .der (fun _ a ha => alikeS_then fun _ _ => alikeS_bind (sameTry_plain hw h a ha) fun _ _ => .inl rfl)
    (by
      intro r a r' v h
      obtain ⟨_, h⟩ := ok_of_then h
      obtain ⟨_, h⟩ := ok_of_then h
      cases h; rfl)

theorem sameRun_nil {m : Rules} : SameRun w o m .nil .nil := ⟨fun _ _ => .inl rfl⟩

theorem sameRun_required (hw : 8 ≤ w) {m : Rules} {T : Type} {Ts : List Type} {ty ty' : SliceType T}
    {fs fs' : SliceFields Ts} {tag : FieldTag} (h : SameSlice w o m ty ty') (ht : SameRun w o m fs fs') :
    SameRun w o m (.cons (.required tag ty) fs) (.cons (.required tag ty') fs') :=
  sameRun_cons (sameFrom_tagged hw h tag).same (sameFrom_tagged hw h tag).less ht

theorem sameRun_optional (hw : 8 ≤ w) {m : Rules} {T : Type} {Ts : List Type} {ty ty' : SliceType T}
    {fs fs' : SliceFields Ts} {tag : FieldTag} (ho : o = true) (h : SameSlice w o m ty ty') (ht : SameRun w o m fs fs') :
    SameRun w o m (.cons (.optional tag ty) fs) (.cons (.optional tag ty') fs') := by
  subst ho
  exact sameRun_cons (optional_sameS hw h tag) (fun _ _ _ hx => optional_lessS hw h hx) ht

theorem sameRun_default (hw : 8 ≤ w) {m : Rules} {T : Type} {Ts : List Type} {ty ty' : SliceType T}
    {fs fs' : SliceFields Ts} {tag : FieldTag} {x : T} (ho : o = true) (h : SameSlice w o m ty ty')
    (ht : SameRun w o m fs fs') :
    SameRun w o m (.cons (.default tag ty x) fs) (.cons (.default tag ty' x) fs') := by
  subst ho
  refine sameRun_cons (fun bs hi => alikeS_bind (optional_sameS hw h tag bs hi) fun _ _ => .inl rfl) ?_ ht
  intro bs r v hx
  obtain ⟨⟨r', v'⟩, h1, h2⟩ := bind_eq_ok.mp hx
  cases h2
  exact optional_lessS hw h h1

theorem compiledTry_same (hw : 8 ≤ w) {f f' : Any → Except SErr α} (h : CompiledTry w o f f') : SameTry w o f f' := by
  refine CompiledTry.rec (w := w) (o := o)
    (motive_1 := fun {α} f f' _ => SameTry w o f f')
    (motive_2 := fun {α} g g' _ => SameFrom w o .der g g')
    (motive_3 := fun m {α} ty ty' _ => SameSlice w o m ty ty')
    (motive_4 := fun m {Ts} fs fs' _ => SameRun w o m fs fs')
    ?_ ?_ ?_ ?_ ?_ ?_ ?_ ?_ ?_ ?_ ?_ ?_ ?_ ?_ ?_ ?_ ?_ ?_ ?_ ?_ ?_ ?_ ?_ ?_ ?_ h
  · intro _ _ _ h; exact sameTry_plain hw h
  · intro _ _; exact .inl rfl
  · intro _ _ _ tag _ ih; exact sameTry_seq (sameFrom_fromBerWith hw ih) tag
  · intro _ _ _ _ S _ ih; exact sameTry_set (sameFrom_fromBerWith hw ih) S
  · intro _ _ _; exact .inl rfl
  · intro _ _ _ cls n _ ih; exact sameTry_explicit (sameFrom_fromBerWith hw ih) cls n
  · intro _ _ _ cls n t _ ih; exact sameTry_implicit ih cls n t
  · intro _ _ _ tag _ ih; exact sameTry_struct ih tag
  · intro _ _ _ _ ih a ha; exact alikeS_bind (ih a ha) fun _ _ => .inl rfl
  · intro _ _ _ check h; exact sameFrom_plain hw h check
  · exact sameFrom_derAny hw
  · intro _ _ _ tag _ ih; exact sameFrom_seq hw ih tag
  · intro _ _ _ _ S _ ih; exact sameFrom_set hw ih S
  · intro tag; exact sameFrom_raw hw tag
  · intro _ _ _ cls n _ ih; exact sameFrom_explicit hw ih cls n
  · intro _ _ _ cls n t _ ih; exact sameFrom_implicit hw ih cls n t
  · intro _ _ _ tag _ ih; exact sameFrom_struct hw ih tag
  · intro _ _ _ tag _ ih; exact sameFrom_alias hw ih tag
  · exact sameFrom_aliasAny hw
  · intro _ _ _ _ _ _ ih; exact ⟨sameFrom_fromBerWith hw ih, ih, rfl, rfl⟩
  · intro _ _ _ _ _ _ _ _ _ ih ihd; exact ⟨ihd, ih, rfl, rfl⟩
  · exact sameRun_nil
  · intro _ _ _ _ _ _ _ _ _ _ ih iht; exact sameRun_required hw ih iht
  · intro _ _ _ _ _ _ _ _ ho _ _ ih iht; exact sameRun_optional hw ho ih iht
  · intro _ _ _ _ _ _ _ _ _ ho _ _ ih iht; exact sameRun_default hw ho ih iht

theorem compiledDer_same (hw : 8 ≤ w) {g g' : Bytes → Except SErr (Bytes × α)} (h : CompiledDer w o g g') :
    SameFrom w o .der g g' := by
  refine CompiledDer.rec (w := w) (o := o)
    (motive_1 := fun {α} f f' _ => SameTry w o f f')
    (motive_2 := fun {α} g g' _ => SameFrom w o .der g g')
    (motive_3 := fun m {α} ty ty' _ => SameSlice w o m ty ty')
    (motive_4 := fun m {Ts} fs fs' _ => SameRun w o m fs fs')
    ?_ ?_ ?_ ?_ ?_ ?_ ?_ ?_ ?_ ?_ ?_ ?_ ?_ ?_ ?_ ?_ ?_ ?_ ?_ ?_ ?_ ?_ ?_ ?_ ?_ h
  · intro _ _ _ h; exact sameTry_plain hw h
  · intro _ _; exact .inl rfl
  · intro _ _ _ tag _ ih; exact sameTry_seq (sameFrom_fromBerWith hw ih) tag
  · intro _ _ _ _ S _ ih; exact sameTry_set (sameFrom_fromBerWith hw ih) S
  · intro _ _ _; exact .inl rfl
  · intro _ _ _ cls n _ ih; exact sameTry_explicit (sameFrom_fromBerWith hw ih) cls n
  · intro _ _ _ cls n t _ ih; exact sameTry_implicit ih cls n t
  · intro _ _ _ tag _ ih; exact sameTry_struct ih tag
  · intro _ _ _ _ ih a ha; exact alikeS_bind (ih a ha) fun _ _ => .inl rfl
  · intro _ _ _ check h; exact sameFrom_plain hw h check
  · exact sameFrom_derAny hw
  · intro _ _ _ tag _ ih; exact sameFrom_seq hw ih tag
  · intro _ _ _ _ S _ ih; exact sameFrom_set hw ih S
  · intro tag; exact sameFrom_raw hw tag
  · intro _ _ _ cls n _ ih; exact sameFrom_explicit hw ih cls n
  · intro _ _ _ cls n t _ ih; exact sameFrom_implicit hw ih cls n t
  · intro _ _ _ tag _ ih; exact sameFrom_struct hw ih tag
  · intro _ _ _ tag _ ih; exact sameFrom_alias hw ih tag
  · exact sameFrom_aliasAny hw
  · intro _ _ _ _ _ _ ih; exact ⟨sameFrom_fromBerWith hw ih, ih, rfl, rfl⟩
  · intro _ _ _ _ _ _ _ _ _ ih ihd; exact ⟨ihd, ih, rfl, rfl⟩
  · exact sameRun_nil
  · intro _ _ _ _ _ _ _ _ _ _ ih iht; exact sameRun_required hw ih iht
  · intro _ _ _ _ _ _ _ _ ho _ _ ih iht; exact sameRun_optional hw ho ih iht
  · intro _ _ _ _ _ _ _ _ _ ho _ _ ih iht; exact sameRun_default hw ho ih iht

end Asn1

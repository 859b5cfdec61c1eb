import Verif.Spec.EncodeWork
/-!
# Counting the calls of the encoders
-/
namespace Asn1
open Spec

/-! ### Programs that write -/

/-- Every result of the program satisfies `P`. -/
def Wr.Yields {α : Type} (P : α → Prop) : Wr α → Prop
  | .done a => P a
  | .fail _ => True
  | .write _ k => ∀ r, (k r).Yields P

theorem yields_bind {α β : Type} {P : α → Prop} {Q : β → Prop} {w : Wr α} {f : α → Wr β} (h : w.Yields P)
    (hf : ∀ a, P a → (f a).Yields Q) : (w >>= f).Yields Q := by
  show (w.bind f).Yields Q
  induction w with
  | done a => exact hf a h
  | fail e => trivial
  | write bs k ih => exact fun r => ih r (h r)

theorem yields_true {α : Type} (w : Wr α) : w.Yields fun _ => True := by
  induction w with
  | done a => trivial
  | fail e => trivial
  | write bs k ih => exact fun r => ih r

theorem yields_run {α : Type} {P : α → Prop} {w : Wr α} (h : w.Yields P) (wr : Wr.Writer) {hist bs a}
    (hr : w.runFaulty wr hist = (bs, .ok a)) : P a := by
  induction w generalizing hist bs with
  | done b => cases hr; exact h
  | fail e => cases hr
  | write cs k ih =>
    simp only [Wr.runFaulty] at hr
    split at hr
    · refine ih (.ok ()) (h _) (hist := cs :: hist) (bs := (Wr.runFaulty wr (k (.ok ())) (cs :: hist)).1) ?_
      rw [← (Prod.mk.inj hr).2]
    · refine ih (.error .io) (h _) (hist := cs :: hist) (bs := (Wr.runFaulty wr (k (.error .io)) (cs :: hist)).1) ?_
      rw [← (Prod.mk.inj hr).2]

theorem yields_mono {α : Type} {P Q : α → Prop} {w : Wr α} (h : w.Yields P) (hi : ∀ a, P a → Q a) : w.Yields Q := by
  induction w with
  | done a => exact hi a h
  | fail e => trivial
  | write bs k ih => exact fun r => ih r (h r)

/-- Without the count. -/
def Wr.Erases (w : Wr (WithCalls Nat)) (w' : Wr Nat) : Prop := (w >>= fun x => pure x.1) = w'

theorem wr_bind_assoc {α β γ : Type} (w : Wr α) (f : α → Wr β) (g : β → Wr γ) :
    ((w >>= f) >>= g) = (w >>= fun a => f a >>= g) := by
  show (w.bind f).bind g = w.bind fun a => (f a).bind g
  induction w with
  | done a => rfl
  | fail e => rfl
  | write bs k ih => exact congrArg (Wr.write bs) (funext ih)

theorem erases_pure (n c : Nat) : Wr.Erases (pure (n, c)) (pure n) := rfl

theorem erases_bind {w : Wr (WithCalls Nat)} {w' : Wr Nat} {f : WithCalls Nat → Wr (WithCalls Nat)} {f' : Nat → Wr Nat}
    (h : w.Erases w') (hf : ∀ a, (f a).Erases (f' a.1)) : (w >>= f).Erases (w' >>= f') := by
  subst h
  rw [Wr.Erases, wr_bind_assoc, wr_bind_assoc]
  exact congrArg _ (funext hf)

theorem erases_bind' {α : Type} {w : Wr α} {f : α → Wr (WithCalls Nat)} {f' : α → Wr Nat}
    (hf : ∀ a, (f a).Erases (f' a)) : (w >>= f).Erases (w >>= f') := by
  rw [Wr.Erases, wr_bind_assoc]
  exact congrArg _ (funext hf)

theorem erases_run {w : Wr (WithCalls Nat)} {w' : Wr Nat} (h : w.Erases w') (wr : Wr.Writer) (hist : List Bytes) :
    w'.runFaulty wr hist = ((w.runFaulty wr hist).1, (w.runFaulty wr hist).2.map Prod.fst) := by
  subst h
  show (w.bind _).runFaulty wr hist = _
  induction w generalizing hist with
  | done a => rfl
  | fail e => rfl
  | write bs k ih =>
    simp only [Wr.bind, Wr.runFaulty]
    split <;> simp only [ih]

theorem erases_exec {w : Wr (WithCalls Nat)} {w' : Wr Nat} (h : w.Erases w') :
    w'.exec = (w.exec.1, w.exec.2.map Prod.fst) := by
  subst h
  show (w.bind _).exec = _
  induction w with
  | done a => rfl
  | fail e => rfl
  | write bs k ih => simp only [Wr.bind, Wr.exec, ih]

theorem yields_exec {α : Type} {P : α → Prop} {w : Wr α} (h : w.Yields P) {bs a}
    (hr : w.exec = (bs, .ok a)) : P a := by
  induction w generalizing bs with
  | done b => cases hr; exact h
  | fail e => cases hr
  | write cs k ih =>
    refine ih (.ok ()) (h _) (bs := (k (.ok ())).exec.1) ?_
    rw [← (Prod.mk.inj hr).2]

/-! ### One encoder -/

/-- The counting encoder does what the encoder does. -/
structure Mirrors {α : Type} (t : ToBer α) (c : CountingToBer α) : Prop where
  encoder : c.encoder = t.encoder
  info : ∀ v, c.tagInfo v = t.tagInfo v
  len : ∀ v, (c.contentLen v).1 = t.contentLen v
  content : ∀ v, (c.writeContent v).Erases (t.writeContent v)

variable {α σ : Type} {t : ToBer α} {c : CountingToBer α}

theorem Mirrors.total (h : Mirrors t c) (v : α) : (c.totalLen v).1 = t.totalLen v := by
  unfold CountingToBer.totalLen ToBer.totalLen
  rw [h.info, h.len]

theorem Mirrors.header (h : Mirrors t c) (v : α) : (c.writeHeader v).Erases (t.writeHeader v) := by
  unfold CountingToBer.writeHeader ToBer.writeHeader
  simp only [h.info, h.len, h.encoder]
  exact erases_bind' fun _ => erases_bind' fun _ => erases_pure _ _

theorem Mirrors.encode (h : Mirrors t c) (v : α) : (c.encode v).Erases (t.encode v) := by
  unfold CountingToBer.encode ToBer.encode
  exact erases_bind (h.header v) fun _ => erases_bind (h.content v) fun _ => erases_pure _ _

theorem mirrors_header : Mirrors headerToBer CountingToBer.header :=
  ⟨rfl, fun _ => rfl, fun _ => rfl, fun _ => erases_pure _ _⟩

theorem Mirrors.tagExplicit (h : Mirrors t c) (cls : Class) (tag : Nat) (v : α) :
    (c.encodeTaggedExplicit cls tag v).Erases (t.encodeTaggedExplicit cls tag v) := by
  unfold CountingToBer.encodeTaggedExplicit ToBer.encodeTaggedExplicit
  simp only [h.total]
  exact erases_bind (mirrors_header.header _) fun _ => erases_bind (h.header v) fun _ =>
    erases_bind (h.content v) fun _ => erases_pure _ _

theorem Mirrors.tagImplicit (h : Mirrors t c) (cls : Class) (tag : Nat) (v : α) :
    (c.encodeTaggedImplicit cls tag v).Erases (t.encodeTaggedImplicit cls tag v) := by
  unfold CountingToBer.encodeTaggedImplicit ToBer.encodeTaggedImplicit
  simp only [h.len, h.info]
  exact erases_bind (mirrors_header.header _) fun _ => erases_bind (h.content v) fun _ => erases_pure _ _

theorem Mirrors.items (h : Mirrors t c) (vs : List α) (acc : WithCalls Nat) :
    (c.writeItems vs acc).Erases (t.writeItems vs acc.1) := by
  induction vs generalizing acc with
  | nil => exact erases_pure acc.1 acc.2
  | cons v vs ih => exact erases_bind (h.encode v) fun sz => ih (acc.1 + sz.1, acc.2 + sz.2)

theorem Mirrors.lengths (h : Mirrors t c) (vs : List α) : (c.lengthItems vs).1 = t.lengthItems vs := by
  unfold CountingToBer.lengthItems ToBer.lengthItems
  simp only [h.total]

theorem mirrors_leaf (t : ToBer α) (n : Nat) : Mirrors t (.leaf t n) := by
  refine ⟨rfl, fun _ => rfl, fun _ => rfl, fun v => ?_⟩
  show ((t.writeContent v >>= fun n => pure (n, 0)) >>= fun x => pure x.1) = _
  rw [wr_bind_assoc]
  show (t.writeContent v).bind (fun a => .done a) = _
  induction t.writeContent v with
  | done a => rfl
  | fail e => rfl
  | write bs k ih => exact congrArg (Wr.write bs) (funext ih)

/-! ### The bounds -/

/-- A value of `p` parts: the length takes at most `2 ^ s * p` calls, and the content `(d + s - 1) * 2 ^ s * p`. -/
structure Bounded (c : CountingToBer α) (d s : Nat) (p : α → Nat) : Prop where
  pos : ∀ v, 1 ≤ p v
  len : ∀ v, (c.contentLen v).2 ≤ 2 ^ s * p v
  content : ∀ v, (c.writeContent v).Yields fun x => x.2 + 2 ^ s * p v ≤ (d + s) * (2 ^ s * p v)

variable {d s : Nat} {p : α → Nat}

theorem header_calls (c : CountingToBer α) (v : α) :
    (c.writeHeader v).Yields fun x => x.2 = (c.contentLen v).2 := by
  unfold CountingToBer.writeHeader
  exact yields_bind (yields_true _) fun _ _ => yields_bind (yields_true _) fun _ _ => rfl

theorem Bounded.encode (h : Bounded c d s p) (v : α) :
    (c.encode v).Yields fun x => x.2 ≤ (d + s) * (2 ^ s * p v) := by
  unfold CountingToBer.encode
  refine yields_bind (header_calls c v) fun a ha => yields_bind (h.content v) fun b hb => ?_
  have := h.len v
  show a.2 + b.2 ≤ _
  omega

/-- Less deep, and fewer tags. -/
theorem bound_mono {d d' s s' p p' : Nat} (hd : d ≤ d') (hs : s ≤ s') (hp : p ≤ p') :
    (d + s) * (2 ^ s * p) ≤ (d' + s') * (2 ^ s' * p') :=
  Nat.mul_le_mul (by omega) (Nat.mul_le_mul (Nat.pow_le_pow_right (by omega) hs) hp)

theorem Bounded.items (h : Bounded c d s p) (vs : List α) (acc : WithCalls Nat) :
    (c.writeItems vs acc).Yields fun x => x.2 ≤ acc.2 + (d + s) * (2 ^ s * (vs.map p).sum) := by
  induction vs generalizing acc with
  | nil => exact Nat.le_add_right _ _
  | cons v vs ih =>
    refine yields_bind (h.encode v) fun sz hsz => yields_mono (ih _) fun x hx => ?_
    simp only [List.map_cons, List.sum_cons, Nat.mul_add] at hx ⊢
    omega

theorem Bounded.lengths (h : Bounded c d s p) (vs : List α) : (c.lengthItems vs).2 ≤ 2 ^ s * (vs.map p).sum := by
  unfold CountingToBer.lengthItems
  induction vs with
  | nil => simp
  | cons v vs ih =>
    have := h.len v
    simp only [List.map_cons, List.sum_cons, Nat.mul_add] at ih ⊢
    unfold CountingToBer.totalLen at ih ⊢
    simp only at ih ⊢
    omega

theorem two_pow_pos' (s : Nat) : 1 ≤ 2 ^ s := Nat.one_le_two_pow

/-- One more level. -/
theorem bound_level {x d s q n : Nat} (hn : 1 ≤ n) (hx : x ≤ (d + s) * (2 ^ s * q)) :
    x + 2 ^ s * (n + q) ≤ (d + 1 + s) * (2 ^ s * (n + q)) := by
  have h1 : (d + s) * (2 ^ s * q) ≤ (d + s) * (2 ^ s * (n + q)) :=
    Nat.mul_le_mul_left _ (Nat.mul_le_mul_left _ (by omega))
  have h2 : (d + 1 + s) * (2 ^ s * (n + q)) = (d + s) * (2 ^ s * (n + q)) + 2 ^ s * (n + q) := by
    rw [show d + 1 + s = d + s + 1 by omega, Nat.add_mul, Nat.one_mul]
  omega

theorem len_level {x s q n : Nat} (hx : x ≤ 2 ^ s * q) : n + x ≤ 2 ^ s * (n + q) := by
  have := Nat.mul_le_mul_right n (two_pow_pos' s)
  rw [Nat.mul_add]; omega

theorem bounded_items (h : Bounded c d s p) (tag extra : Nat) (toList : σ → List α) :
    Bounded (.items tag extra toList c) (d + 1) s fun v => (1 + extra) + ((toList v).map p).sum where
  pos _ := by omega
  len v := len_level (h.lengths _)
  content v := yields_mono (h.items (toList v) (0, 0)) fun x hx => bound_level (by omega) (by simpa using hx)

theorem mirrors_items (h : Mirrors t c) (tag extra : Nat) (toList : σ → List α) :
    Mirrors (⟨.constructed, fun v => t.lengthItems (toList v), fun _ => (.universal, true, tag),
      fun v => t.writeItems (toList v) 0⟩ : ToBer σ) (.items tag extra toList c) :=
  ⟨rfl, fun _ => rfl, fun _ => h.lengths _, fun _ => h.items _ (0, 0)⟩

/-! ### The fields of a struct -/

theorem field_mirrors (h : Mirrors t c) (tag : FieldTag) (v : α) (acc : WithCalls Length) :
    (c.addLen tag v acc).1 = tag.addLen (t.totalLen v) (t.contentLen v) acc.1 := by
  cases tag <;> simp only [CountingToBer.addLen, FieldTag.addLen, h.total, h.len]

theorem field_mirrors_write (h : Mirrors t c) (tag : FieldTag) (v : α) :
    (c.writeField tag v).Erases (tag.write t v) := by
  cases tag
  · exact h.encode v
  · exact h.tagExplicit _ _ v
  · exact h.tagImplicit _ _ v

theorem field_len (h : Bounded c d s p) (tag : FieldTag) (v : α) (acc : WithCalls Length) :
    (c.addLen tag v acc).2 ≤ acc.2 + 2 ^ (s + tagCount tag) * p v := by
  have := h.len v
  have h2 : 2 ^ (s + 1) * p v = 2 * (2 ^ s * p v) := by rw [Nat.pow_succ, Nat.mul_comm (2 ^ s), Nat.mul_assoc]
  cases tag <;> simp only [CountingToBer.addLen, CountingToBer.totalLen, tagCount, Nat.add_zero] <;> omega

theorem field_calls (h : Bounded c d s p) (tag : FieldTag) (v : α) :
    (c.writeField tag v).Yields fun x => x.2 ≤ (d + (s + tagCount tag)) * (2 ^ (s + tagCount tag) * p v) := by
  have h2 : 2 ^ (s + 1) * p v = 2 * (2 ^ s * p v) := by rw [Nat.pow_succ, Nat.mul_comm (2 ^ s), Nat.mul_assoc]
  have h3 : (d + (s + 1)) * (2 * (2 ^ s * p v)) = 2 * ((d + s) * (2 ^ s * p v)) + 2 * (2 ^ s * p v) := by
    rw [show d + (s + 1) = d + s + 1 by omega, Nat.add_mul, Nat.one_mul, Nat.mul_left_comm]
  have h4 : 1 ≤ 2 ^ s * p v := Nat.mul_le_mul (two_pow_pos' s) (h.pos v)
  have h5 := h.len v
  cases tag with
  | untagged => exact h.encode v
  | explicit cls n =>
    unfold CountingToBer.writeField CountingToBer.encodeTaggedExplicit
    refine yields_bind (header_calls _ _) fun a ha => yields_bind (header_calls c v) fun b hb =>
      yields_bind (h.content v) fun e he => ?_
    show (c.contentLen v).2 + a.2 + b.2 + e.2 ≤ (d + (s + 1)) * (2 ^ (s + 1) * p v)
    have ha : a.2 = 1 := ha
    rw [h2, h3]; omega
  | implicit cls n =>
    unfold CountingToBer.writeField CountingToBer.encodeTaggedImplicit
    refine yields_bind (header_calls _ _) fun a ha => yields_bind (h.content v) fun e he => ?_
    show (c.contentLen v).2 + a.2 + e.2 ≤ (d + (s + 1)) * (2 ^ (s + 1) * p v)
    have ha : a.2 = 1 := ha
    rw [h2, h3]; omega

/-- The fields. -/
structure FieldsCounted {Ts : List Type} (es : EncFields Ts) (cs : CountingFields Ts) (d s : Nat) (ps : Tup Ts → Nat) :
    Prop where
  len : ∀ v acc, (cs.len v acc).1 = es.len v acc.1
  write : ∀ v acc, (cs.write v acc).Erases (es.write v acc.1)
  lenCalls : ∀ v acc, (cs.len v acc).2 ≤ acc.2 + 2 ^ s * ps v
  writeCalls : ∀ v acc, (cs.write v acc).Yields fun x => x.2 ≤ acc.2 + (d + s) * (2 ^ s * ps v)

theorem fieldsCounted_cons {T : Type} {Ts : List Type} {t : ToBer T} {c d s p} {es : EncFields Ts} {cs d' s' ps}
    (tag : FieldTag) (hm : Mirrors t c) (hb : Bounded c d s p) (h : FieldsCounted es cs d' s' ps) :
    FieldsCounted (.cons tag t es) (.cons tag c cs) (max d d') (max (s + tagCount tag) s')
      (fun v => p v.1 + ps v.2) where
  len v acc := by
    show (cs.len v.2 (c.addLen tag v.1 acc)).1 = es.len v.2 _
    rw [h.len, field_mirrors hm]
  write v acc := erases_bind (field_mirrors_write hm tag v.1) fun n => h.write v.2 (acc.1 + n.1, acc.2 + n.2)
  lenCalls v acc := by
    show (cs.len v.2 (c.addLen tag v.1 acc)).2 ≤ _
    have h1 := h.lenCalls v.2 (c.addLen tag v.1 acc)
    have h2 := field_len hb tag v.1 acc
    have h3 : 2 ^ (s + tagCount tag) * p v.1 ≤ 2 ^ max (s + tagCount tag) s' * p v.1 :=
      Nat.mul_le_mul_right _ (Nat.pow_le_pow_right (by omega) (by omega))
    have h4 : 2 ^ s' * ps v.2 ≤ 2 ^ max (s + tagCount tag) s' * ps v.2 :=
      Nat.mul_le_mul_right _ (Nat.pow_le_pow_right (by omega) (by omega))
    rw [Nat.mul_add]; omega
  writeCalls v acc := by
    refine yields_bind (field_calls hb tag v.1) fun n hn => yields_mono (h.writeCalls v.2 _) fun x hx => ?_
    have h3 : (d + (s + tagCount tag)) * (2 ^ (s + tagCount tag) * p v.1) ≤
        (max d d' + max (s + tagCount tag) s') * (2 ^ max (s + tagCount tag) s' * p v.1) :=
      bound_mono (by omega) (by omega) (Nat.le_refl _)
    have h4 : (d' + s') * (2 ^ s' * ps v.2) ≤
        (max d d' + max (s + tagCount tag) s') * (2 ^ max (s + tagCount tag) s' * ps v.2) :=
      bound_mono (by omega) (by omega) (Nat.le_refl _)
    rw [Nat.mul_add, Nat.mul_add]
    simp only at hx
    omega

/-- The variants. -/
structure VariantsCounted {Ts : List Type} (es : EncVariants Ts) (cs : CountingVariants Ts) (d s : Nat)
    (ps : HSum Ts → Nat) : Prop where
  pos : ∀ v, 1 ≤ ps v
  info : ∀ k v, cs.info k v = es.info k v
  len : ∀ k v, (cs.len k v).1 = es.len k v
  write : ∀ k v, (cs.write k v).Erases (es.write k v)
  lenCalls : ∀ k v, (cs.len k v).2 ≤ 1 + 2 ^ s * ps v
  writeCalls : ∀ k v, (cs.write k v).Yields fun x => x.2 ≤ (d + s) * (2 ^ s * ps v)

theorem variantsCounted_cons {T : Type} {Ts : List Type} {t : ToBer T} {c d s p} {es : EncVariants Ts} {cs d' s' ps}
    (n : Nat) (dyn : T → Class × Bool × Nat) (hm : Mirrors t c) (hb : Bounded c d s p)
    (h : VariantsCounted es cs d' s' ps) :
    VariantsCounted (.cons n dyn t es) (.cons n dyn c cs) (max d d') (max s s')
      (Sum.elim p ps : T ⊕ HSum Ts → Nat) where
  pos v := match v with
    | .inl x => hb.pos x
    | .inr x => h.pos x
  info k v := match v with
    | .inl x => by cases k <;> rfl
    | .inr x => h.info k x
  len k v := match v with
    | .inl x => by
      cases k
      · exact hm.total x
      · exact hm.len x
      · exact hm.len x
    | .inr x => h.len k x
  write k v := match v with
    | .inl x => by
      cases k
      · exact hm.encode x
      · exact hm.content x
      · exact hm.content x
    | .inr x => h.write k x
  lenCalls k v := match v with
    | .inl x => by
      have h1 := hb.len x
      have h3 : 2 ^ s * p x ≤ 2 ^ max s s' * p x :=
        Nat.mul_le_mul_right _ (Nat.pow_le_pow_right (by omega) (by omega))
      have h2 : 1 + (c.contentLen x).2 ≤ 1 + 2 ^ max s s' * p x := by omega
      cases k <;> exact h2
    | .inr x => by
      have h1 := h.lenCalls k x
      have h3 : 2 ^ s' * ps x ≤ 2 ^ max s s' * ps x :=
        Nat.mul_le_mul_right _ (Nat.pow_le_pow_right (by omega) (by omega))
      have h2 : (cs.len k x).2 ≤ 1 + 2 ^ max s s' * ps x := by omega
      exact h2
  writeCalls k v := match v with
    | .inl x => by
      have h3 : (d + s) * (2 ^ s * p x) ≤ (max d d' + max s s') * (2 ^ max s s' * p x) :=
        bound_mono (by omega) (by omega) (Nat.le_refl _)
      have h1 : (c.encode x).Yields fun y => y.2 ≤ (max d d' + max s s') * (2 ^ max s s' * p x) :=
        yields_mono (hb.encode x) fun y hy => Nat.le_trans hy h3
      have h2 : (c.writeContent x).Yields fun y => y.2 ≤ (max d d' + max s s') * (2 ^ max s s' * p x) :=
        yields_mono (hb.content x) fun y hy => by omega
      cases k
      · exact h1
      · exact h2
      · exact h2
    | .inr x => yields_mono (h.writeCalls k x) fun y hy =>
        Nat.le_trans hy (bound_mono (by omega) (by omega) (Nat.le_refl _))

/-! ### All types -/

theorem lengthCalls_pos {t : ToBer α} {n : Nat} (h : LengthCalls t n) : 1 ≤ n := by
  cases h <;> omega

theorem counting_sound {α : Type} {t : ToBer α} {c d s p} (h : Counting t c d s p) :
    Mirrors t c ∧ Bounded c d s p := by
  refine Counting.rec
    (motive_1 := fun {α} t c d s p _ => Mirrors t c ∧ Bounded c d s p)
    (motive_2 := fun {Ts} es cs d s ps _ => FieldsCounted es cs d s ps)
    (motive_3 := fun {Ts} es cs d s ps _ => VariantsCounted es cs d s ps)
    ?_ ?_ ?_ ?_ ?_ ?_ ?_ ?_ ?_ ?_ ?_ ?_ ?_ ?_ ?_ ?_ h
  · intro α t n hn
    refine ⟨mirrors_leaf t n, fun _ => lengthCalls_pos hn, fun _ => ?_, fun v => ?_⟩
    · exact Nat.le_of_eq (by simp [CountingToBer.leaf])
    · exact yields_bind (yields_true _) fun _ _ => by
        show 0 + 2 ^ 0 * n ≤ (1 + 0) * (2 ^ 0 * n); omega
  · intro α t c d s p tag _ ih
    exact ⟨mirrors_items ih.1 tag 0 id, bounded_items ih.2 tag 0 id⟩
  · intro α t c d s p tag _ ih
    exact ⟨mirrors_items ih.1 tag 1 id, bounded_items ih.2 tag 1 id⟩
  · intro α σ t c d s p S _ ih
    exact ⟨mirrors_items ih.1 17 0 S.toList, bounded_items ih.2 17 0 S.toList⟩
  · intro α t c d s p N _ ih
    exact ⟨mirrors_items ih.1 16 0 Subtype.val, bounded_items ih.2 16 0 Subtype.val⟩
  · intro α t c d s p _ ih
    refine ⟨⟨rfl, fun _ => rfl, fun _ => rfl, fun vs => ?_⟩, fun _ => by omega, fun vs => ?_, fun vs => ?_⟩
    · exact erases_bind (ih.1.items vs (0, 0)) fun sz => erases_bind' fun _ => erases_pure _ _
    · exact Nat.le_trans (by show 1 ≤ 2 ^ s; exact two_pow_pos' s) (Nat.le_mul_of_pos_right _ (by omega))
    · refine yields_bind (ih.2.items vs (0, 0)) fun sz hsz => yields_bind (yields_true _) fun _ _ => ?_
      exact bound_level (by omega) (by simpa using hsz)
  · intro H
    have hb : Bounded (.leaf anyToBer 1) 1 0 fun _ => 1 := by
      refine ⟨fun _ => by omega, fun _ => by simp [CountingToBer.leaf], fun v => ?_⟩
      exact yields_bind (yields_true _) fun _ _ => by
        show 0 + 2 ^ 0 * 1 ≤ (1 + 0) * (2 ^ 0 * 1); omega
    exact ⟨mirrors_items (mirrors_leaf anyToBer 1) 17 1 (AnySet.iter H), bounded_items hb 17 1 (AnySet.iter H)⟩
  · intro α t c d s p cls tag dynTag _ ih
    refine ⟨⟨rfl, fun _ => rfl, fun v => ?_, fun v => ih.1.encode v.inner⟩, fun _ => by omega,
      fun v => len_level (ih.2.len v.inner), fun v => ?_⟩
    · simp only [CountingToBer.explicit, explicitToBer, ih.1.len]
    · exact yields_mono (ih.2.encode v.inner) fun x hx => bound_level (by omega) hx
  · intro α t c d s p cls tag dynC _ ih
    refine ⟨⟨rfl, fun _ => rfl, fun v => ih.1.len v.inner, fun v => ih.1.content v.inner⟩, fun _ => by omega,
      fun v => len_level (ih.2.len v.inner), fun v => ?_⟩
    exact yields_mono (ih.2.content v.inner) fun x hx => bound_level (by omega) (by omega)
  · intro α t c d s p _ ih
    refine ⟨⟨rfl, fun v => ih.1.info v.inner, fun v => ih.1.len v.inner, fun v => ih.1.content v.inner⟩,
      fun _ => by omega, fun v => len_level (ih.2.len v.inner), fun v => ?_⟩
    exact yields_mono (ih.2.content v.inner) fun x hx => bound_level (by omega) (by omega)
  · intro Ts es cs d s ps tag _ ih
    refine ⟨⟨rfl, fun _ => rfl, fun v => ih.len v (.definite 0, 1), fun v => ih.write v (0, 0)⟩, fun _ => by omega,
      fun v => ?_, fun v => ?_⟩
    · have h1 := ih.lenCalls v (.definite 0, 1)
      have h2 := two_pow_pos' s
      show (cs.len v (.definite 0, 1)).2 ≤ _
      rw [Nat.mul_add]
      simp only at h1
      omega
    · exact yields_mono (ih.writeCalls v (0, 0)) fun x hx => bound_level (by omega) (by simpa using hx)
  · intro Ts es cs d s ps k _ ih
    refine ⟨⟨rfl, fun v => ih.info k v, fun v => ih.len k v, fun v => ih.write k v⟩, fun _ => by omega,
      fun v => ?_, fun v => ?_⟩
    · have h1 := ih.lenCalls k v
      have h2 := two_pow_pos' s
      show (cs.len k v).2 ≤ _
      rw [Nat.mul_add]
      omega
    · exact yields_mono (ih.writeCalls k v) fun x hx => bound_level (by omega) hx
  · exact ⟨fun _ _ => rfl, fun _ acc => erases_pure acc.1 acc.2, fun _ _ => by simp [CountingFields.len],
      fun _ acc => by show acc.2 ≤ _; omega⟩
  · intro T Ts t c d s p es cs d' s' ps tag _ _ ih1 ih2
    exact fieldsCounted_cons tag ih1.1 ih1.2 ih2
  · intro p
    exact ⟨fun v => v.elim, fun _ v => v.elim, fun _ v => v.elim, fun _ v => v.elim, fun _ v => v.elim,
      fun _ v => v.elim⟩
  · intro T Ts t c d s p es cs d' s' ps n dyn _ _ ih1 ih2
    exact variantsCounted_cons n dyn ih1.1 ih1.2 ih2

end Asn1

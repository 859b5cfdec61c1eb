import Verif.Spec.Containers
import Verif.Props.Iterator
import Verif.Props.TaggedMore
/-!
# Lemmas about containers
-/
namespace Asn1
open Spec Wr

variable {α β : Type}

/-! ### Items -/

theorem repeats_of_objs {parse : Input → PRes Any} {p : Parser α} {f : Input → PRes α}
    (hf : ∀ i r v, f i = .ok (r, v) ↔ ∃ a, parse i = .ok (r, a) ∧ DecodesTo p a v)
    {i e : Input} {vs : List α} :
    (∃ as, Objs parse (fun _ => false) i as e ∧ Pointwise (DecodesTo p) as vs) ↔
      Repeats f i vs e := by
  constructor
  · rintro ⟨as, h, hp⟩
    induction h generalizing vs with
    | nil h => cases hp; exact .nil h
    | stop _ _ h => simp at h
    | cons h hpi _ _ ih =>
      cases hp with
      | cons hd ht => exact .cons h ((hf _ _ _).mpr ⟨_, hpi, hd⟩) (ih ht)
  · intro h
    induction h with
    | nil h => exact ⟨[], .nil h, .nil⟩
    | cons h hp _ ih =>
      obtain ⟨as, h1, h2⟩ := ih
      obtain ⟨a, h3, h4⟩ := (hf _ _ _).mp hp
      exact ⟨a :: as, .cons h h3 rfl h1, .cons h4 h2⟩

theorem parseBer_decodes (p : Parser α) (i r : Input) (v : α) :
    p.parseBer i = .ok (r, v) ↔ ∃ a, anyBer.parseBer i = .ok (r, a) ∧ DecodesTo p a v := by
  rw [parseBer_ok, anyBer_parseBer]
  constructor
  · rintro ⟨a, x, h1, h2, h3⟩; exact ⟨a, h1, h2, x, h3⟩
  · rintro ⟨a, h1, h2, x, h3⟩; exact ⟨a, x, h1, h2, h3⟩

theorem parseDer_decodes (p : Parser α) (i r : Input) (v : α) :
    p.parseDer i = .ok (r, v) ↔ ∃ a, anyDer.parseDer i = .ok (r, a) ∧ DecodesTo p a v := by
  rw [parseDer_ok, anyDer_parseDer]
  constructor
  · rintro ⟨a, x, h1, h2, h3⟩; exact ⟨a, h1, h2, x, h3⟩
  · rintro ⟨a, h1, h2, x, h3⟩; exact ⟨a, x, h1, h2, h3⟩

/-- Collecting typed items, in terms of the typed parser. -/
theorem collectBer_ok {p : Parser α} {i e : Input} {vs : List α} :
    (AnyIter.new i).tryParseCollect anyBer.parseBer p = .ok (e, vs) ↔
      Repeats p.parseBer i vs e := by
  rw [C37_try_parse_collect _ p (.inl rfl), repeats_of_objs (parseBer_decodes p)]

theorem collectDer_ok {p : Parser α} {i e : Input} {vs : List α} :
    (AnyIter.new i).tryParseCollect anyDer.parseDer p = .ok (e, vs) ↔
      Repeats p.parseDer i vs e := by
  rw [C37_try_parse_collect _ p (.inr rfl), repeats_of_objs (parseDer_decodes p)]

theorem repeats_end {f : Input → PRes α} {i e : Input} {vs : List α} (h : Repeats f i vs e) :
    e.data = [] := by
  induction h with
  | nil h => exact h
  | cons _ _ _ ih => exact ih

theorem repeats_empty {f : Input → PRes α} {i e : Input} {vs : List α} (hi : i.data = []) :
    Repeats f i vs e ↔ e = i ∧ vs = [] := by
  constructor
  · intro h
    cases h with
    | nil h => exact ⟨rfl, rfl⟩
    | cons h => exact absurd hi h
  · rintro ⟨rfl, rfl⟩; exact .nil hi

theorem repeats_fun {f : Input → PRes α} {i e e' : Input} {vs vs' : List α} (h : Repeats f i vs e)
    (h' : Repeats f i vs' e') : vs = vs' ∧ e = e' := by
  induction h generalizing vs' with
  | nil h => exact ((repeats_empty h).mp h').2.symm ▸ ⟨rfl, ((repeats_empty h).mp h').1.symm⟩
  | cons h hp _ ih =>
    cases h' with
    | nil h' => exact absurd h' h
    | cons _ hp' ht' =>
      rw [hp] at hp'
      injection hp' with hp'
      injection hp' with h1 h2
      subst h1 h2
      obtain ⟨rfl, rfl⟩ := ih ht'
      exact ⟨rfl, rfl⟩

/-- The content of a `Vec`. -/
theorem vecBer_content {p : Parser α} {h : Header} {i e : Input} {vs : List α} :
    (vecBer p).content h i = .ok (e, vs) ↔ h.constructed = true ∧ Repeats p.parseBer i vs e := by
  show (h.assertConstructed i >>= fun _ => if i.isEmpty then _ else _) = _ ↔ _
  rw [bind_eq_ok]
  constructor
  · rintro ⟨_, h1, h2⟩
    refine ⟨assertConstructed_ok.mp h1, ?_⟩
    split at h2
    · rename_i he
      simp [Input.isEmpty] at he h2
      exact (repeats_empty he).mpr ⟨h2.1.symm, h2.2⟩
    · exact collectBer_ok.mp h2
  · rintro ⟨h1, h2⟩
    refine ⟨(), assertConstructed_ok.mpr h1, ?_⟩
    split
    · rename_i he
      simp [Input.isEmpty] at he
      obtain ⟨rfl, rfl⟩ := (repeats_empty he).mp h2
      rfl
    · exact collectBer_ok.mpr h2

theorem vecDer_content {p : Parser α} {h : Header} {i e : Input} {vs : List α} :
    (vecDer p).content h i = .ok (e, vs) ↔ h.constructed = true ∧ Repeats p.parseDer i vs e := by
  show (h.assertConstructed i >>= fun _ => if i.isEmpty then _ else _) = _ ↔ _
  rw [bind_eq_ok]
  constructor
  · rintro ⟨_, h1, h2⟩
    refine ⟨assertConstructed_ok.mp h1, ?_⟩
    split at h2
    · rename_i he
      simp [Input.isEmpty] at he h2
      exact (repeats_empty he).mpr ⟨h2.1.symm, h2.2⟩
    · exact collectDer_ok.mp h2
  · rintro ⟨h1, h2⟩
    refine ⟨(), assertConstructed_ok.mpr h1, ?_⟩
    split
    · rename_i he
      simp [Input.isEmpty] at he
      obtain ⟨rfl, rfl⟩ := (repeats_empty he).mp h2
      rfl
    · exact collectDer_ok.mpr h2

theorem setItemsBer_content {p : Parser α} {h : Header} {i e : Input} {vs : List α} :
    (setItemsP anyBer.parseBer p).content h i = .ok (e, vs) ↔
      h.constructed = true ∧ Repeats p.parseBer i vs e := by
  show (h.assertConstructed i >>= fun _ => _) = _ ↔ _
  rw [bind_eq_ok]
  constructor
  · rintro ⟨_, h1, h2⟩
    exact ⟨assertConstructed_ok.mp h1, collectBer_ok.mp h2⟩
  · rintro ⟨h1, h2⟩
    exact ⟨(), assertConstructed_ok.mpr h1, collectBer_ok.mpr h2⟩

theorem setItemsDer_content {p : Parser α} {h : Header} {i e : Input} {vs : List α} :
    (setItemsP anyDer.parseDer p).content h i = .ok (e, vs) ↔
      h.constructed = true ∧ Repeats p.parseDer i vs e := by
  show (h.assertConstructed i >>= fun _ => _) = _ ↔ _
  rw [bind_eq_ok]
  constructor
  · rintro ⟨_, h1, h2⟩
    exact ⟨assertConstructed_ok.mp h1, collectDer_ok.mp h2⟩
  · rintro ⟨h1, h2⟩
    exact ⟨(), assertConstructed_ok.mpr h1, collectDer_ok.mpr h2⟩

/-! ### Items on bytes -/

theorem seqNext_nil {g : Bytes → Except SErr (Bytes × α)} {b : Bool} :
    SeqIter.next g ⟨[], b⟩ = .ok (none, ⟨[], b⟩) := by
  simp [SeqIter.next]

theorem seqNext_ok {g : Bytes → Except SErr (Bytes × α)} {b r : Bytes} {v : α} (hb : b ≠ [])
    (h : g b = .ok (r, v)) : SeqIter.next g ⟨b, false⟩ = .ok (some (.ok v), ⟨r, false⟩) := by
  simp [SeqIter.next, h, hb]

theorem collect_ok_imp {g : Bytes → Except SErr (Bytes × α)} {fuel : Nat} {b : Bytes}
    {vs : List α} (h : SeqIter.collect g fuel ⟨b, false⟩ = .ok vs) :
    RepeatsB g b vs ∧ vs.length < fuel := by
  induction fuel generalizing b vs with
  | zero => simp [SeqIter.collect] at h
  | succ fuel ih =>
    rw [SeqIter.collect] at h
    by_cases hb : b = []
    · subst hb
      rw [seqNext_nil] at h
      simp at h
      subst h
      exact ⟨.nil, by simp⟩
    · cases hg : g b with
      | ok x =>
        obtain ⟨r, v⟩ := x
        rw [seqNext_ok hb hg] at h
        simp only at h
        cases hc : SeqIter.collect g fuel ⟨r, false⟩ with
        | error e => rw [hc] at h; simp at h
        | ok ws =>
          rw [hc] at h
          simp at h
          subst h
          obtain ⟨h1, h2⟩ := ih hc
          exact ⟨.cons hb hg h1, by simp; omega⟩
      | error e =>
        unfold SeqIter.next at h
        rw [if_neg (by simp [hb]), hg] at h
        cases e <;> simp at h

theorem collect_ok_of {g : Bytes → Except SErr (Bytes × α)} {fuel : Nat} {b : Bytes}
    {vs : List α} (h : RepeatsB g b vs) (hf : vs.length < fuel) :
    SeqIter.collect g fuel ⟨b, false⟩ = .ok vs := by
  induction h generalizing fuel with
  | nil =>
    cases fuel with
    | zero => simp at hf
    | succ fuel => rw [SeqIter.collect, seqNext_nil]
  | cons hb hp _ ih =>
    cases fuel with
    | zero => simp at hf
    | succ fuel =>
      rw [SeqIter.collect, seqNext_ok hb hp]
      simp only
      rw [ih (by simp at hf; omega)]

theorem repeatsB_fun {g : Bytes → Except SErr (Bytes × α)} {b : Bytes} {vs vs' : List α}
    (h : RepeatsB g b vs) (h' : RepeatsB g b vs') : vs = vs' := by
  induction h generalizing vs' with
  | nil =>
    cases h' with
    | nil => rfl
    | cons h => exact absurd rfl h
  | cons h hp _ ih =>
    cases h' with
    | nil => exact absurd rfl h
    | cons _ hp' ht' =>
      rw [hp] at hp'
      injection hp' with hp'
      injection hp' with h1 h2
      subst h1 h2
      rw [ih ht']

/-- A decoder that returns the end of its input reads at most one item per byte. -/
theorem repeatsB_length {g : Bytes → Except SErr (Bytes × α)} (hg : EndsIn g) {b : Bytes}
    {vs : List α} (h : RepeatsB g b vs) : vs.length ≤ b.length := by
  induction h with
  | nil => simp
  | cons hb hp ht ih =>
    obtain ⟨e, he⟩ := hg _ _ _ hp
    cases e with
    | nil =>
      simp at he
      subst he
      have := repeatsB_fun ht (.cons hb hp ht)
      exact absurd (congrArg List.length this) (by simp)
    | cons x e =>
      subst he
      simp; omega

/-- Collecting typed items on bytes. -/
theorem collectItems_ok {g : Bytes → Except SErr (Bytes × α)} (hg : EndsIn g) {b : Bytes}
    {vs : List α} : collectItems g b = .ok vs ↔ RepeatsB g b vs := by
  constructor
  · exact fun h => (collect_ok_imp h).1
  · exact fun h => collect_ok_of h (by have := repeatsB_length hg h; omega)

theorem endsIn_wrap {f : Input → PRes α} (h : ∀ i r v, f i = .ok (r, v) → r.data <:+ i.data) :
    EndsIn (wrapBerParser f) := by
  intro b r v hb
  obtain ⟨r', h1, rfl⟩ := wrapBerParser_ok.mp hb
  exact h _ _ _ h1

theorem endsIn_berAny : EndsIn (wrapBerParser parseBerAny) :=
  endsIn_wrap fun i r a h => by
    obtain ⟨e, _, h1, _⟩ := parseBerAny_local h
    exact ⟨e, h1.symm⟩

theorem endsIn_derAny : EndsIn (wrapBerParser parseDerAny) :=
  endsIn_wrap fun i r a h => by
    obtain ⟨e, _, h1, _⟩ := parseDerAny_local h
    exact ⟨e, h1.symm⟩

theorem endsIn_fromBerWith (f : Any → Except SErr α) : EndsIn (fromBerWith f) := by
  intro b r v h
  obtain ⟨r', a, h1, rfl, _⟩ := fromBerWith_ok.mp h
  exact endsIn_berAny _ _ a (wrapBerParser_ok.mpr ⟨r', h1, rfl⟩)

theorem endsIn_fromBer (p : Parser α) : EndsIn (fromBer p) := by
  intro b r v h
  obtain ⟨r', a, _, h1, rfl, _⟩ := fromBer_ok.mp h
  exact endsIn_berAny _ _ a (wrapBerParser_ok.mpr ⟨r', h1, rfl⟩)

theorem endsIn_fromDer (p : Parser α) (check : Any → Except SErr Unit) :
    EndsIn (fromDer p check) := by
  intro b r v h
  obtain ⟨r', a, _, h1, rfl, _⟩ := fromDer_ok.mp h
  exact endsIn_derAny _ _ a (wrapBerParser_ok.mpr ⟨r', h1, rfl⟩)

theorem endsIn_explicitFromDer (cls : Class) (tag : Nat) (g : Bytes → Except SErr (Bytes × α)) :
    EndsIn (explicitFromDer cls tag g) := by
  intro b r v h
  obtain ⟨r', a, _, h1, rfl, _⟩ := explicitFromDer_ok.mp h
  exact endsIn_derAny _ _ a (wrapBerParser_ok.mpr ⟨r', h1, rfl⟩)

theorem endsIn_implicitFromDer (cls : Class) (tag it : Nat) (f : Any → Except SErr α) :
    EndsIn (implicitFromDer cls tag it f) := by
  intro b r v h
  obtain ⟨r', a, h1, rfl, _⟩ := implicitFromDer_ok.mp h
  exact endsIn_derAny _ _ a (wrapBerParser_ok.mpr ⟨r', h1, rfl⟩)

theorem seqTryFrom_ok {tag : Nat} {g : Bytes → Except SErr (Bytes × α)} {a : Any} {vs : List α} :
    seqTryFrom tag g a = .ok vs ↔ a.header.tag = tag ∧ a.header.constructed = true ∧
      collectItems g a.data.data = .ok vs := by
  unfold seqTryFrom
  rw [bindS_eq_ok]
  constructor
  · rintro ⟨_, h1, h2⟩
    obtain ⟨_, h2, h3⟩ := bindS_eq_ok.mp h2
    exact ⟨assertTagS_ok.mp h1, assertConstructedS_ok.mp h2, h3⟩
  · rintro ⟨h1, h2, h3⟩
    exact ⟨(), assertTagS_ok.mpr h1, bindS_eq_ok.mpr ⟨(), assertConstructedS_ok.mpr h2, h3⟩⟩

theorem seqFromDer_ok {tag : Nat} {g : Bytes → Except SErr (Bytes × α)} {bytes rem : Bytes}
    {vs : List α} : seqFromDer tag g bytes = .ok (rem, vs) ↔
      ∃ r a, parseDerAny (Input.fromSlice bytes) = .ok (r, a) ∧ r.data = rem ∧
        a.header.tag = tag ∧ collectItems g a.data.data = .ok vs := by
  unfold seqFromDer
  rw [bindS_eq_ok]
  constructor
  · rintro ⟨⟨i, a⟩, h1, h2⟩
    obtain ⟨r, h5, h6⟩ := wrapBerParser_ok.mp h1
    obtain ⟨_, h3, h2⟩ := bindS_eq_ok.mp h2
    obtain ⟨ws, h4, h2⟩ := bindS_eq_ok.mp h2
    simp [pure, Except.pure] at h2
    exact ⟨r, a, h5, by rw [h6, h2.1], assertTagS_ok.mp h3, by rw [← h2.2]; exact h4⟩
  · rintro ⟨r, a, h1, h2, h3, h4⟩
    exact ⟨(rem, a), wrapBerParser_ok.mpr ⟨r, h1, h2⟩, bindS_eq_ok.mpr
      ⟨(), assertTagS_ok.mpr h3, bindS_eq_ok.mpr ⟨vs, h4, rfl⟩⟩⟩

theorem endsIn_seqFromDer (tag : Nat) (g : Bytes → Except SErr (Bytes × α)) :
    EndsIn (seqFromDer tag g) := by
  intro b r v h
  obtain ⟨r', a, h1, rfl, _⟩ := seqFromDer_ok.mp h
  exact endsIn_derAny _ _ a (wrapBerParser_ok.mpr ⟨r', h1, rfl⟩)

/-! ### Writing items -/

/-- The encoder of `v` writes `bs`, and announces and returns this length. -/
def Exact (t : ToBer α) (v : α) (bs : Bytes) : Prop :=
  Writes (t.encode v) bs bs.length ∧ t.totalLen v = .definite bs.length

theorem writeItems_writes {t : ToBer α} {vs : List α} {bss : List Bytes}
    (h : Pointwise (fun v bs => Writes (t.encode v) bs bs.length) vs bss) (acc : Nat) :
    Writes (t.writeItems vs acc) bss.flatten (acc + bss.flatten.length) := by
  induction h generalizing acc with
  | nil => exact writes_pure _
  | cons h _ ih =>
    have := Writes.bind (f := fun sz => t.writeItems _ (acc + sz)) h (ih _)
    exact this.congr (by simp) (by simp; omega)

theorem foldl_length (ls : List Length) (n : Nat) :
    ls.foldl Length.add (.definite n) = Length.add (.definite n) (Length.sum ls) := by
  unfold Length.sum
  induction ls generalizing n with
  | nil => simp [Length.add]
  | cons l ls ih =>
    simp only [List.foldl_cons]
    cases l with
    | definite m =>
      simp only [Length.add, Nat.zero_add]
      rw [ih, ih m]
      cases Length.sum ls with
      | definite k =>
        simp [Length.add, Nat.add_assoc] at *
        cases (List.foldl Length.add (Length.definite 0) ls) <;> simp
      | indefinite => cases (List.foldl Length.add (Length.definite 0) ls) <;> simp [Length.add, Nat.add_assoc]
    | indefinite =>
      simp only [Length.add]
      have : ∀ ls : List Length, ls.foldl Length.add .indefinite = .indefinite := by
        intro ls
        induction ls with
        | nil => rfl
        | cons _ _ ih => simpa [Length.add] using ih
      rw [this]

theorem lengthItems_eq {t : ToBer α} {vs : List α} {bss : List Bytes}
    (h : Pointwise (fun v bs => t.totalLen v = .definite bs.length) vs bss) :
    t.lengthItems vs = .definite bss.flatten.length := by
  unfold ToBer.lengthItems
  induction h with
  | nil => rfl
  | cons h _ ih =>
    rw [List.map_cons, Length.sum, List.foldl_cons, h]
    show List.foldl Length.add (.definite (0 + _)) _ = _
    rw [foldl_length, ih]
    simp [Length.add]

theorem pointwise_imp {R S : α → β → Prop} (h : ∀ a b, R a b → S a b) {as : List α} {bs : List β}
    (hp : Pointwise R as bs) : Pointwise S as bs := by
  induction hp with
  | nil => exact .nil
  | cons h' _ ih => exact .cons (h _ _ h') ih

theorem pointwise_exists {R : α → β → Prop} {as : List α} (h : ∀ a ∈ as, ∃ b, R a b) :
    ∃ bs, Pointwise R as bs := by
  induction as with
  | nil => exact ⟨[], .nil⟩
  | cons a as ih =>
    obtain ⟨b, hb⟩ := h a (by simp)
    obtain ⟨bs, hbs⟩ := ih fun a' ha' => h a' (by simp [ha'])
    exact ⟨b :: bs, .cons hb hbs⟩

theorem list_encodes {t : ToBer α} {tag : Nat} (htag : tag < 2 ^ 32) {vs : List α}
    {bss : List Bytes} (h : Pointwise (Exact t) vs bss) :
    Encodes (listToBer tag t) vs bss.flatten := by
  refine ⟨?_, lengthItems_eq (pointwise_imp (fun _ _ h => h.2) h), htag, rfl⟩
  have := writeItems_writes (pointwise_imp (fun _ _ h => h.1) h) 0
  exact this.congr rfl (by simp)

/-- Items whose encodings come back are read one after the other. -/
theorem repeats_back {t : ToBer α} {f : Input → PRes β} {vs : List α} {ws : List β}
    {bss : List Bytes} (hne : Pointwise (fun v bs => t.toVec v = .ok bs ∧ bs ≠ []) vs bss)
    (hb : Pointwise (InputBack t f) vs ws) (i : Input) (hi : i.data = bss.flatten) :
    Repeats f i ws (after i bss.flatten.length) := by
  induction hne generalizing ws i with
  | nil =>
    cases hb
    rw [show after i ([] : List Bytes).flatten.length = i from after_zero i]
    exact .nil (by simpa using hi)
  | cons h _ ih =>
    rename_i v bs vs' bss' _
    cases hb with
    | cons hv hb =>
      obtain ⟨bs', h1, h2⟩ := hv
      rw [h.1] at h1; injection h1 with h1; subst h1
      refine .cons ?_ (h2 bss'.flatten i (by simpa using hi)) ?_
      · rw [hi]; simp [h.2]
      · have := ih hb (after i bs.length) (by
          rw [after_data, hi, List.flatten_cons, List.drop_left' rfl])
        rw [after_after] at this
        simpa using this

theorem repeatsB_back {t : ToBer α} {g : Bytes → Except SErr (Bytes × β)} {vs : List α}
    {ws : List β} {bss : List Bytes}
    (hne : Pointwise (fun v bs => t.toVec v = .ok bs ∧ bs ≠ []) vs bss)
    (hb : Pointwise (BytesBack t g) vs ws) :
    RepeatsB g bss.flatten ws ∧ ws.length ≤ bss.flatten.length := by
  induction hne generalizing ws with
  | nil => cases hb; exact ⟨.nil, by simp⟩
  | cons h _ ih =>
    rename_i v bs vs' bss' _
    cases hb with
    | cons hv hb =>
      obtain ⟨bs', h1, h2⟩ := hv
      rw [h.1] at h1; injection h1 with h1; subst h1
      obtain ⟨i1, i2⟩ := ih hb
      have : 0 < bs.length := List.length_pos_iff.mpr h.2
      refine ⟨.cons (by simp [h.2]) (r := bss'.flatten) ?_ i1, by
        rw [List.flatten_cons, List.length_append, List.length_cons]; omega⟩
      exact h2 bss'.flatten

theorem lengthsRight_exact {t : ToBer α} {v : α} (h : LengthsRight t v) (hs : SmallContent t v)
    (ht : (t.tagInfo v).2.2 < 2 ^ 32) : ∃ bs, Exact t v bs ∧ t.toVec v = .ok bs ∧ bs ≠ [] := by
  obtain ⟨bs, h1, h2, h3, _⟩ := lengthsRight_toVec h hs ht
  refine ⟨bs, ⟨h2, h3⟩, h1, ?_⟩
  intro he
  subst he
  obtain ⟨n, hn, hlt⟩ := hs
  unfold ToBer.totalLen berTotalLength berHeaderLength at h3
  rw [hn, lenOctets_size hlt] at h3
  simp only [Bind.bind, Except.bind, pure, Except.pure, Length.addNat] at h3
  injection h3 with h3
  have h3 : n + (berTagLength (t.tagInfo v).2.2 + (lenOctets (.definite n)).length) = 0 := h3
  rw [berTagLength_eq .universal false ht] at h3
  have : identOctets .universal false (t.tagInfo v).2.2 ≠ [] := by
    rcases (writeTag_spec .universal false (t.tagInfo v).2.2 ht).2 with ⟨_, b, e, _⟩ | ⟨_, b, hi, last, e, _⟩
    · rw [e]; simp
    · rw [e]; simp
  have := List.length_pos_iff.mpr this
  omega

end Asn1

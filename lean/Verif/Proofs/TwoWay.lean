import Verif.Spec.TwoWay
import Verif.Proofs.BuiltValue
import Verif.Proofs.Built
/-!
# Decoded values can be encoded
-/
namespace Asn1
open Spec

variable {α β : Type} {m : Rules}

/-- The tag under which a decoded value is encoded: the tag it was decoded with, or that of OIDs for what was
decoded as a relative OID. -/
def TagKept (g n : Nat) : Prop := g = n ∨ (g = 6 ∧ n = 13)

/-- What holds of every type that can be decoded and encoded. -/
structure Restores (m : Rules) (r : Bool) (t : ToBer α) (pb pd : Parser β) (rep : β → α) (Ok : β → Prop) :
    Prop where
  tags : ∀ n, pd.acceptTag n = pb.acceptTag n
  value : ∀ h i x w, Consistent h i → (m.pick pb pd).content h i = .ok (x, w) → Ok w →
    Value r t pb pd (rep w) w ∧ (pb.acceptTag h.tag = true → TagKept (t.tagInfo (rep w)).2.2 h.tag)

theorem consistent_any {i x : Input} {a : Any} (h : m.any i = .ok (x, a)) : Consistent a.header a.data := by
  cases m with
  | ber => exact consistent_ber h
  | der => exact consistent_der h

theorem rules_parse {p : Parser α} {i x : Input} {w : α} (h : m.parse p i = .ok (x, w)) :
    ∃ a y, m.any i = .ok (x, a) ∧ p.acceptTag a.header.tag = true ∧ p.content a.header a.data = .ok (y, w) := by
  cases m with
  | ber => exact parseBer_ok.mp h
  | der => exact parseDer_ok.mp h

namespace Restores
variable {r : Bool} {t : ToBer α} {pb pd : Parser β} {rep : β → α} {Ok : β → Prop}

theorem parse (h : Restores m r t pb pd rep Ok) {i x : Input} {w : β} (hp : m.parse (m.pick pb pd) i = .ok (x, w))
    (hw : Ok w) : Value r t pb pd (rep w) w := by
  obtain ⟨a, y, h1, _, h3⟩ := rules_parse hp
  exact (h.value _ _ _ _ (consistent_any h1) h3 hw).1

theorem repeats (h : Restores m r t pb pd rep Ok) {i e : Input} {ws : List β}
    (hp : Repeats (m.parse (m.pick pb pd)) i ws e) (hw : ∀ w ∈ ws, Ok w) : Values t pb pd (ws.map rep) ws := by
  induction hp with
  | nil _ => exact .nil
  | cons _ h1 _ ih =>
    exact .cons (h.parse h1 (hw _ (by simp))) (ih fun w hm => hw w (by simp [hm]))

end Restores

theorem kept_tag {g n k : Nat} (hg : g = k) (h : tagIs k n = true) : TagKept g n :=
  .inl (hg.trans (tagIs_iff.mp h).symm)

/-! ### Universal types -/

theorem restorable_value {c : Codec α} (hc : Restorable m c) {h : Header} {i x : Input} {w : α}
    (hh : Consistent h i) (hp : (m.pick c.ber c.der).content h i = .ok (x, w)) (hs : SmallContent c.enc w) :
    Value true c.enc c.ber c.der w w := by
  cases hc with
  | uint N hN =>
    have : InUint N (twos i.data) ∧ (w : Int) = twos i.data := by
      cases m with
      | ber => have := (uintContent_ok hN.1).mp hp; exact ⟨this.2.1, this.2.2.1⟩
      | der => have := (uintDer_content hN.1).mp hp; exact ⟨this.2.2.1, this.2.2.2.1⟩
    refine .universal (.uint N hN ?_) hs
    have h1 := this.1
    rw [← this.2] at h1
    unfold InUint at h1
    exact Int.ofNat_lt.mp h1.2
  | int N hN =>
    refine .universal (.int N hN ?_) hs
    cases m with
    | ber => exact ((intContent_ok hN.1).mp hp).2.1
    | der => exact ((intDer_content hN.1).mp hp).2.2.1
  | integer hm =>
    subst hm
    obtain ⟨d⟩ := w
    obtain ⟨_, h1, h2⟩ := bind_eq_ok.mp (show (checkDerIntInput i >>= fun _ => integerContent h i) = _ from hp)
    have hc : h.constructed = false := by
      obtain ⟨_, h3, _⟩ := bind_eq_ok.mp h2
      exact assertPrimitive_ok.mp h3
    have := (integerContent_ok (hh.2 hc)).mp h2
    refine .universal (c := integerC) (.integer ?_) hs
    rw [this.2.1]
    exact checkDerIntInput_ok.mp h1
  | bool => exact .universal .bool hs
  | null => exact .universal .null hs
  | enumerated =>
    refine .universal (.enumerated ?_) hs
    have : InUint 4 (twos i.data) ∧ (w : Int) = twos i.data := by
      cases m with
      | ber => have := (uintContent_ok (by decide)).mp (enumBer_content.mp hp); exact ⟨this.2.1, this.2.2.1⟩
      | der => have := (uintDer_content (by decide)).mp (enumDer_content.mp hp); exact ⟨this.2.2.1, this.2.2.2.1⟩
    have h1 := this.1
    rw [← this.2] at h1
    unfold InUint at h1
    have h2 := Int.ofNat_lt.mp h1.2
    simpa using h2
  | octetString => exact .universal .octetString hs
  | bitString =>
    refine .bits ?_ hs
    have key : bitContent h i = .ok (x, w) := by
      cases m with
      | ber => exact hp
      | der =>
        obtain ⟨_, _, h2⟩ := bind_eq_ok.mp
          (show (h.assertPrimitive i >>= fun _ => bitContent h i) = _ from hp)
        exact h2
    cases hc : h.constructed with
    | false =>
      obtain ⟨_, h1⟩ := (bitContent_prim hc (hh.2 hc)).mp key
      exact (bitLeaf_bits h1).2.1
    | true =>
      obtain ⟨_, os, vs, _, _, _, rfl⟩ := (bitContent_constr hc hh).mp ⟨x, key⟩
      exact ofBits_wf _
  | oid =>
    have := oidContent_ok.mp (show oidContent h i = .ok (x, w) by cases m <;> exact hp)
    obtain ⟨_, h1, rfl, _⟩ := this
    exact .universal (c := oidC) (.oid h1 rfl) hs
  | @text k tag A hk =>
    refine .universal (c := strC k) (.text hk ?_) hs
    cases m with
    | ber => exact ((str_contents hk h i w hh).mp ⟨x, hp⟩).2
    | der => exact ((strDer_contents hk h i w hh).mp ⟨x, hp⟩).2.2
  | refStr => exact .universal .refStr hs
  | string => exact .universal .string hs
  | bmpString hm =>
    subst hm
    refine .universal (c := bmpC) (.bmpString ?_) hs
    obtain ⟨_, h1, h2⟩ := (bmpDer_contents h i w hh).mp ⟨x, hp⟩
    rintro rfl
    rcases h2 with h2 | ⟨s, a, h2, _⟩
    · exact h1 h2
    · simp at h2

theorem restores_restorable {c : Codec α} (hc : Restorable m c) :
    Restores m true c.enc c.ber c.der id (SmallContent c.enc) := by
  refine ⟨?_, fun h i x w hh hp hs => ⟨restorable_value hc hh hp hs, fun ha => ?_⟩⟩
  · cases hc <;> intro n <;> rfl
  · cases hc with
    | oid =>
      obtain ⟨_, _, rfl, _⟩ := oidContent_ok.mp (show oidContent h i = .ok (x, w) by cases m <;> exact hp)
      rcases (Bool.or_eq_true _ _).mp ha with ha | ha
      · exact .inl (tagIs_iff.mp ha).symm
      · exact .inr ⟨rfl, tagIs_iff.mp ha⟩
    | _ => exact kept_tag rfl ha

theorem restores_universal {c : Codec α} (hc : UniversalType c) :
    Restores m true c.enc c.ber c.der id fun v => UniversalValue c v ∧ SmallContent c.enc v := by
  refine ⟨(fine_universal (real := false) hc).tags, fun h i x w hh hp hs => ⟨.universal hs.1 hs.2, fun ha => ?_⟩⟩
  cases hc with
  | oid =>
    obtain ⟨_, _, rfl, _⟩ := oidContent_ok.mp (show oidContent h i = .ok (x, w) by cases m <;> exact hp)
    rcases (Bool.or_eq_true _ _).mp ha with ha | ha
    · exact .inl (tagIs_iff.mp ha).symm
    · exact .inr ⟨rfl, tagIs_iff.mp ha⟩
  | _ => exact kept_tag rfl ha

/-! ### Containers -/

section
variable {r : Bool} {t : ToBer α} {pb pd : Parser β} {rep : β → α} {Ok : β → Prop}

theorem pick_vec {h : Header} {i x : Input} {ws : List β}
    (hp : (m.pick (vecBer pb) (vecDer pd)).content h i = .ok (x, ws)) :
    Repeats (m.parse (m.pick pb pd)) i ws x := by
  cases m with
  | ber => exact (vecBer_content.mp hp).2
  | der => exact (vecDer_content.mp hp).2

theorem pick_setItems {h : Header} {i x : Input} {ws : List β}
    (hp : (m.pick (setItemsP anyBer.parseBer pb) (setItemsP anyDer.parseDer pd)).content h i = .ok (x, ws)) :
    Repeats (m.parse (m.pick pb pd)) i ws x := by
  cases m with
  | ber => exact (setItemsBer_content.mp hp).2
  | der => exact (setItemsDer_content.mp hp).2

theorem pick_map {γ : Type} {f : β → γ} {h : Header} {i x : Input} {w : γ}
    (hp : (m.pick (pb.map f) (pd.map f)).content h i = .ok (x, w)) :
    ∃ v, (m.pick pb pd).content h i = .ok (x, v) ∧ w = f v := by
  cases m <;> exact map_content.mp hp

theorem restores_vec (ih : Restores m r t pb pd rep Ok) :
    Restores m true (listToBer 16 t) (vecBer pb) (vecDer pd) (List.map rep) fun ws =>
      (∀ w ∈ ws, Ok w) ∧ SmallContent (listToBer 16 t) (ws.map rep) :=
  ⟨fun _ => rfl, fun _ _ _ _ _ hp hs => ⟨.vec (ih.repeats (pick_vec hp) hs.1) hs.2, kept_tag rfl⟩⟩

theorem restores_sequenceOf (ih : Restores m r t pb pd rep Ok) :
    Restores m true (listToBer 16 t) (sequenceOfP anyBer.parseBer pb) (sequenceOfP anyDer.parseDer pd)
      (fun s => s.items.map rep) fun s =>
      (∀ w ∈ s.items, Ok w) ∧ SmallContent (listToBer 16 t) (s.items.map rep) := by
  refine ⟨fun _ => rfl, fun h i x w _ hp hs => ⟨?_, kept_tag rfl⟩⟩
  have hq := hp
  rw [sequenceOf_map, sequenceOf_map] at hq
  obtain ⟨v, h1, rfl⟩ := pick_map hq
  exact .sequenceOf (ih.repeats (pick_vec h1) hs.1) hs.2

theorem restores_setOf (ih : Restores m r t pb pd rep Ok) :
    Restores m true (listToBer 17 t) (setOfP anyBer.parseBer pb) (setOfP anyDer.parseDer pd)
      (fun s => s.items.map rep) fun s =>
      (∀ w ∈ s.items, Ok w) ∧ SmallContent (listToBer 17 t) (s.items.map rep) := by
  refine ⟨fun _ => rfl, fun h i x w _ hp hs => ⟨?_, kept_tag rfl⟩⟩
  obtain ⟨v, h1, rfl⟩ := pick_map hp
  exact .setOf (ih.repeats (pick_setItems h1) hs.1) hs.2

theorem values_id {t : ToBer α} {pb pd : Parser α} {l : List α} (h : ∀ v ∈ l, Value r t pb pd v v) :
    Values t pb pd l l := by
  induction l with
  | nil => exact .nil
  | cons v l ih => exact .cons (h v (by simp)) (ih fun u hu => h u (by simp [hu]))

theorem repeats_mem {f : Input → PRes β} {i e : Input} {ws : List β} (h : Repeats f i ws e) :
    ∀ w ∈ ws, ∃ j x, f j = .ok (x, w) := by
  induction h with
  | nil _ => simp
  | cons _ h1 _ ih =>
    intro w hw
    rcases List.mem_cons.mp hw with rfl | hw
    · exact ⟨_, _, h1⟩
    · exact ih w hw

theorem restores_set {σ : Type} {t : ToBer α} {pb pd : Parser α} {Ok : α → Prop} (S : SetImpl α σ)
    (hS : ∀ l, S.ofList (S.toList (S.ofList l)) = S.ofList l) (ih : Restores m r t pb pd id Ok) :
    Restores m true (setToBer S t) (setP S anyBer.parseBer pb) (setP S anyDer.parseDer pd) id fun s =>
      (∀ w ∈ S.toList s, Ok w) ∧ SmallContent (setToBer S t) s := by
  refine ⟨fun _ => rfl, fun h i x w _ hp hs => ⟨?_, kept_tag rfl⟩⟩
  obtain ⟨v, h1, rfl⟩ := pick_map hp
  have hv := Value.set (pb := pb) (pd := pd) S S (s := S.ofList v) (ws := S.toList (S.ofList v))
    (values_id (r := r) fun u hu => ?_) hs.2
  · rw [hS] at hv; exact hv
  · obtain ⟨j, y, h2⟩ := repeats_mem (pick_setItems h1) u ((S.mem v u).mp hu)
    exact ih.parse h2 (hs.1 u hu)

theorem restores_array (N : Nat) (ih : Restores m r t pb pd rep Ok) :
    Restores m true (arrayToBer N t) (arrayP N anyBer.parseBer pb) (arrayP N anyDer.parseDer pd)
      (fun w => ⟨w.val.map rep, by rw [List.length_map, w.property]⟩) fun w =>
      (∀ x ∈ w.val, Ok x) ∧ SmallContent (arrayToBer N t) ⟨w.val.map rep, by rw [List.length_map, w.property]⟩ := by
  refine ⟨fun _ => rfl, fun h i x w _ hp hs => ⟨?_, kept_tag rfl⟩⟩
  have h1 : (m.pick (vecBer pb) (vecDer pd)).content h i = .ok (x, w.val) := by
    cases m <;> exact arrayP_content.mp hp
  exact .array N (ih.repeats (pick_vec h1) hs.1) hs.2

theorem restores_raw {tag : Nat} (htag : tag < 2 ^ 32) :
    Restores m true (rawToBer tag) (rawP tag) (rawP tag) id (SmallContent (rawToBer tag)) := by
  refine ⟨fun _ => rfl, fun h i x w _ hp hs => ⟨?_, kept_tag rfl⟩⟩
  obtain ⟨_, rfl, _⟩ := raw_content.mp (show (rawP tag).content h i = .ok (x, w) by cases m <;> exact hp)
  exact .raw tag htag hs

theorem restores_explicit (cls : Class) {tag : Nat} (htag : tag < 2 ^ 32) {dynTag : α → Nat}
    (hdyn : ∀ v, dynTag v = (t.tagInfo v).2.2) (ih : Restores m r t pb pd rep Ok) :
    Restores m false (explicitToBer cls tag dynTag t) (explicitP cls tag pb.parseBer)
      (explicitP cls tag pd.parseDer) (fun w => ⟨rep w.inner⟩) fun w =>
      Ok w.inner ∧ SmallContent (explicitToBer cls tag dynTag t) ⟨rep w.inner⟩ := by
  refine ⟨fun _ => rfl, fun h i x w _ hp hs => ⟨?_, kept_tag rfl⟩⟩
  have h1 : (explicitP cls tag (m.parse (m.pick pb pd))).content h i = .ok (x, w) := by cases m <;> exact hp
  exact .explicit cls tag htag (hdyn _) (ih.parse (explicitP_content.mp h1).2.2.2 hs.1) hs.2

theorem restores_implicit (cls : Class) {tag : Nat} (htag : tag < 2 ^ 32) {dynC : α → Bool}
    (hdyn : ∀ v, dynC v = (t.tagInfo v).2.1) (ih : Restores m true t pb pd rep Ok) :
    Restores m false (implicitToBer cls tag dynC t) (implicitP cls tag pb) (implicitP cls tag pd)
      (fun w => ⟨rep w.inner⟩) fun w => Ok w.inner := by
  refine ⟨fun _ => rfl, fun h i x w hh hp hs => ⟨?_, kept_tag rfl⟩⟩
  have h1 : (m.pick pb pd).content h i = .ok (x, w.inner) := by cases m <;> exact (implicitP_content.mp hp).2
  exact .implicit cls tag htag (hdyn _) (ih.value _ _ _ _ hh h1 hs).1

theorem restores_enum {ds : List Nat} (hn : ds.Nodup) (hds : ∀ d ∈ ds, d < 2 ^ 32) :
    Restores m true (enumToBer ds) (enumP enumeratedBer ds) (enumP enumeratedDer ds) id fun _ => True :=
  ⟨fun _ => rfl, fun _ _ _ w _ _ _ => ⟨.enum ds hn hds w, kept_tag rfl⟩⟩

theorem restores_alias (ih : Restores m r t pb pd rep Ok) :
    Restores m r (aliasToBer t) (aliasP pb) (aliasP pd) (fun w => ⟨rep w.inner⟩) fun w => Ok w.inner := by
  refine ⟨ih.tags, fun h i x w hh hp hs => ?_⟩
  have h1 : (m.pick pb pd).content h i = .ok (x, w.inner) := by
    cases m <;> (obtain ⟨⟨y, v⟩, h1, h2⟩ := bind_eq_ok.mp hp; injection h2 with h2; injection h2 with h2 h3;
                 subst h2; subst h3; exact h1)
  obtain ⟨h2, h3⟩ := ih.value _ _ _ _ hh h1 hs
  exact ⟨.alias h2, h3⟩

end

/-! ### Structs -/

/-- The fields for the rules `m`. -/
def Rules.pickFields {Us : List Type} (m : Rules) (fb fd : Fields Us) : Fields Us :=
  match m with
  | .ber => fb
  | .der => fd

/-- What holds of the fields. -/
def RestoresFields (m : Rules) {Ts Us : List Type} (es : EncFields Ts) (fb fd : Fields Us) (rep : Tup Us → Tup Ts)
    (Ok : Tup Us → Prop) : Prop :=
  ∀ i ws e, ReadsFields m (m.pickFields fb fd) i ws e → Ok ws → FieldValues es fb fd (rep ws) ws

section
variable {r : Bool} {t : ToBer α} {pb pd : Parser β} {rep : β → α} {Ok : β → Prop}

theorem restores_field (ih : Restores m r t pb pd rep Ok) {tag : FieldTag} {i x : Input} {w : β}
    (h : ReadsAs m (m.pick pb pd) tag i w x) (hw : Ok w) : Value r t pb pd (rep w) w := by
  cases h with
  | untagged h => exact ih.parse h hw
  | explicit _ _ _ _ h => exact ih.parse h hw
  | implicit h1 _ _ h => exact (ih.value _ _ _ _ (consistent_any h1) h hw).1

variable {Ts Us : List Type} {es : EncFields Ts} {fb fd : Fields Us} {reps : Tup Us → Tup Ts} {Oks : Tup Us → Prop}

theorem restores_required {tag : FieldTag} (hv : FieldTag.Valid tag) (ih : Restores m r t pb pd rep Ok)
    (hr : (∃ cls n, tag = .implicit cls n) → r = true) (iht : RestoresFields m es fb fd reps Oks) :
    RestoresFields m (.cons tag t es) (.cons (.required tag pb) fb) (.cons (.required tag pd) fd)
      (fun w => (rep w.1, reps w.2)) fun w => (Ok w.1 ∧ (tag ≠ .untagged →
        ∀ n, t.totalLen (rep w.1) = .definite n → n < 2 ^ 24)) ∧ Oks w.2 := by
  rintro i ⟨w, ws⟩ e h ⟨⟨h1, h2⟩, h3⟩
  have e1 : m.pickFields (.cons (.required tag pb) fb) (.cons (.required tag pd) fd) =
      .cons (.required tag (m.pick pb pd)) (m.pickFields fb fd) := by cases m <;> rfl
  rw [e1] at h
  cases h with
  | cons h ht => exact .required tag hv (restores_field ih h h1) hr h2 (iht _ _ _ ht h3)

theorem restores_default {tag : FieldTag} {d : β} (hv : FieldTag.Valid tag) (ih : Restores m r t pb pd rep Ok)
    (hr : (∃ cls n, tag = .implicit cls n) → r = true) (hx : Value r t pb pd (rep d) d)
    (iht : RestoresFields m es fb fd reps Oks) :
    RestoresFields m (.cons tag t es) (.cons (.default tag pb d) fb) (.cons (.default tag pd d) fd)
      (fun w => (rep w.1, reps w.2)) fun w => (Ok w.1 ∧ (tag ≠ .untagged →
        ∀ n, t.totalLen (rep w.1) = .definite n → n < 2 ^ 24)) ∧ Oks w.2 := by
  rintro i ⟨w, ws⟩ e h ⟨⟨h1, h2⟩, h3⟩
  have e1 : m.pickFields (.cons (.default tag pb d) fb) (.cons (.default tag pd d) fd) =
      .cons (.default tag (m.pick pb pd) d) (m.pickFields fb fd) := by cases m <;> rfl
  rw [e1] at h
  cases h with
  | cons h ht =>
    refine .default tag d hv ?_ hr h2 (iht _ _ _ ht h3)
    rcases h with ⟨h, _⟩ | ⟨rfl, _, _⟩
    · exact restores_field ih h h1
    · exact hx

theorem restores_struct {tag : Nat} (htag : tag < 2 ^ 32) (ih : RestoresFields m es fb fd reps Oks) :
    Restores m true (structToBer tag es) (structP .ber tag fb) (structP .der tag fd) reps fun ws =>
      Oks ws ∧ overcount es (reps ws) = 0 ∧ SmallContent (structToBer tag es) (reps ws) := by
  refine ⟨fun _ => rfl, fun h i x w _ hp hs => ⟨?_, kept_tag rfl⟩⟩
  have h1 : (structP m tag (m.pickFields fb fd)).content h i = .ok (x, w) := by cases m <;> exact hp
  obtain ⟨_, _, h2⟩ := bind_eq_ok.mp h1
  exact .struct tag htag (ih _ _ _ (fields_run_ok.mp h2) hs.1) hs.2.1 hs.2.2

end

/-! ### CHOICE -/

/-- The variants for the rules `m`. -/
def Rules.pickVariants {Us : List Type} (m : Rules) (vb vd : Variants Us) : Variants Us :=
  match m with
  | .ber => vb
  | .der => vd

/-- What holds of the variants. -/
structure RestoresVariants (m : Rules) (k : ChoiceKind) {Ts Us : List Type} (es : EncVariants Ts)
    (vb vd : Variants Us) (rep : HSum Us → HSum Ts) (Ok : HSum Us → Prop) : Prop where
  tags : ∀ n, vd.accept k n = vb.accept k n
  value : ∀ a y, Consistent a.header a.data → ReadsChoice m k (m.pickVariants vb vd) a y → Ok y →
    ∃ g, VariantValue k es vb vd (rep y) y g ∧ (es.info k (rep y)).2.2 = g ∧ TagKept g a.header.tag ∧
      (k ≠ .untagged → g = a.header.tag)

theorem restores_none {k : ChoiceKind} {rep : HSum [] → HSum []} {Ok : HSum [] → Prop} :
    RestoresVariants m k .nil .nil .nil rep Ok :=
  ⟨fun _ => rfl, fun _ y => nomatch y⟩

section
variable {r : Bool} {t : ToBer α} {pb pd : Parser β} {rep : β → α} {Ok : β → Prop}
variable {Ts Us : List Type} {es : EncVariants Ts} {vb vd : Variants Us} {reps : HSum Us → HSum Ts}
  {Oks : HSum Us → Prop} {k : ChoiceKind}

theorem restores_variant {n : Nat} (hn : n < 2 ^ 32) {dyn : α → Class × Bool × Nat}
    (hdyn : ∀ v, dyn v = t.tagInfo v) (ih : Restores m r t pb pd rep Ok) (hr : k = .implicit → r = true)
    (ho : k = .untagged → pb.acceptTag 6 = true → pb.acceptTag 13 = true)
    (iht : RestoresVariants m k es vb vd reps Oks) :
    RestoresVariants m k (.cons n dyn t es) (.cons n pb vb) (.cons n pd vd)
      (Sum.map rep reps : β ⊕ HSum Us → α ⊕ HSum Ts) (Sum.elim Ok Oks : β ⊕ HSum Us → Prop) := by
  constructor
  · intro j
    show (variantAccept k n pd j || vd.accept k j) = (variantAccept k n pb j || vb.accept k j)
    rw [iht.tags]
    cases k with
    | untagged => show (pd.acceptTag j || _) = (pb.acceptTag j || _); rw [ih.tags]
    | _ => rfl
  · intro a y hh h hw
    have e1 : m.pickVariants (.cons n pb vb) (.cons n pd vd) =
        .cons n (m.pick pb pd) (m.pickVariants vb vd) := by cases m <;> rfl
    have e2 : (m.pick pb pd).acceptTag a.header.tag = pb.acceptTag a.header.tag := by
      cases m
      · rfl
      · exact ih.tags _
    rw [e1] at h
    rcases y with w | y
    · obtain ⟨h1, h2⟩ := h
      have hw : Ok w := hw
      cases k with
      | explicit =>
        obtain ⟨_, x, h2⟩ := h2
        exact ⟨n, .here hn (hdyn _) (ih.parse h2 hw) hr, rfl, .inl h1.symm, fun _ => h1.symm⟩
      | implicit =>
        obtain ⟨x, h2⟩ := h2
        exact ⟨n, .here hn (hdyn _) (ih.value _ _ _ _ hh h2 hw).1 hr, rfl, .inl h1.symm, fun _ => h1.symm⟩
      | untagged =>
        obtain ⟨x, h2⟩ := h2
        obtain ⟨h3, h4⟩ := ih.value _ _ _ _ hh h2 hw
        refine ⟨(t.tagInfo (rep w)).2.2, .here hn (hdyn _) h3 hr, ?_, h4 (e2 ▸ h1), by simp⟩
        show (dyn (rep w)).2.2 = _
        rw [hdyn]
    · obtain ⟨h1, h2⟩ := h
      obtain ⟨g, g1, g2, g3, g4⟩ := iht.value a y hh h2 hw
      have hb : ¬ Selects k n pb g := by
        cases k with
        | untagged =>
          have h1 : ¬ ((m.pick pb pd).acceptTag a.header.tag = true) := h1
          rw [e2] at h1
          intro hg
          have hg : pb.acceptTag g = true := hg
          rcases g3 with rfl | ⟨rfl, g3⟩
          · exact h1 hg
          · rw [g3] at h1; exact h1 (ho rfl hg)
        | explicit => rw [g4 (by simp)]; exact h1
        | implicit => rw [g4 (by simp)]; exact h1
      have hd : ¬ Selects k n pd g := by
        cases k with
        | untagged =>
          intro hg
          have hg : pd.acceptTag g = true := hg
          exact hb ((ih.tags g).symm.trans hg)
        | explicit => exact hb
        | implicit => exact hb
      exact ⟨g, .there hb hd g1, g2, g3, g4⟩

theorem restores_choice (ih : RestoresVariants m k es vb vd reps Oks) :
    Restores m false (choiceToBer k es) (choiceP .ber k vb) (choiceP .der k vd) reps fun y =>
      Oks y ∧ SmallContent (choiceToBer k es) (reps y) := by
  refine ⟨ih.tags, fun h i x w hh hp hs => ?_⟩
  have h1 : (choiceP m k (m.pickVariants vb vd)).content h i = .ok (x, w) := by cases m <;> exact hp
  obtain ⟨g, g1, g2, g3, _⟩ := ih.value ⟨h, i⟩ w hh (choice_content_ok.mp ⟨x, h1⟩) hs.1
  refine ⟨.choice k g1 hs.2, fun _ => ?_⟩
  show TagKept (es.info k (reps w)).2.2 _
  rw [g2]; exact g3

end

theorem restores {r : Bool} {t : ToBer α} {pb pd : Parser β} {rep : β → α} {Ok : β → Prop}
    (h : TwoWay m r t pb pd rep Ok) : Restores m r t pb pd rep Ok := by
  refine TwoWay.rec
    (motive_1 := fun r {_ _} t pb pd rep Ok _ => Restores m r t pb pd rep Ok)
    (motive_2 := fun {_ _} es fb fd rep Ok _ => RestoresFields m es fb fd rep Ok)
    (motive_3 := fun k {_ _} es vb vd rep Ok _ => RestoresVariants m k es vb vd rep Ok)
    ?_ ?_ ?_ ?_ ?_ ?_ ?_ ?_ ?_ ?_ ?_ ?_ ?_ ?_ ?_ ?_ ?_ ?_ ?_ h
  · intro _ _ h; exact restores_restorable h
  · intro _ _ h; exact restores_universal h
  · intros; exact restores_vec ‹_›
  · intros; exact restores_sequenceOf ‹_›
  · intros; exact restores_setOf ‹_›
  · intro _ _ _ _ _ _ _ S hS _ ih; exact restores_set S hS ih
  · intro _ _ _ _ _ _ _ _ N _ ih; exact restores_array N ih
  · intro tag htag; exact restores_raw htag
  · intro _ _ _ _ _ _ _ _ cls tag htag _ hdyn _ ih; exact restores_explicit cls htag hdyn ih
  · intro _ _ _ _ _ _ _ cls tag htag _ hdyn _ ih; exact restores_implicit cls htag hdyn ih
  · intro _ _ _ _ _ _ _ tag htag _ ih; exact restores_struct htag ih
  · intro _ _ _ _ _ _ _ k _ ih; exact restores_choice ih
  · intro ds hn hds; exact restores_enum hn hds
  · intro _ _ _ _ _ _ _ _ _ ih; exact restores_alias ih
  · intro i ws e _ _; exact .nil
  · intro _ _ _ _ _ _ _ _ _ _ _ _ _ _ _ tag hv _ hr _ ih iht; exact restores_required hv ih hr iht
  · intro _ _ _ _ _ _ _ _ _ _ _ _ _ _ _ tag x hv _ hr hx _ ih iht; exact restores_default hv ih hr hx iht
  · intros; exact restores_none
  · intro _ _ _ _ _ _ _ _ _ _ _ _ _ _ _ _ _ hn _ hdyn _ hr ho _ ih iht
    exact restores_variant hn hdyn ih hr ho iht

end Asn1

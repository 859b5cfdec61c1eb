import Verif.Spec.DerTree
import Verif.Proofs.Minimal
import Verif.Props.Iterator
import Verif.Props.DeriveSlice
import Verif.Props.BuiltValue
/-!
# What the encoders write is well-formed DER at every level (C110)
-/
namespace Asn1
open Spec Wr

variable {α : Type}

/-- An encoding whose content is well-formed, if the object is constructed. -/
structure Formed (t : ToBer α) (v : α) (cs : Bytes) : Prop where
  enc : Encodes t v cs
  small : cs.length < 2 ^ 24
  inner : (t.tagInfo v).2.1 = true → DerForest cs

theorem full_tree {c : Class} {p : Bool} {tag : Nat} {cs : Bytes} (htag : tag < 2 ^ 32) (hs : cs.length < 2 ^ 64)
    (h : p = true → DerForest cs) : DerTree (full c p tag cs) := by
  cases p with
  | false => exact .primitive htag (identOctets_x690 c false htag) (lenOctets_der hs)
  | true =>
    obtain ⟨items, rfl, hi⟩ := h rfl
    exact .constructed htag (identOctets_x690 c true htag) (lenOctets_der hs) hi

namespace Formed
variable {t : ToBer α} {v : α} {cs : Bytes}

theorem lt64 (h : Formed t v cs) : cs.length < 2 ^ 64 := by
  have := h.small
  have e24 : (2 : Nat) ^ 24 = 16777216 := by decide
  have e64 : (2 : Nat) ^ 64 = 18446744073709551616 := by decide
  omega

theorem fits (h : Formed t v cs) : Fits t v :=
  ⟨h.enc.lengths h.lt64, ⟨_, h.enc.len, h.small⟩, h.enc.tag⟩

theorem tree (h : Formed t v cs) : DerTree (t.fullOf v cs) := full_tree h.enc.tag h.lt64 h.inner

end Formed

theorem forest_one {bs : Bytes} (h : DerTree bs) : DerForest bs :=
  ⟨[bs], by simp, by simpa using h⟩

theorem formed_items {t : ToBer α} {vs : List α} (h : ∀ v ∈ vs, ∃ cs, Formed t v cs) :
    ∃ bss, Pointwise (Exact t) vs bss ∧ ∀ x ∈ bss, DerTree x := by
  induction vs with
  | nil => exact ⟨[], .nil, by simp⟩
  | cons v vs ih =>
    obtain ⟨cs, hc⟩ := h v (by simp)
    obtain ⟨bss, h1, h2⟩ := ih fun u hu => h u (by simp [hu])
    refine ⟨t.fullOf v cs :: bss, .cons ⟨hc.enc.encode hc.lt64, hc.enc.totalLen hc.small⟩ h1, ?_⟩
    intro x hx
    rcases List.mem_cons.mp hx with rfl | hx
    · exact hc.tree
    · exact h2 x hx

theorem formed_list {t : ToBer α} {vs : List α} {tag : Nat} (htag : tag < 2 ^ 32)
    (h : ∀ v ∈ vs, ∃ cs, Formed t v cs) (hs : SmallContent (listToBer tag t) vs) :
    ∃ cs, Formed (listToBer tag t) vs cs := by
  obtain ⟨bss, h1, h2⟩ := formed_items h
  have he := list_encodes htag h1
  exact ⟨_, he, small_of he.len hs, fun _ => ⟨bss, rfl, h2⟩⟩

/-- One field of a struct. -/
theorem formed_field {tag : FieldTag} {t : ToBer α} {v : α} {cs : Bytes} (hv : FieldTag.Valid tag)
    (h : Formed t v cs) (hs : tag ≠ .untagged → ∀ n, t.totalLen v = .definite n → n < 2 ^ 24) :
    ∃ bs, Writes (tag.write t v) bs bs.length ∧ DerTree bs := by
  obtain ⟨hd, cs', h1, h2, h3, h4, h5, h6, h7⟩ := fits_total h.fits
  obtain ⟨bs, hw, _⟩ := field_writes h.fits hv hs
  obtain ⟨g1, g2, g3⟩ := field_bytes h.fits hv hs h1 h2 h4 h5 h6 hw
  have e24 : (2 : Nat) ^ 24 = 16777216 := by decide
  have e64 : (2 : Nat) ^ 64 = 18446744073709551616 := by decide
  have ec : cs' = cs := congrArg Prod.fst (h1.symm.trans h.enc.content)
  have eb : hd ++ cs' = t.fullOf v cs := congrArg Prod.fst (h5.symm.trans (h.enc.encode h.lt64))
  refine ⟨bs, hw, ?_⟩
  cases tag with
  | untagged => rw [g1 rfl, eb]; exact h.tree
  | explicit cls n =>
    have h8 := hs (by simp) _ h6
    rw [g2 cls n rfl]
    exact full_tree hv (by omega) fun _ => eb ▸ forest_one h.tree
  | implicit cls n =>
    rw [g3 cls n rfl, ec]
    exact full_tree hv h.lt64 h.inner

/-- The fields of a struct. -/
def FormedFields {Ts : List Type} (es : EncFields Ts) (vs : Tup Ts) : Prop :=
  FieldsFit es vs ∧ ∃ items : List Bytes, (∀ x ∈ items, DerTree x) ∧
    ∀ k, Writes (es.write vs k) items.flatten (k + items.flatten.length)

theorem formed_struct {Ts : List Type} {es : EncFields Ts} {vs : Tup Ts} {tag : Nat} (htag : tag < 2 ^ 32)
    (h : FormedFields es vs) (h0 : overcount es vs = 0) (hs : SmallContent (structToBer tag es) vs) :
    ∃ cs, Formed (structToBer tag es) vs cs := by
  obtain ⟨hf, items, h1, h2⟩ := h
  obtain ⟨cs, h3, h4⟩ := C54_struct_length tag es vs hf
  have e : cs = items.flatten := congrArg Prod.fst (h3.symm.trans (h2 0))
  rw [h0] at h4
  exact ⟨cs, ⟨h3, h4, htag, rfl⟩, small_of h4 hs, fun _ => ⟨items, e, h1⟩⟩

theorem formed_value {t : ToBer α} {v : α} (h : Composed t v) : ∃ cs, Formed t v cs := by
  refine Composed.rec
    (motive_1 := fun {_} t v _ => ∃ cs, Formed t v cs)
    (motive_2 := fun {_} es vs _ => FormedFields es vs)
    (motive_3 := fun k {_} es x _ => ∃ cs, Encodes (choiceToBer k es) x cs ∧
      (((choiceToBer k es).tagInfo x).2.1 = true → DerForest cs))
    ?_ ?_ ?_ ?_ ?_ ?_ ?_ ?_ ?_ ?_ ?_ ?_ ?_ ?_ ?_ ?_ ?_ ?_ ?_ ?_ h
  · intro α c v h hs
    obtain ⟨cs, hw, hl, _⟩ := universal_works h
    exact ⟨cs, hw.enc, small_of hl hs, fun hc => by rw [hw.prim] at hc; exact absurd hc (by decide)⟩
  · intro v hv hs
    have he := bit_encodes v hv
    exact ⟨_, he, small_of he.len hs, nofun⟩
  · intro v
    exact ⟨_, boolean_encodes v, by show 1 < 2 ^ 24; decide, nofun⟩
  · intro a htag hc hs
    exact ⟨_, any_encodes a htag, small_of (any_encodes a htag).len hs, hc⟩
  · intro _ _ _ tag htag _ hs ih
    exact formed_list htag ih hs
  · intro _ _ _ S s _ hs ih
    obtain ⟨bss, h1, h2⟩ := formed_items ih
    have he := list_encodes (tag := 17) (by decide) h1
    exact ⟨_, ⟨he.content, he.len, he.tag, rfl⟩, small_of he.len hs, fun _ => ⟨bss, rfl, h2⟩⟩
  · intro _ _ N v _ hs ih
    obtain ⟨bss, h1, h2⟩ := formed_items ih
    have he := list_encodes (tag := 16) (by decide) h1
    exact ⟨_, ⟨he.content, he.len, he.tag, rfl⟩, small_of he.len hs, fun _ => ⟨bss, rfl, h2⟩⟩
  · intro tag htag s hc hs
    exact ⟨_, raw_encodes htag s, small_of (raw_encodes htag s).len hs, fun _ => hc⟩
  · rintro _ t v cls tag htag _ hdyn _ hs ⟨cs, ih⟩
    have he := explicit_encodes cls htag hdyn (ih.enc.encode ih.lt64) (ih.enc.totalLen ih.small)
    exact ⟨_, he, small_of he.len hs, fun _ => forest_one ih.tree⟩
  · rintro _ t v cls tag htag dynC hdyn _ ⟨cs, ih⟩
    exact ⟨cs, implicit_encodes cls htag dynC ih.enc.content ih.enc.len, ih.small,
      fun hc => ih.inner (hdyn ▸ hc)⟩
  · rintro _ t v hd htag _ hs ⟨cs, ih⟩
    have he : Encodes (taggedParserExplicitToBer t) ⟨hd, v⟩ (t.fullOf v cs) :=
      ⟨ih.enc.encode ih.lt64, ih.enc.totalLen ih.small, htag, rfl⟩
    exact ⟨_, he, small_of he.len hs, fun _ => forest_one ih.tree⟩
  · rintro _ t v hd htag _ hp ⟨cs, ih⟩
    exact ⟨cs, ⟨ih.enc.content, ih.enc.len, htag, rfl⟩, ih.small, nofun⟩
  · intro _ _ _ tag htag _ h0 hs ih
    exact formed_struct htag ih h0 hs
  · rintro _ _ _ k _ hs ⟨cs, he, hc⟩
    exact ⟨cs, he, small_of he.len hs, hc⟩
  · intro ds hds k
    obtain ⟨cs, hw, hl⟩ := enum_works (hds _ (List.getElem_mem k.isLt))
    have e24 : (2 : Nat) ^ 24 = 16777216 := by decide
    exact ⟨cs, ⟨hw.enc.content, hw.enc.len, by show 10 < 2 ^ 32; decide, rfl⟩, by omega, nofun⟩
  · rintro _ t v _ ⟨cs, ih⟩
    exact ⟨cs, ⟨ih.enc.content, ih.enc.len, ih.enc.tag, rfl⟩, ih.small, ih.inner⟩
  · exact ⟨.nil, [], by simp, fun k => writes_pure _⟩
  · rintro _ _ t v es vs tag hv _ hs _ ⟨cs, ih⟩ ⟨hf, items, h1, h2⟩
    obtain ⟨bs, g1, g2⟩ := formed_field hv ih hs
    refine ⟨.cons ih.fits hv hs hf, bs :: items, ?_, fun k => ?_⟩
    · intro x hx
      rcases List.mem_cons.mp hx with rfl | hx
      · exact g2
      · exact h1 x hx
    · rw [EncFields.write, List.flatten_cons, show k + (bs ++ items.flatten).length =
        k + bs.length + items.flatten.length by rw [List.length_append]; omega]
      exact g1.bind (h2 _)
  · rintro k _ _ t v n hn dyn hdyn es _ ⟨cs, ih⟩
    cases k with
    | explicit =>
      exact ⟨_, ⟨ih.enc.encode ih.lt64, ih.enc.totalLen ih.small, hn, rfl⟩, fun _ => forest_one ih.tree⟩
    | implicit =>
      exact ⟨cs, ⟨ih.enc.content, ih.enc.len, hn, rfl⟩, fun hc => ih.inner (hdyn ▸ hc)⟩
    | untagged =>
      refine ⟨cs, ⟨ih.enc.content, ih.enc.len, ?_, rfl⟩, fun hc => ih.inner ?_⟩
      · show (dyn v).2.2 < _
        rw [hdyn]; exact ih.enc.tag
      · have hc : (dyn v).2.1 = true := hc
        rw [hdyn] at hc; exact hc
  · rintro k _ _ t es x n dyn _ ⟨cs, he, hc⟩
    exact ⟨cs, ⟨he.content, he.len, he.tag, rfl⟩, hc⟩

/-- **C110** (partial) What is written for a value made of parts is well-formed DER at every level: shortest
identifier octets, shortest definite lengths that count exactly what follows, and in every constructed object
nothing but such objects. Missing: the values excluded by the conditions of `Composed`,
for which lengths may be wrong (C18, C54, C78) or the user gives content that is not well-formed. -/
theorem C110_well_formed_partial {t : ToBer α} {v : α} (h : Composed t v) :
    ∃ bs, t.toVec v = .ok bs ∧ DerTree bs := by
  obtain ⟨cs, hf⟩ := formed_value h
  exact ⟨_, hf.enc.toVec hf.lt64, hf.tree⟩

theorem tree_full {bs : Bytes} (h : DerTree bs) (hs : bs.length < 2 ^ 64) :
    ∃ c p tag cs, bs = full c p tag cs ∧ tag < 2 ^ 32 ∧ cs.length < 2 ^ 64 ∧ (p = true → DerForest cs) := by
  cases h with
  | primitive htag hi hl =>
    rename_i c tag id len content
    simp only [List.length_append] at hs
    have h64 : content.length < 2 ^ 64 := by omega
    refine ⟨c, false, tag, content, ?_, htag, h64, nofun⟩
    rw [x690_unique hi (identOctets_x690 c false htag), derLen_unique hl (lenOctets_der h64)]
    rfl
  | constructed htag hi hl h =>
    rename_i c tag id len items
    simp only [List.length_append] at hs
    have h64 : items.flatten.length < 2 ^ 64 := by omega
    refine ⟨c, true, tag, items.flatten, ?_, htag, h64, fun _ => ⟨items, rfl, h⟩⟩
    rw [x690_unique hi (identOctets_x690 c true htag), derLen_unique hl (lenOctets_der h64)]
    rfl

theorem full_ne_nil {c : Class} {p : Bool} {tag : Nat} {cs : Bytes} (ht : tag < 2 ^ 32) :
    full c p tag cs ≠ [] := by
  intro h
  rcases (writeTag_spec c p tag ht).2 with ⟨_, b, e, _⟩ | ⟨_, b, hi, last, e, _⟩ <;>
    · unfold full at h
      rw [e] at h
      simp at h

/-- The objects of a well-formed content are found one after the other. -/
theorem forest_objs {items : List Bytes} (h : ∀ x ∈ items, DerTree x) (i : Input)
    (hi : i.data = items.flatten) (hs : i.data.length < 2 ^ 64) :
    ∃ as e, Objs anyDer.parseDer (fun _ => false) i as e ∧ e.data = [] ∧
      ∀ a ∈ as, a.header.constructed = true → DerForest a.data.data ∧ a.data.data.length < 2 ^ 64 := by
  induction items generalizing i with
  | nil => exact ⟨[], i, .nil hi, hi, by simp⟩
  | cons x items ih =>
    rw [List.flatten_cons] at hi
    have hx : x.length < 2 ^ 64 := by rw [hi, List.length_append] at hs; omega
    obtain ⟨c, p, tag, cs, rfl, htag, h64, hc⟩ := tree_full (h x (by simp)) hx
    have hp := parseDerAny_full i c p tag cs _ htag h64 hi
    have hr : (after i (full c p tag cs).length).data = items.flatten := by
      rw [after_data, hi, List.drop_left' rfl]
    obtain ⟨as, e, h1, h2, h3⟩ := ih (fun y hy => h y (by simp [hy])) (after i (full c p tag cs).length) hr
      (by rw [hr]; rw [hi, List.length_append] at hs; omega)
    refine ⟨_ :: as, e, .cons ?_ (by rw [anyDer_parseDer]; exact hp) rfl h1, h2, ?_⟩
    · rw [hi]
      intro he
      exact full_ne_nil htag (List.append_eq_nil_iff.mp he).1
    · intro a ha
      rcases List.mem_cons.mp ha with rfl | ha
      · intro hcon
        have e : (first (after i ((full c p tag cs).length - cs.length)) cs.length).data = cs := by
          rw [first_data, full_content i c p tag cs _ hi]; simp
        rw [e]
        exact ⟨hc hcon, h64⟩
      · exact h3 a ha

theorem met_forest {a b : Any} (h : Met a b)
    (ha : a.header.constructed = true → DerForest a.data.data ∧ a.data.data.length < 2 ^ 64) :
    b.header.constructed = true → DerForest b.data.data ∧ b.data.data.length < 2 ^ 64 := by
  induction h with
  | self => exact ha
  | inside h hc hi hm ih =>
    obtain ⟨⟨items, e, ht⟩, h64⟩ := ih hc
    obtain ⟨as, e', h1, _, h3⟩ := forest_objs ht _ e h64
    have := (C37_try_collect _ (.inr rfl) _ _ _).mpr h1
    rw [this] at hi
    injection hi with hi
    injection hi with _ hi
    subst hi
    exact h3 _ hm

/-- **C110** A reader that knows nothing of the types can go down into such an encoding everywhere: the whole is
one object, with nothing left; and whatever constructed object is met on the way down, iterating over its
content gives objects up to the end, and no error. -/
theorem C110_walk {bs : Bytes} (h : DerTree bs) (hs : bs.length < 2 ^ 64) :
    ∃ rem a, anyDer.parseDer (Input.fromSlice bs) = .ok (rem, a) ∧ rem.data = [] ∧
      ∀ b, Met a b → b.header.constructed = true →
        ∃ rem' items, (AnyIter.new b.data).tryCollect anyDer.parseDer = .ok (rem', items) ∧ rem'.data = [] := by
  obtain ⟨c, p, tag, cs, rfl, htag, h64, hc⟩ := tree_full h hs
  have hp := parseDerAny_full (Input.fromSlice (full c p tag cs)) c p tag cs [] htag h64 (by simp [Input.fromSlice])
  refine ⟨_, _, by rw [anyDer_parseDer]; exact hp, by simp [Input.fromSlice], fun b hb hbc => ?_⟩
  have e : (first (after (Input.fromSlice (full c p tag cs)) ((full c p tag cs).length - cs.length))
      cs.length).data = cs := by
    rw [first_data, full_content _ c p tag cs [] (by simp [Input.fromSlice])]; simp
  obtain ⟨⟨items, e', ht⟩, hlt⟩ := met_forest hb (fun hcon => by rw [e]; exact ⟨hc hcon, h64⟩) hbc
  obtain ⟨as, e2, h1, h2, _⟩ := forest_objs ht _ e' hlt
  exact ⟨_, _, (C37_try_collect _ (.inr rfl) _ _ _).mpr h1, h2⟩

/-! A case: the struct of Props/BuiltValue. -/

theorem outer_composed : Composed (structToBer 16 outerEnc) (7, [altNumber, altText], true, ()) := by
  refine .struct 16 (by decide) ?_ (by decide +kernel) ⟨16, by decide +kernel, by decide⟩
  refine .cons .untagged trivial (.universal (.uint 4 (by decide) (by decide)) ⟨1, by decide +kernel, by decide⟩)
    (by simp) ?_
  refine .cons _ (by show 0 < 2 ^ 32; decide) (.list 16 (by decide) ?_ ⟨6, by decide +kernel, by decide⟩) ?_ ?_
  · intro v hv
    rcases List.mem_cons.mp hv with rfl | hv
    · exact .choice .untagged (.here (by decide) rfl _
        (.universal (c := intC 8) (.int 8 (by decide) (by unfold InInt; decide)) ⟨1, by decide +kernel, by decide⟩))
        ⟨1, by decide +kernel, by decide⟩
    · obtain rfl := List.mem_singleton.mp hv
      exact .choice .untagged (.there _ _ (.here (by decide) rfl _
        (.universal (c := stringC) .string ⟨1, by decide +kernel, by decide⟩)))
        ⟨1, by decide +kernel, by decide⟩
  · intro _ n hn
    have : (listToBer 16 (choiceToBer .untagged altEnc)).totalLen [altNumber, altText] = .definite 8 := by
      decide +kernel
    rw [this] at hn
    injection hn with hn
    rw [← hn]; decide
  · exact .cons .untagged trivial (.universal (c := boolC) .bool ⟨1, rfl, by decide⟩) (by simp) .nil

example : DerTree [0x30, 16, 2, 1, 7, 0xa0, 8, 0x30, 6, 2, 1, 0xfb, 12, 1, 0x41, 1, 1, 0xff] := by
  obtain ⟨bs, h1, h2⟩ := C110_well_formed_partial outer_composed
  have e : (structToBer 16 outerEnc).toVec (7, [altNumber, altText], true, ()) =
    .ok [0x30, 16, 2, 1, 7, 0xa0, 8, 0x30, 6, 2, 1, 0xfb, 12, 1, 0x41, 1, 1, 0xff] := by decide +kernel
  rw [e] at h1
  injection h1 with h1
  rw [h1]; exact h2

/-- A SEQUENCE whose content is not made of objects is not well-formed. -/
example : ¬ DerTree [0x30, 1, 5] := by
  intro h
  obtain ⟨rem, a, h1, h2, h3⟩ := C110_walk h (by decide)
  have e : anyDer.parseDer (Input.fromSlice [0x30, 1, 5]) = .ok (⟨[], 3, 3⟩,
    ⟨⟨.universal, true, 16, .definite 1, some [0x30], some ⟨[0x30, 1], 0, 2⟩⟩, ⟨[5], 2, 3⟩⟩) := by decide +kernel
  rw [e] at h1
  injection h1 with h1
  injection h1 with _ h1
  subst h1
  obtain ⟨r, l, h4, _⟩ := h3 _ .self rfl
  have e2 : ((AnyIter.new ⟨[5], 2, 3⟩).tryCollect anyDer.parseDer).isOk = false := by decide +kernel
  rw [h4] at e2
  exact Bool.noConfusion e2

end Asn1

import Verif.Model.AnySet
import Verif.Props.RawSeq
import Verif.Props.Real32
/-!
# C98: sets of generic objects
-/
namespace Asn1
open Spec

variable (H : HashImpl)

theorem header_eq_self (h : Header) : Header.eq h h = true := by
  unfold Header.eq
  cases h.length.isNull <;> simp

theorem any_eq_self (a : Any) : Any.eq a a = true := by
  unfold Any.eq
  rw [header_eq_self]
  simp

theorem finds_self (a : Any) : H.finds a a = true := by
  unfold HashImpl.finds
  rw [H.self, any_eq_self]; rfl

theorem finds_data {x y : Any} (h : H.finds x y = true) : y.data = x.data := by
  unfold HashImpl.finds Any.eq at h
  simp only [Bool.and_eq_true, decide_eq_true_eq] at h
  exact h.2.2

/-- Objects whose contents are at different places are different elements. -/
theorem ofList_distinct (as : List Any) (h : as.Pairwise fun a b => a.data.start < b.data.start) :
    AnySet.ofList H as = ⟨as⟩ := by
  have key : ∀ (as acc : List Any), (acc ++ as).Pairwise (fun a b => a.data.start < b.data.start) →
      as.foldl (fun s a => (AnySet.insert H s a).2) (AnySet.mk acc) = AnySet.mk (acc ++ as) := by
    intro as
    induction as with
    | nil => intro acc _; simp
    | cons a as ih =>
      intro acc h
      rw [List.foldl_cons]
      have h' : (acc ++ [a] ++ as).Pairwise (fun a b => a.data.start < b.data.start) := by simpa using h
      have : (AnySet.insert H ⟨acc⟩ a).2 = ⟨acc ++ [a]⟩ := by
        unfold AnySet.insert
        rw [if_neg]
        simp only [List.any_eq_true, not_exists, not_and]
        intro y hy hf
        have h1 := (List.pairwise_append.mp h).2.2 y hy a (by simp)
        rw [finds_data H hf] at h1
        exact absurd h1 (Nat.lt_irrefl _)
      rw [this, ih _ h']
      simp
  exact key as [] (by simpa using h)

theorem objs_distinct {parse : Input → PRes Any} (hp : ∀ {i r a}, parse i = .ok (r, a) →
      i.start < a.data.start ∧ a.data.start ≤ r.start) {i e : Input} {as : List Any}
    (h : Objs parse (fun _ => false) i as e) :
    (∀ a ∈ as, i.start < a.data.start) ∧ as.Pairwise fun a b => a.data.start < b.data.start := by
  induction h with
  | nil => simp
  | stop _ _ h => simp at h
  | cons _ h1 _ _ ih =>
    obtain ⟨h2, h3⟩ := hp h1
    refine ⟨fun a ha => ?_, List.pairwise_cons.mpr ⟨fun b hb => ?_, ih.2⟩⟩
    · rcases List.mem_cons.mp ha with rfl | ha
      · exact h2
      · have := ih.1 a ha; omega
    · have := ih.1 b hb; omega

theorem ber_data_start {i r : Input} {a : Any} (h : parseBerAny i = .ok (r, a)) :
    i.start < a.data.start ∧ a.data.start ≤ r.start := by
  obtain ⟨r1, h1, _⟩ := parseBerAny_ok.mp h
  obtain ⟨hdr, marker, h3, h4, h5, h6, h7, h8, _⟩ := C04_exact_split_ber_partial i r a h
  obtain ⟨id, len, h9, h10, h11, h12, h13, h14⟩ := parseHeader_ok.mp h1
  rw [h14] at h4
  have h15 := congrArg Input.data (Option.some.inj h4)
  rw [first_data] at h15
  have h16 := congrArg List.length h15
  have : 1 ≤ id.length := by cases h9 <;> simp
  rw [h11] at h16
  simp at h16
  omega

theorem der_data_start {i r : Input} {a : Any} (h : parseDerAny i = .ok (r, a)) :
    i.start < a.data.start ∧ a.data.start ≤ r.start :=
  ber_data_start (C11_der_subset_ber_any _ _ _ h)

/-- **C98** Exactly what the decoders of `AnySet` accept, with any hasher, and that the set has one element for
each component of the encoding. (A component that occurs twice gives two elements, since the equality of generic
objects looks at their position in the input.) -/
theorem C98_any_set_accepts (i r : Input) (s : AnySet) :
    ((anySetP H anyBer.parseBer).parseBer i = .ok (r, s) ↔ ∃ a e, parseBerAny i = .ok (r, a) ∧
      a.header.tag = 17 ∧ a.header.constructed = true ∧
      Objs anyBer.parseBer (fun _ => false) a.data s.items e) ∧
    ((anySetP H anyDer.parseDer).parseDer i = .ok (r, s) ↔ ∃ a e, parseDerAny i = .ok (r, a) ∧
      a.header.tag = 17 ∧ a.header.constructed = true ∧
      Objs anyDer.parseDer (fun _ => false) a.data s.items e) := by
  unfold anySetP
  rw [map_parseBer, map_parseDer]
  constructor
  · constructor
    · rintro ⟨as, h1, h2⟩
      obtain ⟨a, e, h3, h4, h5, h6⟩ := (C66_any_sequence_accepts 17 i r as).1.mp h1
      have := (objs_distinct (fun h => ber_data_start (by rwa [anyBer_parseBer] at h)) h6).2
      rw [ofList_distinct H as this] at h2
      exact ⟨a, e, h3, h4, h5, by rw [h2]; exact h6⟩
    · rintro ⟨a, e, h3, h4, h5, h6⟩
      have := (objs_distinct (fun h => ber_data_start (by rwa [anyBer_parseBer] at h)) h6).2
      exact ⟨s.items, (C66_any_sequence_accepts 17 i r _).1.mpr ⟨a, e, h3, h4, h5, h6⟩, by
        rw [ofList_distinct H _ this]⟩
  · constructor
    · rintro ⟨as, h1, h2⟩
      obtain ⟨a, e, h3, h4, h5, h6⟩ := (C66_any_sequence_accepts 17 i r as).2.mp h1
      have := (objs_distinct (fun h => der_data_start (by rwa [anyDer_parseDer] at h)) h6).2
      rw [ofList_distinct H as this] at h2
      exact ⟨a, e, h3, h4, h5, by rw [h2]; exact h6⟩
    · rintro ⟨a, e, h3, h4, h5, h6⟩
      have := (objs_distinct (fun h => der_data_start (by rwa [anyDer_parseDer] at h)) h6).2
      exact ⟨s.items, (C66_any_sequence_accepts 17 i r _).2.mpr ⟨a, e, h3, h4, h5, h6⟩, by
        rw [ofList_distinct H _ this]⟩

/-- A table for the examples, which meets every element and keeps the order of insertion. -/
def plainHash : HashImpl := ⟨fun _ _ => true, fun _ => rfl, id, fun _ => .refl _⟩

/-- **C98** Deviation: components with the same encoding are not one element but several; the documentation says
that they are unique. Here, twice the INTEGER 5. -/
theorem C98_duplicates_deviation :
    ((anySetP plainHash anyDer.parseDer).parseDer (Input.fromSlice [0x31, 6, 2, 1, 5, 2, 1, 5])).map
      (fun x => (x.2.len, x.2.items.map fun a => (a.header.tag, a.data.data))) =
    .ok (2, [(2, [5]), (2, [5])]) := by decide +kernel

/-- **C98** Inserting: afterwards an object equal to the inserted one is found, all earlier elements are there, and
there is one element more exactly when `insert` says so; inserting the same object again changes nothing. -/
theorem C98_insert (s : AnySet) (x : Any) :
    (∃ y ∈ (s.insert H x).2.items, Any.eq y x = true) ∧
    (∀ y ∈ s.items, y ∈ (s.insert H x).2.items) ∧
    (s.insert H x).2.len = s.len + (if (s.insert H x).1 then 1 else 0) ∧
    ((s.insert H x).1 = true → x ∈ (s.insert H x).2.items) ∧
    ((s.insert H x).1 = false → (s.insert H x).2 = s) ∧
    (s.insert H x).2.insert H x = (false, (s.insert H x).2) := by
  unfold AnySet.insert AnySet.len
  by_cases h : s.items.any (H.finds x) = true
  · simp only [h, if_true]
    refine ⟨?_, fun y hy => hy, by simp, by simp, by simp, by simp⟩
    obtain ⟨y, h1, h2⟩ := List.any_eq_true.mp h
    unfold HashImpl.finds at h2
    simp only [Bool.and_eq_true] at h2
    exact ⟨y, h1, h2.2⟩
  · simp only [h, Bool.false_eq_true, if_false]
    refine ⟨⟨x, by simp, any_eq_self x⟩, fun y hy => by simp [hy], by simp, by simp, by simp, ?_⟩
    rw [if_pos]
    rw [List.any_append]
    simp [finds_self]

/-- **C98** Removing: an inserted object can be removed, one element is removed exactly when `remove` says so, it is
equal to the given one, and the others stay. -/
theorem C98_remove (s : AnySet) (x : Any) :
    (((s.insert H x).2.remove H x).1 = true) ∧
    (x ∈ s.items → (s.remove H x).1 = true) ∧
    ((s.remove H x).1 = false → (s.remove H x).2 = s) ∧
    ((s.remove H x).1 = true → ∃ y l l', Any.eq y x = true ∧ s.items = l ++ y :: l' ∧
      (s.remove H x).2.items = l ++ l') := by
  have hin : ∀ s : AnySet, x ∈ s.items → (s.remove H x).1 = true := by
    intro s h
    unfold AnySet.remove
    rw [if_pos (List.any_eq_true.mpr ⟨x, h, finds_self H x⟩)]
  refine ⟨?_, hin s, ?_, ?_⟩
  · cases h : (s.insert H x).1 with
    | true => exact hin _ ((C98_insert H s x).2.2.2.1 h)
    | false =>
      rw [(C98_insert H s x).2.2.2.2.1 h]
      unfold AnySet.insert at h
      unfold AnySet.remove
      split at h
      · rename_i h1; rw [if_pos h1]
      · cases h
  · unfold AnySet.remove
    split
    · intro h; cases h
    · intro _; rfl
  · unfold AnySet.remove
    split
    · rename_i h
      intro _
      obtain ⟨y, h1, h2⟩ := List.any_eq_true.mp h
      obtain ⟨z, l, l', h3, h4, h5, h6⟩ := List.exists_of_eraseP h1 h2
      refine ⟨z, l, l', ?_, h5, h6⟩
      unfold HashImpl.finds at h4
      simp only [Bool.and_eq_true] at h4
      exact h4.2
    · intro h; cases h

/-- **C98** `len` is the number of elements that `iter` goes through, `is_empty` tells whether there is none, and
the elements of an iterator are inserted one after the other into an empty set. -/
theorem C98_size (s : AnySet) (as : List Any) :
    s.len = (s.iter H).length ∧ (s.isEmpty = true ↔ s.iter H = []) ∧
    (AnySet.ofList H []).isEmpty = true ∧
    ∀ a, AnySet.ofList H (as ++ [a]) = ((AnySet.ofList H as).insert H a).2 := by
  refine ⟨(H.perm s.items).length_eq.symm, ?_, rfl, fun a => ?_⟩
  · unfold AnySet.isEmpty AnySet.iter
    rw [List.isEmpty_iff]
    constructor
    · intro h
      rw [h]
      exact (H.perm []).eq_nil
    · intro h
      exact List.Perm.nil_eq (h ▸ H.perm s.items) |>.symm
  · unfold AnySet.ofList
    rw [List.foldl_append]
    rfl

/-- A case: an object is inserted into the empty set, found again, and removed. -/
example : ∃ a : Any, (AnySet.insert plainHash ⟨[]⟩ a).1 = true ∧
    ((AnySet.insert plainHash ⟨[]⟩ a).2.insert plainHash a).1 = false ∧
    ((AnySet.insert plainHash ⟨[]⟩ a).2.remove plainHash a).2.items = [] :=
  ⟨⟨⟨.universal, false, 2, .definite 1, none, none⟩, Input.fromSlice [5]⟩, by decide +kernel, by decide +kernel,
    by decide +kernel⟩

/-- **C98** (partial) A set of generic objects, of any classes, tags and contents, with any hasher, encodes to the
right number of bytes, and decodes to a set of the same objects, in some order. Missing: objects with `2^24` content
bytes or more, for which the code is wrong (`C98_large_deviation`). -/
theorem C98_any_set_roundtrip_partial (s : AnySet)
    (h : ∀ a ∈ s.items, a.header.tag < 2 ^ 32 ∧ a.data.data.length < 2 ^ 24)
    (hn : ∀ n, (anySetToBer H).contentLen s = .definite n → n < 2 ^ 64) :
    ∃ bs as, (anySetToBer H).toVec s = .ok bs ∧ LengthsRight (anySetToBer H) s ∧ as.Perm s.items ∧
      ∀ (i : Input) (rest : Bytes), i.data = bs ++ rest →
        (∃ t, (anySetP H anyBer.parseBer).parseBer i = .ok (after i bs.length, t) ∧
          Pointwise SameObject as t.items) ∧
        ∃ t, (anySetP H anyDer.parseDer).parseDer i = .ok (after i bs.length, t) ∧
          Pointwise SameObject as t.items := by
  have hp := H.perm s.items
  obtain ⟨bs, h1, h2, h3⟩ := C66_any_sequence_roundtrip_partial 17 (by decide) (s.iter H)
    (fun a ha => h a ((hp.mem_iff).mp ha)) hn
  refine ⟨bs, s.iter H, h1, h2, hp, fun i rest hi => ?_⟩
  obtain ⟨⟨t, h4, h5⟩, t', h6, h7⟩ := h3 i rest hi
  constructor
  · refine ⟨⟨t⟩, ?_, h5⟩
    rw [(C98_any_set_accepts H i _ ⟨t⟩).1]
    exact (C66_any_sequence_accepts 17 i _ t).1.mp h4
  · refine ⟨⟨t'⟩, ?_, h7⟩
    rw [(C98_any_set_accepts H i _ ⟨t'⟩).2]
    exact (C66_any_sequence_accepts 17 i _ t').2.mp h6

/-- A case: a set of two objects. -/
example : ∃ a b : Any, (∀ x ∈ [a, b], x.header.tag < 2 ^ 32 ∧ x.data.data.length < 2 ^ 24) ∧
    (anySetToBer plainHash).toVec (AnySet.ofList plainHash [a, b, a]) =
      .ok [0x31, 8, 0x82, 2, 7, 8, 0xdf, 0x22, 1, 9] :=
  ⟨⟨⟨.contextSpecific, false, 2, .definite 2, none, none⟩, Input.fromSlice [7, 8]⟩,
    ⟨⟨.priv, false, 34, .definite 1, none, none⟩, Input.fromSlice [9]⟩, by
      intro x hx
      simp only [List.mem_cons, List.not_mem_nil, or_false] at hx
      rcases hx with rfl | rfl <;> decide, by decide +kernel⟩

/-- **C98** Deviation: `==` and the hash of generic objects do not fit together, so that a set may or may not have two
elements that are equal, depending on the hasher: the same content with two headers that differ only in their
length. -/
theorem C98_hash_deviation : ∃ a b : Any, Any.eq a b = true ∧ a.hashKey ≠ b.hashKey ∧
    (∃ H : HashImpl, (AnySet.ofList H [a, b]).len = 1) ∧ ∃ H : HashImpl, (AnySet.ofList H [a, b]).len = 2 := by
  refine ⟨⟨⟨.universal, false, 2, .definite 1, none, none⟩, Input.fromSlice [5]⟩,
    ⟨⟨.universal, false, 2, .definite 2, none, none⟩, Input.fromSlice [5]⟩, by decide,
    fun h => absurd (congrArg (fun k => k.1.2.2.2.1) h) (by decide),
    ⟨plainHash, by decide +kernel⟩,
    ⟨⟨fun k l => decide (k.1.2.2.2.1 = l.1.2.2.2.1), by simp, id, fun _ => .refl _⟩, by decide +kernel⟩⟩

end Asn1

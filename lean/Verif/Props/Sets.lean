import Verif.Props.Containers
/-!
# Sets: instances, what is accepted, order (C31)
-/
namespace Asn1
open Spec Wr

variable {α β σ : Type}

/-! ### Set collections -/

/-- Insertion into a list in increasing order, as in a `BTreeSet<u32>`. -/
def insertNat (x : Nat) : List Nat → List Nat
  | [] => [x]
  | y :: l => if x < y then x :: y :: l else if x = y then y :: l else y :: insertNat x l

theorem mem_insertNat {x y : Nat} {l : List Nat} : y ∈ insertNat x l ↔ y = x ∨ y ∈ l := by
  induction l with
  | nil => simp [insertNat]
  | cons z l ih =>
    unfold insertNat
    split
    · simp
    · split
      · rename_i h; subst h; simp
      · simp only [List.mem_cons, ih]
        constructor
        · rintro (h | h | h) <;> simp [h]
        · rintro (h | h | h) <;> simp [h]

theorem insertNat_sorted {x : Nat} {l : List Nat} (h : l.Pairwise (· < ·)) :
    (insertNat x l).Pairwise (· < ·) := by
  induction l with
  | nil => simp [insertNat]
  | cons z l ih =>
    rw [List.pairwise_cons] at h
    unfold insertNat
    split
    · rename_i hx
      refine List.pairwise_cons.mpr ⟨?_, List.pairwise_cons.mpr h⟩
      intro y hy
      rcases List.mem_cons.mp hy with rfl | hy
      · exact hx
      · exact Nat.lt_trans hx (h.1 y hy)
    · split
      · exact List.pairwise_cons.mpr h
      · refine List.pairwise_cons.mpr ⟨?_, ih h.2⟩
        intro y hy
        rcases mem_insertNat.mp hy with rfl | hy
        · omega
        · exact h.1 y hy

theorem sorted_ext {l l' : List Nat} (h : l.Pairwise (· < ·)) (h' : l'.Pairwise (· < ·))
    (he : ∀ x, x ∈ l ↔ x ∈ l') : l = l' := by
  induction l generalizing l' with
  | nil =>
    cases l' with
    | nil => rfl
    | cons y l' => exact absurd ((he y).mpr (by simp)) (by simp)
  | cons x l ih =>
    cases l' with
    | nil => exact absurd ((he x).mp (by simp)) (by simp)
    | cons y l' =>
      rw [List.pairwise_cons] at h h'
      have hxy : x = y := by
        rcases List.mem_cons.mp ((he x).mp (by simp)) with h1 | h1
        · exact h1
        · rcases List.mem_cons.mp ((he y).mpr (by simp)) with h2 | h2
          · exact h2.symm
          · have := h.1 y h2; have := h'.1 x h1; omega
      subst hxy
      congr 1
      refine ih h.2 h'.2 fun z => ?_
      constructor
      · intro hz
        rcases List.mem_cons.mp ((he z).mp (by simp [hz])) with rfl | h1
        · exact absurd (h.1 z hz) (Nat.lt_irrefl z)
        · exact h1
      · intro hz
        rcases List.mem_cons.mp ((he z).mpr (by simp [hz])) with rfl | h1
        · exact absurd (h'.1 z hz) (Nat.lt_irrefl z)
        · exact h1

/-- A set collection in the sense of `SetImpl`: `BTreeSet<u32>`, with `==` as equality. -/
def btreeNat : SetImpl Nat { l : List Nat // l.Pairwise (· < ·) } where
  ofList l := ⟨l.foldr insertNat [], by
    induction l with
    | nil => simp
    | cons x l ih => exact insertNat_sorted ih⟩
  toList s := s.val
  eqv s s' := s = s'
  mem l x := by
    induction l with
    | nil => simp
    | cons y l ih => simp only [List.foldr_cons, mem_insertNat, ih, List.mem_cons]
  nodup s := s.property.imp Nat.ne_of_lt
  eqv_iff s s' := by
    constructor
    · rintro rfl; simp
    · intro h; exact Subtype.ext (sorted_ext s.property s'.property h)

/-- Another one: a set that yields its elements in the order of insertion (a `HashSet` with a
particular hasher), for every type with an equality. -/
def hashSet [DecidableEq α] : SetImpl α { l : List α // l.Nodup } where
  ofList l := ⟨l.foldr (fun x acc => if x ∈ acc then acc else x :: acc) [], by
    induction l with
    | nil => simp
    | cons x l ih =>
      simp only [List.foldr_cons]
      split
      · exact ih
      · exact List.nodup_cons.mpr ⟨by assumption, ih⟩⟩
  toList s := s.val
  eqv s s' := ∀ x, x ∈ s.val ↔ x ∈ s'.val
  mem l x := by
    induction l with
    | nil => simp
    | cons y l ih =>
      simp only [List.foldr_cons, List.mem_cons]
      split
      · rename_i h
        rw [ih]
        constructor
        · exact Or.inr
        · rintro (rfl | h1)
          · exact ih.mp h
          · exact h1
      · simp only [List.mem_cons, ih]
  nodup s := s.property
  eqv_iff s s' := Iff.rfl

/-- **C31** A `BTreeSet` of machine integers comes back, equal, from all the decoders. -/
theorem C31_btreeset_u32 (s : { l : List Nat // l.Pairwise (· < ·) })
    (hr : ∀ x ∈ s.val, x < 2 ^ 32)
    (hn : ∀ n, (setToBer btreeNat (uintToBer 4)).contentLen s = .definite n → n < 2 ^ 64) :
    LengthsRight (setToBer btreeNat (uintToBer 4)) s ∧
    InputBack (setToBer btreeNat (uintToBer 4))
      (setP btreeNat anyBer.parseBer (uintBer 4)).parseBer s s ∧
    InputBack (setToBer btreeNat (uintToBer 4))
      (setP btreeNat anyDer.parseDer (uintDer 4)).parseDer s s ∧
    BytesBack (setToBer btreeNat (uintToBer 4))
      (fromBerWith (setTryFrom btreeNat (fromBer (uintBer 4)))) s s ∧
    BytesBack (setToBer btreeNat (uintToBer 4))
      (setFromDer btreeNat (fromDer (uintBer 4) checkDerInt)) s s := by
  have hu : ∀ v ∈ s.val, UniversalValue (uintC 4) v := fun v hv => .uint 4 (by omega) (hr v hv)
  have hb : ∀ v ∈ s.val, SmallContent (uintC 4).enc v ∧
      InputBack (uintToBer 4) (uintBer 4).parseBer v v ∧
      InputBack (uintToBer 4) (uintDer 4).parseDer v v ∧
      BytesBack (uintToBer 4) (fromBer (uintBer 4)) v v ∧
      BytesBack (uintToBer 4) (fromDer (uintBer 4) checkDerInt) v v := by
    intro v hv
    obtain ⟨cs, hw, hlen⟩ := uint_works (N := 4) (by omega) (hr v hv)
    exact ⟨⟨_, hw.enc.len, by omega⟩, hw.back (by omega)⟩
  obtain ⟨s', h1, _, h2, h3, h4, h5⟩ := C31_set_roundtrip_partial btreeNat (uintToBer 4) s
    ⟨fun v hv => Works.fits (hu v hv) (hb v hv).1, hn⟩
  obtain rfl : s = s' := h1
  exact ⟨h2, h3 _ fun v hv => (hb v hv).2.1, h4 _ fun v hv => (hb v hv).2.2.1,
    (h5 _ fun v hv => (hb v hv).2.2.2.1).1, (h5 _ fun v hv => (hb v hv).2.2.2.2).2⟩

/-- A case: the set {1, 2, 300}. -/
example : (setToBer btreeNat (uintToBer 4)).toVec (btreeNat.ofList [300, 2, 1, 2]) =
      .ok [0x31, 0x0a, 0x02, 0x01, 0x01, 0x02, 0x01, 0x02, 0x02, 0x02, 0x01, 0x2c] ∧
    setFromDer btreeNat (fromDer (uintBer 4) checkDerInt)
      [0x31, 0x0a, 0x02, 0x01, 0x01, 0x02, 0x01, 0x02, 0x02, 0x02, 0x01, 0x2c] =
      .ok ([], btreeNat.ofList [1, 2, 300]) := by decide +kernel

/-! ### What is accepted -/

/-- **C31** Exactly what the decoders of `SetOf` accept: the tag of SET, constructed (except for
`from_der`), a content that splits into items; the order of the items is free, in DER too, and
items may be repeated. -/
theorem C31_set_of_accepts :
    (∀ (p : Parser α) (i r : Input) (vs : SetOf α),
      (setOfP anyBer.parseBer p).parseBer i = .ok (r, vs) ↔ ∃ a e, parseBerAny i = .ok (r, a) ∧
        a.header.tag = 17 ∧ a.header.constructed = true ∧ Repeats p.parseBer a.data vs.items e) ∧
    (∀ (p : Parser α) (i r : Input) (vs : SetOf α),
      (setOfP anyDer.parseDer p).parseDer i = .ok (r, vs) ↔ ∃ a e, parseDerAny i = .ok (r, a) ∧
        a.header.tag = 17 ∧ a.header.constructed = true ∧ Repeats p.parseDer a.data vs.items e) ∧
    (∀ (g : Bytes → Except SErr (Bytes × α)) (bytes rem : Bytes) (vs : List α), EndsIn g →
      (fromBerWith (seqTryFrom 17 g) bytes = .ok (rem, vs) ↔
        ∃ r a, parseBerAny (Input.fromSlice bytes) = .ok (r, a) ∧ r.data = rem ∧
          a.header.tag = 17 ∧ a.header.constructed = true ∧ RepeatsB g a.data.data vs) ∧
      (seqFromDer 17 g bytes = .ok (rem, vs) ↔
        ∃ r a, parseDerAny (Input.fromSlice bytes) = .ok (r, a) ∧ r.data = rem ∧
          a.header.tag = 17 ∧ RepeatsB g a.data.data vs)) := by
  refine ⟨fun p i r vs => ?_, fun p i r vs => ?_, fun g bytes rem vs hg => ⟨?_, ?_⟩⟩
  · rw [parseBer_ok]
    constructor
    · rintro ⟨a, e, h1, h2, h3⟩
      obtain ⟨l, h6, rfl⟩ := map_content.mp h3
      obtain ⟨h4, h5⟩ := setItemsBer_content.mp h6
      exact ⟨a, e, h1, tagIs_iff.mp h2, h4, h5⟩
    · rintro ⟨a, e, h1, h2, h4, h5⟩
      exact ⟨a, e, h1, tagIs_iff.mpr h2,
        map_content.mpr ⟨_, setItemsBer_content.mpr ⟨h4, h5⟩, rfl⟩⟩
  · rw [parseDer_ok]
    constructor
    · rintro ⟨a, e, h1, h2, h3⟩
      obtain ⟨l, h6, rfl⟩ := map_content.mp h3
      obtain ⟨h4, h5⟩ := setItemsDer_content.mp h6
      exact ⟨a, e, h1, tagIs_iff.mp h2, h4, h5⟩
    · rintro ⟨a, e, h1, h2, h4, h5⟩
      exact ⟨a, e, h1, tagIs_iff.mpr h2,
        map_content.mpr ⟨_, setItemsDer_content.mpr ⟨h4, h5⟩, rfl⟩⟩
  · rw [fromBerWith_ok]
    constructor
    · rintro ⟨r, a, h1, h2, h3⟩
      obtain ⟨h4, h5, h6⟩ := seqTryFrom_ok.mp h3
      exact ⟨r, a, h1, h2, h4, h5, (collectItems_ok hg).mp h6⟩
    · rintro ⟨r, a, h1, h2, h4, h5, h6⟩
      exact ⟨r, a, h1, h2, seqTryFrom_ok.mpr ⟨h4, h5, (collectItems_ok hg).mpr h6⟩⟩
  · rw [seqFromDer_ok]
    constructor
    · rintro ⟨r, a, h1, h2, h4, h6⟩
      exact ⟨r, a, h1, h2, h4, (collectItems_ok hg).mp h6⟩
    · rintro ⟨r, a, h1, h2, h4, h6⟩
      exact ⟨r, a, h1, h2, h4, (collectItems_ok hg).mpr h6⟩

/-- **C31** `BTreeSet` and `HashSet`: an accepted input gives a set whose members are exactly the
items; `from_der` requires the constructed form. -/
theorem C31_set_accepts (S : SetImpl α σ) :
    (∀ (p : Parser α) (i r : Input) (s : σ),
      (setP S anyBer.parseBer p).parseBer i = .ok (r, s) → ∃ a e vs, parseBerAny i = .ok (r, a) ∧
        a.header.tag = 17 ∧ a.header.constructed = true ∧ Repeats p.parseBer a.data vs e ∧
        ∀ x, x ∈ S.toList s ↔ x ∈ vs) ∧
    (∀ (p : Parser α) (i r : Input) (s : σ),
      (setP S anyDer.parseDer p).parseDer i = .ok (r, s) → ∃ a e vs, parseDerAny i = .ok (r, a) ∧
        a.header.tag = 17 ∧ a.header.constructed = true ∧ Repeats p.parseDer a.data vs e ∧
        ∀ x, x ∈ S.toList s ↔ x ∈ vs) ∧
    (∀ (g : Bytes → Except SErr (Bytes × α)) (bytes rem : Bytes) (s : σ),
      (fromBerWith (setTryFrom S g) bytes = .ok (rem, s) →
        ∃ r a vs, parseBerAny (Input.fromSlice bytes) = .ok (r, a) ∧ r.data = rem ∧
          a.header.tag = 17 ∧ a.header.constructed = true ∧ RepeatsB g a.data.data vs ∧
          ∀ x, x ∈ S.toList s ↔ x ∈ vs) ∧
      (setFromDer S g bytes = .ok (rem, s) →
        ∃ r a vs, parseDerAny (Input.fromSlice bytes) = .ok (r, a) ∧ r.data = rem ∧
          a.header.tag = 17 ∧ a.header.constructed = true ∧ RepeatsB g a.data.data vs ∧
          ∀ x, x ∈ S.toList s ↔ x ∈ vs)) := by
  refine ⟨fun p i r s h => ?_, fun p i r s h => ?_, fun g bytes rem s => ⟨fun h => ?_, fun h => ?_⟩⟩
  · obtain ⟨a, e, h1, h2, h3⟩ := parseBer_ok.mp h
    obtain ⟨l, h6, rfl⟩ := map_content.mp h3
    obtain ⟨h4, h5⟩ := setItemsBer_content.mp h6
    exact ⟨a, e, l, h1, tagIs_iff.mp h2, h4, h5, S.mem l⟩
  · obtain ⟨a, e, h1, h2, h3⟩ := parseDer_ok.mp h
    obtain ⟨l, h6, rfl⟩ := map_content.mp h3
    obtain ⟨h4, h5⟩ := setItemsDer_content.mp h6
    exact ⟨a, e, l, h1, tagIs_iff.mp h2, h4, h5, S.mem l⟩
  · obtain ⟨r, a, h1, h2, h3⟩ := fromBerWith_ok.mp h
    obtain ⟨_, h4, h3⟩ := bindS_eq_ok.mp h3
    obtain ⟨_, h5, h3⟩ := bindS_eq_ok.mp h3
    obtain ⟨l, h6, h3⟩ := bindS_eq_ok.mp h3
    simp [pure, Except.pure] at h3
    subst h3
    exact ⟨r, a, l, h1, h2, assertTagS_ok.mp h4, assertConstructedS_ok.mp h5,
      (collect_ok_imp h6).1, S.mem l⟩
  · obtain ⟨⟨i, a⟩, h1, h3⟩ := bindS_eq_ok.mp h
    obtain ⟨r, h1, h2⟩ := wrapBerParser_ok.mp h1
    obtain ⟨_, h4, h3⟩ := bindS_eq_ok.mp h3
    obtain ⟨_, h5, h3⟩ := bindS_eq_ok.mp h3
    obtain ⟨l, h6, h3⟩ := bindS_eq_ok.mp h3
    simp [pure, Except.pure] at h3
    obtain ⟨rfl, rfl⟩ := h3
    exact ⟨r, a, l, h1, h2, assertTagS_ok.mp h4, assertConstructedS_ok.mp h5,
      (collect_ok_imp h6).1, S.mem l⟩

/-- **C31** Deviation: DER requires the items of a SET OF in increasing order of their encodings.
The encoder of `SetOf` writes them in the order given, and the DER decoders accept any order: the
same set has several accepted DER encodings. -/
theorem C31_der_order_deviation :
    (listToBer 17 (uintToBer 4)).toVec [2, 1] =
      .ok [0x31, 0x06, 0x02, 0x01, 0x02, 0x02, 0x01, 0x01] ∧
    seqFromDer 17 (fromDer (uintBer 4) checkDerInt)
      [0x31, 0x06, 0x02, 0x01, 0x02, 0x02, 0x01, 0x01] = .ok ([], [2, 1]) ∧
    setFromDer btreeNat (fromDer (uintBer 4) checkDerInt)
      [0x31, 0x06, 0x02, 0x01, 0x02, 0x02, 0x01, 0x01] = .ok ([], btreeNat.ofList [1, 2]) ∧
    setFromDer btreeNat (fromDer (uintBer 4) checkDerInt)
      [0x31, 0x06, 0x02, 0x01, 0x01, 0x02, 0x01, 0x02] = .ok ([], btreeNat.ofList [1, 2]) ∧
    setFromDer btreeNat (fromDer (uintBer 4) checkDerInt)
      [0x31, 0x09, 0x02, 0x01, 0x01, 0x02, 0x01, 0x01, 0x02, 0x01, 0x02] =
        .ok ([], btreeNat.ofList [1, 2]) := by
  decide +kernel

/-- **C31** Deviation: a `BTreeSet` yields its elements in the order of the values, which is not the
order of the encodings, even for the elements of one type: `-1` comes before `0` among the integers
and its encoding comes after. -/
theorem C31_btree_order_deviation :
    (listToBer 17 (intToBer 4)).toVec [-1, 0] =
      .ok [0x31, 0x06, 0x02, 0x01, 0xff, 0x02, 0x01, 0x00] := by
  decide +kernel

end Asn1

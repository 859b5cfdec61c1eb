import Verif.Model.ErrorConv
import Verif.Spec.Ber
import Verif.Proofs.Codec
import Verif.Proofs.Back
import Verif.Proofs.Minimal
import Verif.Props.OctetString
/-!
# Errors, header equality, lengths (C47, C48, C49), generic objects (C39, C56)
-/
namespace Asn1
open Spec Wr

theorem ofInner_ofError (e : Error) : Error.ofInner (InnerError.ofError e) = e := by
  cases e <;> rfl

theorem ofError_ofInner (e : InnerError) : InnerError.ofError (Error.ofInner e) = e := by
  cases e <;> rfl

/-- The error is about missing data with the given count, or it is the error kind `e`. -/
def KeepsKind (x : NomErr BerErr) (e : Error) : Prop :=
  match x with
  | .incomplete n => e = .incomplete n
  | .error b => InnerError.ofError e = b.inner
  | .failure b => InnerError.ofError e = b.inner

/-- **C47** Converting between plain, inner and located errors loses nothing: both directions
compose to the identity, located errors keep their location (an error that had none gets an empty input), and flattening a nom error keeps
the needed count or the error kind (whatever the way of flattening). -/
theorem C47_error_conversions :
    (∀ e, Error.ofInner (InnerError.ofError e) = e) ∧
    (∀ e, InnerError.ofError (Error.ofInner e) = e) ∧
    (∀ e, Error.ofBer (BerErr.ofError e) = e ∧ (BerErr.ofError e).input = Input.fromSlice []) ∧
    (∀ i e, Error.ofBer (BerErr.ofPair (i, e)) = e ∧ (BerErr.ofPair (i, e)).input = i) ∧
    (∀ b, BerErr.ofPair (b.input, Error.ofBer b) = b) ∧
    (∀ i b, BerErr.ofLocated (i, b) = b) ∧
    (∀ x, KeepsKind x (Error.ofNomBer x)) ∧
    (∀ x, KeepsKind x (fromNomError Error.ofBer id x)) ∧
    (∀ i x, KeepsKind x (Error.ofBer (fromNomBererror BerErr.ofLocated BerErr.ofError i x))) ∧
    (∀ i (e : Error), Error.ofBer (fromNomBererror BerErr.ofPair BerErr.ofError i (.error e)) = e ∧
      (fromNomBererror BerErr.ofPair BerErr.ofError i (.error e)).input = i) ∧
    (∀ i (e : Error), Error.ofBer (fromNomBererror BerErr.ofPair BerErr.ofError i (.failure e)) = e ∧
      (fromNomBererror BerErr.ofPair BerErr.ofError i (.failure e)).input = i) ∧
    (∀ n, Error.ofNom (.incomplete n) = .incomplete n) ∧
    (∀ e, Error.ofNom (.error e) = e ∧ Error.ofNom (.failure e) = e) := by
  refine ⟨ofInner_ofError, ofError_ofInner, fun e => ⟨ofInner_ofError e, rfl⟩, fun i e => ⟨ofInner_ofError e, rfl⟩,
    fun b => ?_, fun _ _ => rfl, ?_, ?_, ?_, fun _ e => ⟨ofInner_ofError e, rfl⟩,
    fun _ e => ⟨ofInner_ofError e, rfl⟩, fun _ => rfl, fun _ => ⟨rfl, rfl⟩⟩
  · cases b; simp [BerErr.ofPair, Error.ofBer, ofError_ofInner]
  · intro x; cases x <;> simp [KeepsKind, Error.ofNomBer, ofError_ofInner]
  · intro x; cases x <;> simp [KeepsKind, fromNomError, Error.ofBer, ofError_ofInner]
  · intro i x
    cases x <;> simp [KeepsKind, fromNomBererror, Error.ofBer, ofError_ofInner, BerErr.ofLocated,
      BerErr.ofError, ofInner_ofError]

/-- **C47** Consequence: no two errors are confused by a conversion. -/
theorem C47_conversions_injective (a b : Error) (c d : InnerError) :
    (InnerError.ofError a = InnerError.ofError b → a = b) ∧
    (Error.ofInner c = Error.ofInner d → c = d) := by
  constructor
  · intro h; rw [← ofInner_ofError a, h, ofInner_ofError]
  · intro h; rw [← ofError_ofInner c, h, ofError_ofInner]

example : Error.ofInner (.unexpectedTag (some 2) 4) = .unexpectedTag (some 2) 4 := rfl

/-- **C47** An error made by nom keeps its kind, whether it is made as a located error and converted or as a plain
one, and a located one its location; errors of different kinds differ; what nom adds to a located error afterwards
does not change it. -/
theorem C47_nom_kinds (i j : Input) (k l : ErrorKind) (b : BerErr) :
    Error.ofBer (BerErr.fromErrorKind i k) = Error.fromErrorKind j k ∧
    (BerErr.fromErrorKind i k).input = i ∧
    (Error.fromErrorKind i k = Error.fromErrorKind j l → k = l) ∧
    BerErr.append j l b = b :=
  ⟨rfl, rfl, fun h => by injection h, rfl⟩

/-- A case. -/
example : Error.ofBer (BerErr.fromErrorKind (Input.fromSlice [1]) ⟨23⟩) = .nomError ⟨23⟩ := rfl

/-- **C47** Checking a tag or a class succeeds exactly when it is the wanted one, and the error names the wanted one
as expected and the other as found. -/
theorem C47_assertions (t u : Nat) (c d : Class) :
    (tagAssertEq t u = .ok () ↔ t = u) ∧
    (∀ e, tagAssertEq t u = .error e → e = .unexpectedTag (some u) t) ∧
    (c.assertEq d = .ok () ↔ c = d) ∧
    (∀ e, c.assertEq d = .error e → e = .unexpectedClass (some d) c) := by
  unfold tagAssertEq Class.assertEq
  by_cases h : t = u <;> by_cases h2 : c = d <;> simp [h, h2, eq_comm]

/-- A case: an OCTET STRING where an INTEGER is wanted. -/
example : tagAssertEq 4 2 = .error (.unexpectedTag (some 2) 4) := rfl

/-! ### C48 -/

/-- What equality of headers compares: class, tag, flag, and the raw tags when both are known.
Lengths are never compared. -/
theorem headerEq_iff (a b : Header) : Header.eq a b = true ↔
    a.cls = b.cls ∧ a.tag = b.tag ∧ a.constructed = b.constructed ∧
      (∀ x y, a.rawTag = some x → b.rawTag = some y → x = y) := by
  unfold Header.eq
  have h1 : (if a.length.isNull && b.length.isNull then decide (a.length = b.length) else true)
      = true := by
    split
    · rename_i h
      simp [Length.isNull] at h
      rw [h.1, h.2]; simp
    · rfl
  rw [h1]
  simp only [Bool.and_eq_true, decide_eq_true_eq, and_true]
  cases ha : a.rawTag with
  | none => cases hb : b.rawTag <;> simp [and_assoc]
  | some x => cases hb : b.rawTag <;> simp [and_assoc]

/-- **C48** (partial) Header equality is reflexive and symmetric; it is transitive when the
middle header has a raw tag, or none of the three has one; and then equal headers with the same
length and the same raw tag feed the same values to the hasher. Missing: transitivity and
compatibility with hashing in general, which are false (`C48_deviations`). -/
theorem C48_header_equality_partial (a b c : Header) :
    Header.eq a a = true ∧ (Header.eq a b = true → Header.eq b a = true) ∧
    (Header.eq a b = true → Header.eq b c = true →
      (b.rawTag.isSome ∨ a.rawTag = none ∨ c.rawTag = none) → Header.eq a c = true) ∧
    (Header.eq a b = true → a.length = b.length → a.rawTag = b.rawTag →
      a.hashKey = b.hashKey) := by
  simp only [headerEq_iff]
  refine ⟨⟨trivial, trivial, trivial, ?_⟩, ?_, ?_, ?_⟩
  · intro x y h1 h2; rw [h1] at h2; simpa using h2
  · rintro ⟨h1, h2, h3, h4⟩
    exact ⟨h1.symm, h2.symm, h3.symm, fun x y hx hy => (h4 y x hy hx).symm⟩
  · rintro ⟨h1, h2, h3, h4⟩ ⟨g1, g2, g3, g4⟩ hs
    refine ⟨h1.trans g1, h2.trans g2, h3.trans g3, fun x y hx hy => ?_⟩
    rcases hs with hs | hs | hs
    · obtain ⟨z, hz⟩ := Option.isSome_iff_exists.mp hs
      exact (h4 x z hx hz).trans (g4 z y hz hy)
    · rw [hs] at hx; simp at hx
    · rw [hs] at hy; simp at hy
  · rintro ⟨h1, h2, h3, _⟩ hl hr
    simp [Header.hashKey, h1, h2, h3, hl, hr]

/-- Headers of parsed objects have a raw tag: the transitivity of C48 applies to them. -/
theorem parsed_rawTag {i r : Input} {h : Header} (hp : parseHeader i = .ok (r, h)) :
    h.rawTag.isSome = true := by
  obtain ⟨id, len, _, _, _, _, h5, _⟩ := parseHeader_ok.mp hp
  rw [h5]; rfl

/-- **C48** Deviations: equality is not transitive, it ignores lengths, and equal headers may
feed different values to the hasher. -/
theorem C48_deviations :
    (∃ a b c, Header.eq a b = true ∧ Header.eq b c = true ∧ Header.eq a c = false) ∧
    (∃ a b, Header.eq a b = true ∧ a.length ≠ b.length ∧ a.hashKey ≠ b.hashKey) := by
  constructor
  · exact ⟨⟨.universal, false, 2, .definite 1, some [0x02], none⟩,
      ⟨.universal, false, 2, .definite 1, none, none⟩,
      ⟨.universal, false, 2, .definite 1, some [0x1f, 0x02], none⟩, by decide +kernel⟩
  · exact ⟨⟨.universal, false, 2, .definite 1, none, none⟩,
      ⟨.universal, false, 2, .definite 2, none, none⟩, by decide +kernel⟩

/-- **C48** Two headers feed the same values to the hasher exactly when class, constructed flag, tag number, length
and raw tag are the same; then they are equal. -/
theorem C48_header_hash (a b : Header) :
    (a.hashKey = b.hashKey ↔ a.cls = b.cls ∧ a.constructed = b.constructed ∧ a.tag = b.tag ∧
      a.length = b.length ∧ a.rawTag = b.rawTag) ∧
    (a.hashKey = b.hashKey → Header.eq a b = true) := by
  have h : a.hashKey = b.hashKey ↔ a.cls = b.cls ∧ a.constructed = b.constructed ∧ a.tag = b.tag ∧
      a.length = b.length ∧ a.rawTag = b.rawTag := by
    simp [Header.hashKey]
  refine ⟨h, fun he => (headerEq_iff a b).mpr ?_⟩
  obtain ⟨h1, h2, h3, _, h5⟩ := h.mp he
  refine ⟨h1, h3, h2, fun x y hx hy => ?_⟩
  rw [h5, hy] at hx
  injection hx with hx
  exact hx.symm

/-- A case: headers that differ in where they were read. -/
example : Header.hashKey ⟨.universal, false, 2, .definite 1, some [2], some ⟨[2, 1], 0, 2⟩⟩ =
    Header.hashKey ⟨.universal, false, 2, .definite 1, some [2], some ⟨[2, 1], 7, 9⟩⟩ := rfl

/-! ### C49 -/

/-- **C49** Adding lengths: associative, commutative, unit 0, the indefinite length absorbs; the
sum over a list is indefinite exactly when an element is, and is otherwise the sum of the
values; the assigning form agrees. (Sums beyond the range of `usize` are outside the model.) -/
theorem C49_length_arithmetic :
    (∀ a b c : Length, (a.add b).add c = a.add (b.add c)) ∧
    (∀ a b : Length, a.add b = b.add a) ∧
    (∀ a : Length, (Length.definite 0).add a = a) ∧
    (∀ a : Length, a.add .indefinite = .indefinite) ∧
    (∀ a b : Length, a.addAssign b = a.add b) ∧
    (∀ (a : Length) (n : Nat), a.addNat n = a.add (.definite n)) ∧
    (∀ ls : List Length, Length.sum ls = .indefinite ↔ .indefinite ∈ ls) ∧
    (∀ ns : List Nat, Length.sum (ns.map .definite) = .definite ns.sum) := by
  have hassoc : ∀ a b c : Length, (a.add b).add c = a.add (b.add c) := by
    intro a b c
    cases a <;> cases b <;> cases c <;> simp [Length.add]; omega
  have hcomm : ∀ a b : Length, a.add b = b.add a := by
    intro a b; cases a <;> cases b <;> simp [Length.add]; omega
  have hf : ∀ (ls : List Length) (a : Length),
      ls.foldl Length.add a = a.add (Length.sum ls) := by
    intro ls
    induction ls with
    | nil => intro a; cases a <;> simp [Length.sum, Length.add]
    | cons l ls ih =>
      intro a
      have h1 : Length.sum (l :: ls) = ((Length.definite 0).add l).add (Length.sum ls) := ih _
      rw [List.foldl_cons, ih, h1, hassoc]; congr 1
      cases l <;> cases Length.sum ls <;> simp [Length.add]
  refine ⟨hassoc, hcomm, ?_, ?_, ?_, ?_, ?_, ?_⟩
  · intro a; cases a <;> simp [Length.add]
  · intro a; cases a <;> simp [Length.add]
  · intro a b; cases a <;> cases b <;> simp [Length.add, Length.addAssign]
  · intro a n; cases a <;> simp [Length.add, Length.addNat]
  · intro ls
    induction ls with
    | nil => simp [Length.sum]
    | cons l ls ih =>
      rw [Length.sum, List.foldl_cons, hf]
      cases l with
      | indefinite => simp [Length.add]
      | definite n =>
        have : ((Length.definite 0).add (.definite n)).add (Length.sum ls) = .indefinite ↔
            Length.sum ls = .indefinite := by
          cases Length.sum ls <;> simp [Length.add]
        rw [this, ih]; simp
  · intro ns
    induction ns with
    | nil => rfl
    | cons n ns ih =>
      rw [List.map_cons, Length.sum, List.foldl_cons, hf, ih]
      simp [Length.add]

example : Length.sum [.definite 3, .indefinite, .definite 4] = .indefinite := rfl

/-! ### C39 -/

theorem any_encodes (a : Any) (ht : a.header.tag < 2 ^ 32) : Encodes anyToBer a a.data.data :=
  ⟨((writes_writeAll _).bind (f := fun _ => (pure a.data.len : Wr Nat)) (writes_pure _)).congr
    (by simp) rfl, rfl, ht, rfl⟩

theorem parsed_tag {i r : Input} {h : Header} (hp : parseHeader i = .ok (r, h)) :
    h.tag < 2 ^ 32 := by
  obtain ⟨id, len, h1, _⟩ := parseHeader_ok.mp hp
  cases h1 with
  | low _ h _ => omega
  | high _ _ _ _ _ ht => rw [ht]; exact Nat.mod_lt _ (by decide)

/-- **C39** Re-encoding a parsed generic object (BER or DER) succeeds, and parsing the result
gives an object with the same class, flag, tag and content, with a definite length, whatever
follows; if the bytes consumed were the shortest identifier and length octets of X.690 and the
content, the re-encoding is exactly these bytes. -/
theorem C39_any_reencoding (i r : Input) (a : Any)
    (h : parseBerAny i = .ok (r, a) ∨ parseDerAny i = .ok (r, a))
    (hs : a.data.data.length < 2 ^ 64) :
    ∃ bs, anyToBer.toVec a = .ok bs ∧
      (∀ (j : Input) (rest : Bytes), j.data = bs ++ rest →
        ∃ b, parseDerAny j = .ok (after j bs.length, b) ∧
          parseBerAny j = .ok (after j bs.length, b) ∧
          b.header.cls = a.header.cls ∧ b.header.constructed = a.header.constructed ∧
          b.header.tag = a.header.tag ∧ b.header.length = .definite a.data.data.length ∧
          b.data.data = a.data.data) ∧
      (∀ id len, X690Ident a.header.cls a.header.constructed a.header.tag id →
        DerLen a.data.data.length len → i.data = id ++ len ++ a.data.data ++ r.data →
        bs = id ++ len ++ a.data.data) := by
  have hb : parseBerAny i = .ok (r, a) := by
    rcases h with h | h
    · exact h
    · exact C11_der_subset_ber_any _ _ _ h
  obtain ⟨r1, hp, _⟩ := parseBerAny_ok.mp hb
  have ht := parsed_tag hp
  have he := any_encodes a ht
  refine ⟨_, he.toVec hs, ?_, ?_⟩
  · intro j rest hj
    have h1 := parseDerAny_full j _ _ _ a.data.data rest ht hs hj
    refine ⟨_, h1, C11_der_subset_ber_any _ _ _ h1, rfl, rfl, rfl, rfl, ?_⟩
    rw [first_data]
    have := full_content j _ _ _ a.data.data rest hj
    have h2 : (after j (List.length (full (anyToBer.tagInfo a).1 (anyToBer.tagInfo a).2.1
        a.header.tag a.data.data) - a.data.data.length)).data = a.data.data ++ rest := this
    rw [h2]; simp
  · intro id len h1 h2 _
    rw [x690_unique h1 (identOctets_x690 _ _ ht), derLen_unique h2 (lenOctets_der hs)]
    rfl

/-- A non-trivial case: an indefinite-length SEQUENCE is re-encoded with a definite length. -/
example : (parseBerAny (Input.fromSlice [0x30, 0x80, 0x02, 0x01, 0x05, 0x00, 0x00, 0xaa])).map
    (fun x => anyToBer.toVec x.2) = .ok (.ok [0x30, 0x03, 0x02, 0x01, 0x05]) := by decide +kernel

/-! ### C56 -/

/-- **C56** Generic BER parsing accepts exactly the complete elements of the grammar (definite, or
indefinite with at most 49 levels), followed by anything, and the rest is what follows. Generic
DER parsing accepts exactly the definite-length elements. -/
theorem C56_ber_grammar (x : Bytes) :
    (∀ rest, (∃ r a, parseBerAny (Input.fromSlice x) = .ok (r, a) ∧ r.data = rest) ↔
      ∃ e, Elem LaxEoc 49 e ∧ x = e ++ rest) ∧
    (∀ rest, (∃ r a, parseDerAny (Input.fromSlice x) = .ok (r, a) ∧ r.data = rest) ↔
      ∃ e, DefElem e ∧ x = e ++ rest) := by
  constructor
  · intro rest
    constructor
    · rintro ⟨r, a, h, rfl⟩
      obtain ⟨r1, hp, hc⟩ := parseBerAny_ok.mp h
      obtain ⟨id, len, h1, h2, h3, _⟩ := parseHeader_ok.mp hp
      rw [show MAX_RECURSION = 49 + 1 from rfl, berContent_ok] at hc
      cases hl : a.header.length with
      | definite n =>
        rw [hl] at hc h2
        obtain ⟨g1, g2, g3⟩ := hc
        have hlen : (r1.data.take n).length = n := by simp; omega
        refine ⟨id ++ len ++ r1.data.take n, .inl ⟨_, _, _, id, len, _, h1, ?_, rfl⟩, ?_⟩
        · rw [hlen]; exact h2
        · have : x = id ++ len ++ r1.data := h3
          rw [this, g2, after_data]; simp
      | indefinite =>
        rw [hl] at hc h2
        obtain ⟨g1, _, items, eoc, g3, g4, _⟩ := hc
        rw [g1] at h1 h2
        refine ⟨id ++ len ++ items.flatten ++ eoc, .inr ⟨_, _, id, len, items, eoc, h1, h2, g3,
          rfl⟩, ?_⟩
        have : x = id ++ len ++ r1.data := h3
        rw [this, g4]; simp
    · rintro ⟨e, he, rfl⟩
      rcases he with ⟨c, p, t, id, len, content, h1, h2, rfl⟩ |
        ⟨c, t, id, len, items, eoc, h1, h2, h3, rfl⟩
      · obtain ⟨a, g1, _⟩ := parseBerAny_of (i := Input.fromSlice (id ++ len ++ content ++ rest))
          (content := content) (marker := []) (rest := rest) h1 h2 (by simp [Input.fromSlice])
          ⟨rfl, rfl⟩
        refine ⟨_, a, g1, ?_⟩
        rw [after_data]; simp only [Input.fromSlice, List.append_nil]; rw [List.drop_left' rfl]
      · let i := Input.fromSlice (id ++ len ++ items.flatten ++ eoc ++ rest)
        have hi : i.data = id ++ len ++ (items.flatten ++ eoc ++ rest) := by
          simp [i, Input.fromSlice]
        let r1 := after i (id.length + len.length)
        have hr1 : r1.data = items.flatten ++ eoc ++ rest := by
          show List.drop _ i.data = _
          rw [hi, List.drop_left' (by simp)]
        let hdr : Header := ⟨c, true, t, .indefinite, some id,
          some (first i (id.length + len.length))⟩
        have hp : parseHeader i = .ok (r1, hdr) :=
          parseHeader_ok.mpr ⟨id, len, h1, h2, by rw [hr1]; exact hi, rfl, rfl, rfl⟩
        have hr : (after r1 (items.flatten.length + eoc.length)).data = rest := by
          rw [after_data, hr1, List.drop_left' (by simp)]
        have hc : berContent hdr r1 MAX_RECURSION = .ok
            (after r1 (items.flatten.length + eoc.length),
              first r1 (items.flatten.length + eoc.length - 2)) := by
          rw [show MAX_RECURSION = 49 + 1 from rfl, berContent_ok]
          exact ⟨rfl, by omega, items, eoc, h3, by rw [hr]; exact hr1, rfl, rfl⟩
        exact ⟨_, ⟨hdr, _⟩, parseBerAny_ok.mpr ⟨r1, hp, hc⟩, hr⟩
  · intro rest
    constructor
    · rintro ⟨r, a, h, rfl⟩
      obtain ⟨r1, n, hp, hl, hn, hr, hd⟩ := parseDerAny_ok.mp h
      obtain ⟨id, len, h1, h2, h3, _⟩ := parseHeader_ok.mp hp
      rw [hl] at h2
      have hlen : (r1.data.take n).length = n := by simp; omega
      refine ⟨id ++ len ++ r1.data.take n, ⟨_, _, _, id, len, _, h1, ?_, rfl⟩, ?_⟩
      · rw [hlen]; exact h2
      · have : x = id ++ len ++ r1.data := h3
        rw [this, hr, after_data]; simp
    · rintro ⟨e, ⟨c, p, t, id, len, content, h1, h2, rfl⟩, rfl⟩
      let i := Input.fromSlice (id ++ len ++ content ++ rest)
      have hi : i.data = id ++ len ++ (content ++ rest) := by
        simp [i, Input.fromSlice]
      let r1 := after i (id.length + len.length)
      have hr1 : r1.data = content ++ rest := by
        show List.drop _ i.data = _
        rw [hi, List.drop_left' (by simp)]
      let hdr : Header := ⟨c, p, t, .definite content.length, some id,
        some (first i (id.length + len.length))⟩
      have hp : parseHeader i = .ok (r1, hdr) :=
        parseHeader_ok.mpr ⟨id, len, h1, h2, by rw [hr1]; exact hi, rfl, rfl, rfl⟩
      refine ⟨after r1 content.length, ⟨hdr, first r1 content.length⟩,
        parseDerAny_ok.mpr ⟨r1, content.length, hp, rfl, by rw [hr1]; simp, rfl, rfl⟩, ?_⟩
      rw [after_data, hr1, List.drop_left' rfl]

/-- A case of C56: an indefinite SEQUENCE with an INTEGER, then one trailing byte. -/
example : ∃ e, Elem LaxEoc 49 e ∧
    ([0x30, 0x80, 0x02, 0x01, 0x05, 0x00, 0x00, 0xaa] : Bytes) = e ++ [0xaa] :=
  ((C56_ber_grammar _).1 [0xaa]).mp ⟨⟨[0xaa], 7, 8⟩,
    ⟨⟨.universal, true, 16, .indefinite, some [0x30], some ⟨[0x30, 0x80], 0, 2⟩⟩,
      ⟨[0x02, 0x01, 0x05], 2, 5⟩⟩, by decide +kernel, rfl⟩

end Asn1

import Verif.Proofs.Twins
import Verif.Props.Canonical
/-!
# C140: inputs that DER decoding does not tell apart
-/
namespace Asn1
open Spec

variable {β : Type} {pd : Parser β} {T : Nat → Prop} {A : β → Identity → Bytes → Identity → Bytes → Prop}

/-- **C140** Two inputs of any length and at any position, from which `parse_der` returns the same value, for a type
nested in any way: what is consumed differs in no other way than `Twins` says. -/
theorem C140_same_value (h : Twins pd T A) (i i' r r' : Input) (w : β) (hp : pd.parseDer i = .ok (r, w))
    (hp' : pd.parseDer i' = .ok (r', w)) :
    ∃ o o', i.data = o ++ r.data ∧ i'.data = o' ++ r'.data ∧ TwinObject T (A w) o o' :=
  (twins h).parse hp hp'

/-- **C140** For a universal type, but for times, BMPString and REAL: the same value has been read from the same content
octets, and only the identifier and length octets may differ. -/
theorem C140_same_content {α : Type} {c : Codec α} {Ok : α → Prop} (h : CanonLeaf c Ok fun _ => True)
    (i i' r r' : Input) (w : α) (hw : Ok w) (hp : c.der.parseDer i = .ok (r, w))
    (hp' : c.der.parseDer i' = .ok (r', w)) :
    ∃ x x' cs o o', i.data = o ++ r.data ∧ i'.data = o' ++ r'.data ∧ Written x cs o ∧ Written x' cs o' := by
  obtain ⟨o, o', h1, h2, x, cs, x', cs', h3, h4, _, _, h5⟩ := C140_same_value (.universal h) i i' r r' w hp hp'
  obtain rfl := h5 hw trivial trivial
  exact ⟨x, x', cs, o, o', h1, h2, h3, h4⟩

/-- **C140** Two inputs from which equal sets are decoded (`BTreeSet`, or `HashSet` with any order of its members): the
same members, in any order and any number of times. -/
theorem C140_equal_sets {σ : Type} (S : SetImpl β σ) (h : Twins pd T A) (i i' r r' : Input) (s s' : σ)
    (he : S.eqv s s') (hp : (setP S anyDer.parseDer pd).parseDer i = .ok (r, s))
    (hp' : (setP S anyDer.parseDer pd).parseDer i' = .ok (r', s')) :
    ∃ o o', i.data = o ++ r.data ∧ i'.data = o' ++ r'.data ∧ TwinObject (· = 17) (fun x cs x' cs' =>
      x.2.1 = true ∧ x'.2.1 = true ∧ TwinMembers T A cs cs') o o' := by
  obtain ⟨a, x, h1, h2, h3⟩ := parseDer_ok.mp hp
  obtain ⟨a', x', h1', h2', h3'⟩ := parseDer_ok.mp hp'
  obtain ⟨o, e, g⟩ := written_any h1
  obtain ⟨o', e', g'⟩ := written_any h1'
  exact ⟨o, o', e, e', _, _, _, _, g, g', tagIs_iff.mp h2, tagIs_iff.mp h2', set_members S (twins h) he h3 h3'⟩

/-- A case: `{1, 300}` in two orders, once with a member twice. -/
example : Twins (uintC 4).der (LeafTag (uintC 4)) (fun _ _ cs _ cs' => True → True → True → cs = cs') ∧
    (setP btreeNat anyDer.parseDer (uintDer 4)).parseDer (.fromSlice [0x31, 7, 2, 1, 1, 2, 2, 1, 44]) =
      .ok (⟨[], 9, 9⟩, btreeNat.ofList [1, 300]) ∧
    (setP btreeNat anyDer.parseDer (uintDer 4)).parseDer
      (.fromSlice [0x31, 10, 2, 2, 1, 44, 2, 1, 1, 0x42, 1, 1]) = .ok (⟨[], 12, 12⟩, btreeNat.ofList [300, 1, 1]) ∧
    btreeNat.ofList [300, 1, 1] = btreeNat.ofList [1, 300] :=
  ⟨.universal (.uint 4 (by decide)), by decide +kernel, by decide +kernel, by decide +kernel⟩

/-- Every object is read, with whatever follows it, and whatever the form of its identifier and length octets. -/
theorem any_written (i : Input) (x : Identity) (cs o rest : Bytes) (hi : i.data = o ++ rest) (ho : Written x cs o) :
    ∃ r a, parseDerAny i = .ok (r, a) ∧ r.data = rest ∧ says a.header = x ∧ a.data.data = cs := by
  obtain ⟨c, p, t⟩ := x
  obtain ⟨id, len, h1, h2, rfl⟩ := ho
  let r1 := after i (id.length + len.length)
  have e1 : r1.data = cs ++ rest := by
    show i.data.drop (id.length + len.length) = _
    rw [hi, ← List.length_append, List.append_assoc (id ++ len), List.drop_left]
  let hd : Header := ⟨c, p, t, .definite cs.length, some id, some (first i (id.length + len.length))⟩
  have hh : parseHeader i = .ok (r1, hd) :=
    parseHeader_ok.mpr ⟨id, len, h1, h2, by rw [hi, e1, List.append_assoc (id ++ len)], rfl, rfl, rfl⟩
  refine ⟨after r1 cs.length, ⟨hd, first r1 cs.length⟩,
    parseDerAny_ok.mpr ⟨r1, cs.length, hh, rfl, by rw [e1, List.length_append]; omega, rfl, rfl⟩, ?_, rfl, ?_⟩
  · show r1.data.drop cs.length = _
    rw [e1, List.drop_left]
  · show r1.data.take cs.length = _
    rw [e1, List.take_left]

/-- **C140** The differences in identifier and length octets do occur: the same number is decoded from an integer in every
form of them, with any class. -/
theorem C140_integer_forms (N : Nat) (hN : 1 ≤ N) (cs : Bytes) (hm : MinimalInt cs) (hu : InUint N (twos cs))
    (cls : Class) (i : Input) (o rest : Bytes) (hi : i.data = o ++ rest) (ho : Written (cls, false, 2) cs o) :
    ∃ r, (uintDer N).parseDer i = .ok (r, (twos cs).toNat) ∧ r.data = rest := by
  obtain ⟨r, a, h1, h2, h3, h4⟩ := any_written i _ cs o rest hi ho
  have e1 : a.header.constructed = false := congrArg (·.2.1) h3
  have e2 : a.header.tag = 2 := congrArg (·.2.2) h3
  refine ⟨r, parseDer_ok.mpr ⟨a, _, h1, tagIs_iff.mpr e2, (uintDer_content hN).mpr ⟨h4 ▸ hm, e1, h4 ▸ hu, ?_, rfl⟩⟩, h2⟩
  rw [h4]
  exact Int.toNat_of_nonneg hu.1

/-! A case: the struct of C83 and C106, in two forms: with another form of the length, and another class. -/

theorem outer_twins : ∃ A, Twins (structP .der 16 outerDer) (· = 16) A ∧
    ∀ x cs x' cs' a b c, A (a, b, c, ()) x cs x' cs' → x.2.1 = true ∧ x'.2.1 = true ∧
      ∃ o o' rest rest', cs = o ++ rest ∧ cs' = o' ++ rest' ∧
        TwinObject (LeafTag (uintC 4)) (fun _ cs _ cs' => cs = cs') o o' := by
  refine ⟨_, .struct 16 (.required .untagged (.universal (.uint 4 (by decide)))
    (.required _ (.vec (.choice .untagged (.cons _ (.universal (.int 8 (by decide)))
      (.cons _ (.universal .string) (.nil (A := fun y => nomatch y))))))
      (.default .untagged false (.universal .bool) .nil))), ?_⟩
  rintro x cs x' cs' a b c ⟨h1, h2, o, rest, o', rest', h3, h4, ⟨y, ds, y', ds', g1, g2, g3, g4, g5⟩, _⟩
  exact ⟨h1, h2, o, o', rest, rest', h3, h4, y, ds, y', ds', g1, g2, g3, g4, g5 trivial trivial trivial⟩

example : ∃ A o o', outerCanonical = o ∧ outerOther = o' ∧ Twins (structP .der 16 outerDer) (· = 16) A ∧
    TwinObject (· = 16) (A (7, [altNumber, altText], false, ())) o o' := by
  obtain ⟨A, h, _⟩ := outer_twins
  have d1 : (structP .der 16 outerDer).parseDer (.fromSlice outerCanonical) =
    .ok (⟨[], 18, 18⟩, (7, [altNumber, altText], false, ())) := by decide +kernel
  have d2 : (structP .der 16 outerDer).parseDer (.fromSlice outerOther) =
    .ok (⟨[], 20, 20⟩, (7, [altNumber, altText], false, ())) := by decide +kernel
  obtain ⟨o, o', h1, h2, h3⟩ := C140_same_value h _ _ _ _ _ d1 d2
  simp only [List.append_nil] at h1 h2
  exact ⟨A, o, o', h1, h2, h, h3⟩

/-- A case: 300 is read from `[2, 2, 1, 44]`, and from the application class with the tag number and the length in a
long form. -/
example : MinimalInt [1, 44] ∧ InUint 2 (twos [1, 44]) ∧ Written (.universal, false, 2) [1, 44] [2, 2, 1, 44] ∧
    Written (.application, false, 2) [1, 44] [0x5f, 2, 0x82, 0, 2, 1, 44] ∧
    ((uintDer 2).parseDer (.fromSlice [0x5f, 2, 0x82, 0, 2, 1, 44, 5])).map (·.2) = .ok 300 :=
  ⟨by unfold MinimalInt; decide, by unfold InUint; decide +kernel,
    ⟨[2], [2], .low _ (by decide) rfl, .short _ (by decide) rfl, rfl⟩,
    ⟨[0x5f, 2], [0x82, 0, 2], .high _ _ rfl ⟨[], 2, rfl, by simp, by decide⟩ (by decide) rfl,
      .long _ _ rfl (by decide) (by decide) (by decide) rfl, rfl⟩, by decide +kernel⟩

/-- **C140** The other differences do occur, so that two inputs that differ are decoded as the same value: bytes at the
end of a struct, of an EXPLICIT tag and of a tuple; a field with its DEFAULT value written or not; an OID with the tag of
RELATIVE-OID; a time with a fraction written in two ways; a BMPString with an odd number of bytes. -/
theorem C140_deviations :
    ((structP .der 16 outerDer).parseDer (.fromSlice (outerCanonical))).map (·.2.1) =
      ((structP .der 16 outerDer).parseDer (.fromSlice
        [0x30, 18, 2, 1, 7, 0xa0, 8, 0x30, 6, 2, 1, 0xfb, 12, 1, 0x41, 1, 1, 0, 5, 0])).map (·.2.1) ∧
    (((structP .der 16 outerDer).parseDer (.fromSlice [0x30, 7, 2, 1, 7, 0xa0, 2, 0x30, 0])).map (·.2.2.2.1) =
      .ok false ∧
     ((structP .der 16 outerDer).parseDer (.fromSlice [0x30, 10, 2, 1, 7, 0xa0, 2, 0x30, 0, 1, 1, 0])).map
        (·.2.2.2.1) = .ok false) ∧
    (((explicitP .contextSpecific 0 integerDer.parseDer).parseDer (.fromSlice [0xa0, 3, 2, 1, 5])).map (·.2.inner) =
      .ok ⟨[5]⟩ ∧
     ((explicitP .contextSpecific 0 integerDer.parseDer).parseDer (.fromSlice [0xa0, 5, 2, 1, 5, 5, 0])).map
        (·.2.inner) = .ok ⟨[5]⟩) ∧
    ((oidP.parseDer (.fromSlice [6, 2, 0x2a, 3])).map (·.2) = .ok ⟨[0x2a, 3], false⟩ ∧
     (oidP.parseDer (.fromSlice [13, 2, 0x2a, 3])).map (·.2) = .ok ⟨[0x2a, 3], false⟩) ∧
    ((genDer.parseDer (.fromSlice ([0x18, 17] ++ ascii "20021213142923.5Z"))).map (·.2) =
      .ok ⟨2002, 12, 13, 14, 29, 23, some 500, .z⟩ ∧
     (genDer.parseDer (.fromSlice ([0x18, 18] ++ ascii "20021213142923.50Z"))).map (·.2) =
      .ok ⟨2002, 12, 13, 14, 29, 23, some 500, .z⟩) ∧
    ((bmpDer.parseDer (.fromSlice [0x1e, 3, 0, 0x41, 0x42])).map (·.2) = .ok ['A', 'B'] ∧
     (bmpDer.parseDer (.fromSlice [0x1e, 4, 0, 0x41, 0, 0x42])).map (·.2) = .ok ['A', 'B']) ∧
    (((tupleP (.cons integerDer.parseDer .nil)).parseDer (.fromSlice [0x30, 3, 2, 1, 5])).map (·.2.1) = .ok ⟨[5]⟩ ∧
     ((tupleP (.cons integerDer.parseDer .nil)).parseDer (.fromSlice [0x30, 5, 2, 1, 5, 5, 0])).map (·.2.1) =
      .ok ⟨[5]⟩) := by
  decide +kernel

end Asn1

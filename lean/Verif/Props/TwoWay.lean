import Verif.Proofs.TwoWayUpTo
import Verif.Props.BuiltValue
import Verif.Props.Sets
/-!
# What was decoded can be encoded, and decodes to the same value again (C106)
-/
namespace Asn1
open Spec

variable {α β : Type} {m : Rules} {r : Bool} {t : ToBer α} {pb pd : Parser β} {rep : β → α} {Ok : β → Prop}

/-- **C106** (partial) Whatever was decoded, with BER or DER rules, from an input that may be anything, as a value of
a type nested in any way: it can be encoded, and with `parse_ber` and `parse_der` the encoding is decoded as the same
value again, whatever follows it. Missing: the values excluded by `Ok` (for which this is false: `C106_deviations`, C18,
C54), and the types without encoder or with fields of type `Option` (C78). -/
theorem C106_decoded_partial (h : TwoWay m r t pb pd rep Ok) (i rem : Input) (w : β)
    (hp : m.parse (m.pick pb pd) i = .ok (rem, w)) (hw : Ok w) :
    InputBack t pb.parseBer (rep w) w ∧ InputBack t pd.parseDer (rep w) w :=
  C83_roundtrip_partial ((restores h).parse hp hw)

/-- **C106** (partial) Two inputs, decoded with BER or DER rules, have the same value if and only if they are encoded
as the same bytes. Missing: as above. -/
theorem C106_same_bytes_partial {m' : Rules} {Ok' : β → Prop} (h : TwoWay m r t pb pd rep Ok)
    (h' : TwoWay m' r t pb pd rep Ok') (i rem i' rem' : Input) (w w' : β)
    (hp : m.parse (m.pick pb pd) i = .ok (rem, w)) (hp' : m'.parse (m'.pick pb pd) i' = .ok (rem', w'))
    (hw : Ok w) (hw' : Ok' w') : w = w' ↔ t.toVec (rep w) = t.toVec (rep w') := by
  refine ⟨fun e => by rw [e], fun e => ?_⟩
  obtain ⟨⟨b, h1, h2⟩, _⟩ := C106_decoded_partial h i rem w hp hw
  obtain ⟨⟨b', h1', h2'⟩, _⟩ := C106_decoded_partial h' i' rem' w' hp' hw'
  rw [h1, h1'] at e
  injection e with e
  subst e
  have e1 := h2 [] (Input.fromSlice b) (by simp [Input.fromSlice])
  have e2 := h2' [] (Input.fromSlice b) (by simp [Input.fromSlice])
  rw [e1] at e2
  injection e2 with e2
  injection e2

/-- **C106** A decoded set, of any kind (`BTreeSet`, `HashSet`), can be encoded, and what comes back is a set that
is equal to it, whatever the order in which the sets give their members. -/
theorem C106_sets {σ : Type} {t : ToBer α} {pb pd : Parser α} {Ok : α → Prop} (S : SetImpl α σ)
    (h : TwoWay m r t pb pd id Ok) (i rem : Input) (s : σ)
    (hp : m.parse (m.pick (setP S anyBer.parseBer pb) (setP S anyDer.parseDer pd)) i = .ok (rem, s))
    (hw : ∀ w ∈ S.toList s, Ok w) (hs : SmallContent (setToBer S t) s) :
    ∃ s', S.eqv s s' ∧ InputBack (setToBer S t) (setP S anyBer.parseBer pb).parseBer s s' ∧
      InputBack (setToBer S t) (setP S anyDer.parseDer pd).parseDer s s' := by
  refine ⟨S.ofList (S.toList s), (S.eqv_iff _ _).mpr fun x => (S.mem _ x).symm,
    C83_roundtrip_partial (.set S S (values_id (r := r) fun u hu => ?_) hs)⟩
  obtain ⟨a, y, _, _, h3⟩ := rules_parse hp
  obtain ⟨v, h1, rfl⟩ := pick_map (f := S.ofList) h3
  obtain ⟨j, y, h2⟩ := repeats_mem (pick_setItems h1) u ((S.mem v u).mp hu)
  exact (restores h).parse h2 (hw u hu)

/-- A case: a `HashSet<u32>` decoded from an input in which a value stands twice, with redundant bytes. -/
example : ∃ (s : { l : List Nat // l.Nodup }) (rem : Input),
    (setP hashSet anyBer.parseBer (uintBer 4)).parseBer
      (.fromSlice [0x31, 0x80, 2, 1, 5, 2, 2, 0, 5, 2, 1, 7, 0, 0]) = .ok (rem, s) ∧
    TwoWay .ber true (uintToBer 4) (uintBer 4) (uintDer 4) id (SmallContent (uintC 4).enc) ∧
    (∀ w ∈ hashSet.toList s, SmallContent (uintC 4).enc w) ∧ SmallContent (setToBer hashSet (uintToBer 4)) s ∧
    (setToBer hashSet (uintToBer 4)).toVec s = .ok [0x31, 6, 2, 1, 5, 2, 1, 7] := by
  refine ⟨⟨[5, 7], by decide⟩, ⟨[], 14, 14⟩, by decide +kernel, .restorable (.uint 4 (by decide)), ?_,
    ⟨6, by decide +kernel, by decide⟩, by decide +kernel⟩
  intro w hw
  rcases List.mem_cons.mp hw with rfl | hw
  · exact ⟨1, by decide +kernel, by decide⟩
  · rcases List.mem_singleton.mp hw with rfl
    exact ⟨1, by decide +kernel, by decide⟩

/-- **C106** (partial) The same for types in which there are sets with any order of their members (`HashSet`) at any
place: the decoded value can be encoded, and what comes back is equal to it. Missing: as above. -/
theorem C106_equal_partial {eq : β → β → Prop} (h : TwoWayUpTo m r t pb pd rep Ok eq) (i rem : Input) (w : β)
    (hp : m.parse (m.pick pb pd) i = .ok (rem, w)) (hw : Ok w) :
    ∃ w', eq w w' ∧ InputBack t pb.parseBer (rep w) w' ∧ InputBack t pd.parseDer (rep w) w' := by
  obtain ⟨w', h1, h2⟩ := (returns h).parse hp hw
  exact ⟨w', h1, C83_roundtrip_partial h2⟩

/-- **C106** What is called equal above is an equality: it is reflexive, symmetric and transitive. -/
theorem C106_equality {eq : β → β → Prop} (h : TwoWayUpTo m r t pb pd rep Ok eq) : Equivalence eq := equality h

/-- A case: of two `HashSet<u32>`, with the members in another order. -/
example : ∃ s s' : { l : List Nat // l.Nodup }, s ≠ s' ∧ hashSet.eqv s s' ∧
    TwoWayUpTo .ber true (setToBer hashSet (uintToBer 4)) (setP hashSet anyBer.parseBer (uintBer 4))
      (setP hashSet anyDer.parseDer (uintDer 4)) id (fun s => (∀ w ∈ hashSet.toList s, SmallContent (uintC 4).enc w) ∧
        SmallContent (setToBer hashSet (uintToBer 4)) s) hashSet.eqv := by
  refine ⟨⟨[5, 7], by decide⟩, ⟨[7, 5], by decide⟩, by decide, ?_,
    .set hashSet (.restorable (c := uintC 4) (.uint 4 (by decide)))⟩
  rw [hashSet.eqv_iff]
  intro x
  show x ∈ [5, 7] ↔ x ∈ [7, 5]
  simp only [List.mem_cons, List.not_mem_nil, or_false]
  omega

/-- A case: a `Vec<HashSet<u32>>` with two sets, read with BER rules. -/
example : ∃ w', (∃ a b, w' = [a, b] ∧ hashSet.eqv (hashSet.ofList [5, 7]) a ∧ hashSet.eqv (hashSet.ofList [9]) b) ∧
    InputBack (listToBer 16 (setToBer hashSet (uintToBer 4)))
      (vecDer (setP hashSet anyDer.parseDer (uintDer 4))).parseDer [hashSet.ofList [5, 7], hashSet.ofList [9]] w' := by
  have h : TwoWayUpTo .ber true _ (vecBer (setP hashSet anyBer.parseBer (uintBer 4)))
      (vecDer (setP hashSet anyDer.parseDer (uintDer 4))) _ _ _ :=
    .vec (.set hashSet (.restorable (c := uintC 4) (.uint 4 (by decide))))
  have key := C106_equal_partial h
    (.fromSlice [0x30, 0x80, 0x31, 7, 2, 1, 5, 2, 2, 0, 7, 0x31, 3, 2, 1, 9, 0, 0]) ⟨[], 18, 18⟩
    [hashSet.ofList [5, 7], hashSet.ofList [9]] (by decide +kernel)
  suffices hok : _ by
    obtain ⟨w', h1, _, h2⟩ := key hok
    refine ⟨w', ?_, h2⟩
    cases h1 with
    | cons h3 h4 =>
      cases h4 with
      | cons h5 h6 =>
        cases h6
        exact ⟨_, _, rfl, h3, h5⟩
  have hu : ∀ n ∈ [5, 7, 9], SmallContent (uintC 4).enc n := by
    intro n hn
    simp only [List.mem_cons, List.not_mem_nil, or_false] at hn
    rcases hn with rfl | rfl | rfl <;> exact ⟨1, by decide +kernel, by decide⟩
  refine ⟨fun s hs => ?_, ⟨13, by decide +kernel, by decide⟩⟩
  simp only [List.mem_cons, List.not_mem_nil, or_false] at hs
  rcases hs with rfl | rfl
  · refine ⟨fun n hn => hu n ?_, ⟨6, by decide +kernel, by decide⟩⟩
    have : n ∈ [5, 7] := (hashSet.mem _ n).mp hn
    revert this
    simp only [List.mem_cons, List.not_mem_nil, or_false]
    omega
  · refine ⟨fun n hn => hu n ?_, ⟨3, by decide +kernel, by decide⟩⟩
    have : n ∈ [9] := (hashSet.mem _ n).mp hn
    revert this
    simp only [List.mem_cons, List.not_mem_nil, or_false]
    omega

/-! A case: the struct of C83, decoded from an input in which a length is not minimal, the CHOICE values stand in an
object of indefinite length, the text is in segments, and the default field is missing. -/

theorem alt_twoWay : TwoWay m false (choiceToBer .untagged altEnc)
    (choiceP .ber .untagged (altP stringC.ber (intC 8).ber)) (choiceP .der .untagged (altP stringC.der (intC 8).der))
    (Sum.map id (Sum.map id id) : Int ⊕ HSum [Text] → Int ⊕ HSum [Text]) fun y =>
      (Sum.elim (SmallContent (intC 8).enc) (Sum.elim (SmallContent stringC.enc) fun _ => True) :
        Int ⊕ HSum [Text] → Prop) y ∧
      SmallContent (choiceToBer .untagged altEnc)
        ((Sum.map id (Sum.map id id) : Int ⊕ HSum [Text] → Int ⊕ HSum [Text]) y) :=
  .choice .untagged (.cons (by decide) (fun _ => rfl) (.restorable (.int 8 (by decide))) (by simp)
    (fun _ => by decide) (.cons (by decide) (fun _ => rfl) (.restorable .string) (by simp) (fun _ => by decide) .nil))

theorem outer_twoWay : ∃ Ok rep, TwoWay m true (structToBer 16 outerEnc) (structP .ber 16 outerBer)
    (structP .der 16 outerDer) rep Ok ∧
    rep (7, [altNumber, altText], false, ()) = (7, [altNumber, altText], false, ()) ∧
    Ok (7, [altNumber, altText], false, ()) := by
  refine ⟨_, _, .struct 16 (by decide) (.required .untagged trivial (.restorable (.uint 4 (by decide)))
    (by rintro ⟨_, _, h⟩; simp at h) (.required _ (by show 0 < 2 ^ 32; decide) (.vec alt_twoWay)
      (by rintro ⟨_, _, h⟩; simp at h) (.default .untagged false trivial (.restorable .bool)
        (by rintro ⟨_, _, h⟩; simp at h) (.universal .bool ⟨1, rfl, by decide⟩) .nil))), rfl, ?_⟩
  have s1 : SmallContent (intC 8).enc (-5) := ⟨1, by decide +kernel, by decide⟩
  have s2 : SmallContent stringC.enc ['A'] := ⟨1, by decide +kernel, by decide⟩
  have s3 : SmallContent (choiceToBer .untagged altEnc) altNumber := ⟨1, by decide +kernel, by decide⟩
  have s4 : SmallContent (choiceToBer .untagged altEnc) altText := ⟨1, by decide +kernel, by decide⟩
  have s5 : (listToBer 16 (choiceToBer .untagged altEnc)).totalLen [altNumber, altText] = .definite 8 := by
    decide +kernel
  refine ⟨⟨⟨⟨1, by decide +kernel, by decide⟩, by simp⟩, ⟨⟨?_, ⟨6, by decide +kernel, by decide⟩⟩, ?_⟩,
    ⟨⟨1, rfl, by decide⟩, by simp⟩, trivial⟩, by decide +kernel, ⟨16, by decide +kernel, by decide⟩⟩
  · intro w hw
    rcases List.mem_cons.mp hw with rfl | hw
    · exact ⟨s1, s3⟩
    · rcases List.mem_singleton.mp hw with rfl
      exact ⟨s2, s4⟩
  · intro _ n hn
    have e : Length.definite 8 = .definite n := s5.symm.trans hn
    injection e with e
    rw [← e]; decide

/-- The input. -/
def outerInput : Bytes :=
  [0x30, 0x81, 21, 2, 1, 7, 0xa0, 0x80, 0x30, 0x80, 2, 1, 0xfb, 0x2c, 0x80, 4, 1, 0x41, 0, 0, 0, 0, 0, 0]

instance : DecidableEq (HSum [Int, Text]) := inferInstanceAs (DecidableEq (Int ⊕ List Char ⊕ Empty))
instance : DecidableEq (Tup [Nat, List (HSum [Int, Text]), Bool]) :=
  inferInstanceAs (DecidableEq (Nat × List (HSum [Int, Text]) × Bool × Unit))

theorem outer_decoded : (structP .ber 16 outerBer).parseBer (.fromSlice outerInput) =
    .ok (⟨[], 24, 24⟩, (7, [altNumber, altText], false, ())) := by
  decide +kernel

example : InputBack (structToBer 16 outerEnc) (structP .der 16 outerDer).parseDer
    (7, [altNumber, altText], false, ()) (7, [altNumber, altText], false, ()) ∧
    (structToBer 16 outerEnc).toVec (7, [altNumber, altText], false, ()) =
      .ok [0x30, 16, 2, 1, 7, 0xa0, 8, 0x30, 6, 2, 1, 0xfb, 12, 1, 0x41, 1, 1, 0] := by
  obtain ⟨Ok, rep, h1, h2, h3⟩ := outer_twoWay (m := .ber)
  have := (C106_decoded_partial h1 _ _ _ outer_decoded h3).2
  rw [h2] at this
  exact ⟨this, by decide +kernel⟩

/-! ### Where it does not hold -/

/-- **C106** The encoders of times do not look at the zone: a time decoded with an offset is encoded as the same time
of day in UTC, which is another point in time. -/
theorem C106_times_deviation (t : DateTime) (hz : t.tz ≠ .z) (hr : InRange t) :
    (t.year < 100 → t.millisecond = none →
      InputBack utcToBer utcDer.parseDer t { t with tz := .z } ∧ ¬ InputBack utcToBer utcDer.parseDer t t) ∧
    (t.year < 10000 → t.millisecond = none →
      InputBack genToBer genDer.parseDer t { t with tz := .z } ∧ ¬ InputBack genToBer genDer.parseDer t t) := by
  have key : ∀ {e : ToBer DateTime} {f : Input → PRes DateTime},
      InputBack e f t { t with tz := .z } → ¬ InputBack e f t t := by
    rintro e f ⟨b, h1, h2⟩ ⟨b', h3, h4⟩
    rw [h1] at h3
    injection h3 with h3
    subst h3
    have h5 := h2 [] (Input.fromSlice b) (by simp [Input.fromSlice])
    have h6 := h4 [] (Input.fromSlice b) (by simp [Input.fromSlice])
    have h7 := Except.ok.inj (h5.symm.trans h6)
    exact hz (congrArg (fun x : Input × DateTime => x.2.tz) h7).symm
  obtain ⟨y, mo, d, h, mi, s, ms, z⟩ := t
  refine ⟨fun hy hm => ?_, fun hy hm => ?_⟩
  · have hm : ms = none := hm
    subst hm
    have := (C41_utctime_roundtrip _ hy hr).2.1
    exact ⟨this, key this⟩
  · have hm : ms = none := hm
    subst hm
    have := (C42_generalizedtime_roundtrip _ hy hr (by simp)).2.1
    exact ⟨this, key this⟩

/-- A time for this, and what it is read from. -/
example : InRange ⟨2, 12, 13, 14, 29, 23, none, .offset 3 0⟩ ∧
    (utcDer.parseDer (.fromSlice ([0x17, 17] ++ ascii "021213142923+0300"))).map (·.2) =
      .ok ⟨2, 12, 13, 14, 29, 23, none, .offset 3 0⟩ :=
  ⟨⟨by decide, by decide, by decide, by decide, by decide⟩, by decide +kernel⟩

/-- **C106** Deviations. An `Integer` decoded with BER rules keeps redundant bytes, and its encoding is refused by
`parse_der`. The empty BMPString, decoded from a constructed object, is encoded as an object that is refused. A
UniversalString that is not ASCII is encoded with a wrong length. What was decoded as a relative OID is encoded as
an OID. -/
theorem C106_deviations :
    ((integerBer.parseBer (.fromSlice [2, 2, 0, 5])).map (·.2) = .ok ⟨[0, 5]⟩ ∧
      integerToBer.toVec ⟨[0, 5]⟩ = .ok [2, 2, 0, 5] ∧
      (integerDer.parseDer (.fromSlice [2, 2, 0, 5])).isOk = false) ∧
    ((bmpBer.parseBer (.fromSlice [0x3e, 0])).map (·.2) = .ok [] ∧
      bmpToBer.toVec [] = .ok [0x1e, 0] ∧ (bmpBer.parseBer (.fromSlice [0x1e, 0])).isOk = false) ∧
    ((univDer.parseDer (.fromSlice [0x1c, 4, 0, 0, 0, 0xe9])).map (·.2) = .ok ['é'] ∧
      univToBer.toVec ['é'] = .ok [0x1c, 8, 0, 0, 0, 0xe9] ∧
      (univDer.parseDer (.fromSlice [0x1c, 8, 0, 0, 0, 0xe9])).isOk = false) ∧
    ((oidP.parseDer (.fromSlice [13, 2, 8, 3])).map (·.2) = .ok ⟨[8, 3], false⟩ ∧
      oidToBer.toVec ⟨[8, 3], false⟩ = .ok [6, 2, 8, 3]) := by
  decide +kernel

end Asn1

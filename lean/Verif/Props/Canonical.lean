import Verif.Props.Real32
import Verif.Proofs.Canonical
import Verif.Props.TwoWay
/-!
# What was decoded from its canonical form is encoded as the same bytes (C116)
-/
namespace Asn1
open Spec

variable {α β : Type} {t : ToBer α} {pd : Parser β} {rep : β → α} {Ok : β → Prop}
  {F : β → Class × Bool × Nat → Bytes → Prop}

/-- **C116** (partial) What `parse_der` has returned, for any input and a type nested in any way, is encoded, and its
encoding is the bytes that were consumed if and only if these are in the canonical form of `Canon`. Missing: the
values excluded by `Ok` (C18, C54, C45, C46, C73), the fields that are not in `Canon`: OPTIONAL (C78). -/
theorem C116_restored_partial (h : Canon t pd rep Ok F) (i r : Input) (w : β) (hl : i.data.length < 2 ^ 64)
    (hp : pd.parseDer i = .ok (r, w)) (hw : Ok w) :
    ∃ bs, t.toVec (rep w) = .ok bs ∧ OneObject (F w) bs ∧
      ∀ b, i.data = b ++ r.data → (t.toVec (rep w) = .ok b ↔ OneObject (F w) b) := by
  obtain ⟨cs, g1, g2, g3⟩ := (faithful h).parse hl hp hw
  have e := g1.toVec (lt64_of_lt24 g2)
  refine ⟨_, e, g3.form, fun b hb => ⟨fun hv => ?_, fun ho => ?_⟩⟩
  · rw [e] at hv
    rw [← Except.ok.inj hv]
    exact g3.form
  · rw [(g3.same b _ hb ho).1]
    exact e

/-- **C116** (partial) Something in canonical form stands at the start of the input: then it is what `parse_der` has
consumed. -/
theorem C116_consumed_partial (h : Canon t pd rep Ok F) (i r : Input) (w : β) (hl : i.data.length < 2 ^ 64)
    (hp : pd.parseDer i = .ok (r, w)) (hw : Ok w) (b rest : Bytes) (hb : i.data = b ++ rest)
    (ho : OneObject (F w) b) : r.data = rest ∧ t.toVec (rep w) = .ok b := by
  obtain ⟨cs, g1, g2, g3⟩ := (faithful h).parse hl hp hw
  obtain ⟨rfl, e⟩ := g3.same b rest hb ho
  exact ⟨e, g1.toVec (lt64_of_lt24 g2)⟩

/-- **C116** (partial) A value has one canonical form: two inputs in this form, from which the same value was decoded,
are equal in all the bytes consumed. -/
theorem C116_one_form_partial (h : Canon t pd rep Ok F) (i i' r r' : Input) (w : β) (hl : i.data.length < 2 ^ 64)
    (hl' : i'.data.length < 2 ^ 64) (hp : pd.parseDer i = .ok (r, w)) (hp' : pd.parseDer i' = .ok (r', w))
    (hw : Ok w) (b b' : Bytes) (hb : i.data = b ++ r.data) (hb' : i'.data = b' ++ r'.data)
    (ho : OneObject (F w) b) (ho' : OneObject (F w) b') : b = b' := by
  have h1 := (C116_consumed_partial h i r w hl hp hw b _ hb ho).2
  have h2 := (C116_consumed_partial h i' r' w hl' hp' hw b' _ hb' ho').2
  exact Except.ok.inj (h1.symm.trans h2)

/-! A case: the struct of C83 and C106, in the canonical form and in another form. -/

theorem outer_canon : ∃ rep Ok F, Canon (structToBer 16 outerEnc) (structP .der 16 outerDer) rep Ok F ∧
    rep (7, [altNumber, altText], false, ()) = (7, [altNumber, altText], false, ()) ∧
    Ok (7, [altNumber, altText], false, ()) := by
  refine ⟨_, _, _, .struct 16 (by decide) (.required .untagged trivial (.universal (.uint 4 (by decide)))
    (.required _ (by show 0 < 2 ^ 32; decide) (.vec (.choice .untagged (.cons (by decide) (fun _ => rfl)
      (.universal (.int 8 (by decide))) (.cons (by decide) (fun _ => rfl) (.universal .string)
        (.nil (rep := id) (Ok := fun _ => True) (F := fun _ _ _ => True))))))
      (.default .untagged false trivial (.universal .bool)
        ⟨.fromSlice [1, 1, 0], _, by decide, by rfl⟩ .nil))), rfl, ?_⟩
  have s1 : SmallContent (intC 8).enc (-5) := ⟨1, by decide +kernel, by decide⟩
  have s2 : SmallContent stringC.enc ['A'] := ⟨1, by decide +kernel, by decide⟩
  have s3 : SmallContent (choiceToBer .untagged altEnc) altNumber := ⟨1, by decide +kernel, by decide⟩
  have s4 : SmallContent (choiceToBer .untagged altEnc) altText := ⟨1, by decide +kernel, by decide⟩
  have s5 : (listToBer 16 (choiceToBer .untagged altEnc)).totalLen [altNumber, altText] = .definite 8 := by
    decide +kernel
  refine ⟨⟨⟨⟨trivial, 1, by decide +kernel, by decide⟩, by simp⟩, ⟨⟨?_, ⟨6, by decide +kernel, by decide⟩⟩, ?_⟩,
    ⟨⟨trivial, 1, rfl, by decide⟩, by simp⟩, trivial⟩, by decide +kernel, ⟨16, by decide +kernel, by decide⟩⟩
  · intro w hw
    rcases List.mem_cons.mp hw with rfl | hw
    · exact ⟨⟨trivial, s1⟩, s3⟩
    · rcases List.mem_singleton.mp hw with rfl
      exact ⟨⟨trivial, s2⟩, s4⟩
  · intro _ n hn
    have e : Length.definite 8 = .definite n := s5.symm.trans hn
    injection e with e
    rw [← e]; decide

/-- The canonical form. -/
def outerCanonical : Bytes := [0x30, 16, 2, 1, 7, 0xa0, 8, 0x30, 6, 2, 1, 0xfb, 12, 1, 0x41, 1, 1, 0]

/-- Another form: lengths that are not the shortest, an INTEGER of another class, bytes after the object in an EXPLICIT
tag, a DEFAULT value that is left out. -/
def outerOther : Bytes :=
  [0x30, 0x81, 17, 2, 1, 7, 0xa0, 12, 0x30, 0x82, 0, 6, 0x42, 1, 0xfb, 12, 1, 0x41, 5, 0]

example : ∃ F : Tup [Nat, List (HSum [Int, Text]), Bool] → Class × Bool × Nat → Bytes → Prop,
    OneObject (F (7, [altNumber, altText], false, ())) outerCanonical ∧
    ¬ OneObject (F (7, [altNumber, altText], false, ())) outerOther := by
  obtain ⟨rep, Ok, F, h1, h2, h3⟩ := outer_canon
  have d1 : (structP .der 16 outerDer).parseDer (.fromSlice outerCanonical) =
    .ok (⟨[], 18, 18⟩, (7, [altNumber, altText], false, ())) := by decide +kernel
  have d2 : (structP .der 16 outerDer).parseDer (.fromSlice outerOther) =
    .ok (⟨[], 20, 20⟩, (7, [altNumber, altText], false, ())) := by decide +kernel
  have d3 : (structToBer 16 outerEnc).toVec (7, [altNumber, altText], false, ()) = .ok outerCanonical := by
    decide +kernel
  obtain ⟨_, _, _, h4⟩ := C116_restored_partial h1 _ _ _ (by decide +kernel) d1 h3
  obtain ⟨_, _, _, h5⟩ := C116_restored_partial h1 _ _ _ (by decide +kernel) d2 h3
  rw [h2] at h4 h5
  refine ⟨F, (h4 _ (by decide +kernel)).mp d3, fun ho => ?_⟩
  have := d3.symm.trans ((h5 outerOther (by decide +kernel)).mpr ho)
  exact absurd (Except.ok.inj this) (by decide)

/-- A case: a sequence of the REALs `-3 * 2^5` and zero, in the canonical form; with a leading zero octet of the number;
with an exponent of two octets. -/
example : ∃ F : List Real → Class × Bool × Nat → Bytes → Prop,
    OneObject (F [.binary (.fin true 3 0) 2 5 2, .zero]) [0x30, 7, 9, 3, 0xc0, 5, 3, 9, 0] ∧
    ¬ OneObject (F [.binary (.fin true 3 0) 2 5 2, .zero]) [0x30, 8, 9, 4, 0xc0, 5, 0, 3, 9, 0] ∧
    ¬ OneObject (F [.binary (.fin true 3 0) 2 5 2, .zero]) [0x30, 8, 9, 4, 0xc1, 0, 5, 3, 9, 0] := by
  have hc := Canon.vec (.universal (.real noLib))
  have d0 : (listToBer 16 (realC noLib).enc).toVec [.binary (.fin true 3 0) 2 5 2, .zero] =
    .ok [0x30, 7, 9, 3, 0xc0, 5, 3, 9, 0] := by decide +kernel
  have d1 : (vecDer (realC noLib).der).parseDer (.fromSlice [0x30, 7, 9, 3, 0xc0, 5, 3, 9, 0]) =
    .ok (⟨[], 9, 9⟩, [.binary (.fin true 3 0) 2 5 2, .zero]) := by decide +kernel
  have d2 : (vecDer (realC noLib).der).parseDer (.fromSlice [0x30, 8, 9, 4, 0xc0, 5, 0, 3, 9, 0]) =
    .ok (⟨[], 10, 10⟩, [.binary (.fin true 3 0) 2 5 2, .zero]) := by decide +kernel
  have d3 : (vecDer (realC noLib).der).parseDer (.fromSlice [0x30, 8, 9, 4, 0xc1, 0, 5, 3, 9, 0]) =
    .ok (⟨[], 10, 10⟩, [.binary (.fin true 3 0) 2 5 2, .zero]) := by decide +kernel
  have hw : (∀ w ∈ [Real.binary (.fin true 3 0) 2 5 2, .zero], RealValue w ∧ SmallContent (realC noLib).enc w) ∧
      SmallContent (listToBer 16 (realC noLib).enc) ([Real.binary (.fin true 3 0) 2 5 2, .zero].map id) := by
    refine ⟨fun w hw => ?_, ⟨7, by decide +kernel, by decide⟩⟩
    rcases List.mem_cons.mp hw with rfl | hw
    · exact ⟨.binary (by decide) (by decide) (by unfold ExpFits; decide), ⟨3, by decide +kernel, by decide⟩⟩
    · rcases List.mem_singleton.mp hw with rfl
      exact ⟨.zero, ⟨0, by decide +kernel, by decide⟩⟩
  obtain ⟨_, _, _, h4⟩ := C116_restored_partial hc _ _ _ (by decide +kernel) d1 hw
  obtain ⟨_, _, _, h5⟩ := C116_restored_partial hc _ _ _ (by decide +kernel) d2 hw
  obtain ⟨_, _, _, h6⟩ := C116_restored_partial hc _ _ _ (by decide +kernel) d3 hw
  rw [List.map_id] at h4 h5 h6
  refine ⟨fun ws id cs => id = (.universal, true, 16) ∧
    OneEach (fun _ id cs => id = (.universal, false, 9) ∧ CanonReal cs) ws cs,
    (h4 _ (by decide +kernel)).mp d0, fun ho => ?_, fun ho => ?_⟩
  · exact absurd (Except.ok.inj (d0.symm.trans ((h5 _ (by decide +kernel)).mpr ho))) (by decide)
  · exact absurd (Except.ok.inj (d0.symm.trans ((h6 _ (by decide +kernel)).mpr ho))) (by decide)

/-- **C116** (partial) Sets (`BTreeSet`, `HashSet`) of a type nested in any way. `ws` are the components in the order
of the input, which `parse_der` of `SetOf` returns. If the set yields them in this order, and so without
duplicates (for a `BTreeSet`, if they are ascending), it is encoded as the bytes consumed if and only if these are
in the canonical form. -/
theorem C116_sets_partial {σ : Type} (S : SetImpl α σ) {pd : Parser α} {rep : α → α} {Ok : α → Prop}
    {F : α → Class × Bool × Nat → Bytes → Prop} (h : Canon t pd rep Ok F) (hrep : ∀ w, rep w = w)
    (i r : Input) (s : σ) (hl : i.data.length < 2 ^ 64)
    (hp : (setP S anyDer.parseDer pd).parseDer i = .ok (r, s)) :
    ∃ ws, (setOfP anyDer.parseDer pd).parseDer i = .ok (r, ⟨ws⟩) ∧ s = S.ofList ws ∧
      (S.toList s = ws → (∀ w ∈ ws, Ok w) → SmallContent (setToBer S t) s →
        ∀ b, i.data = b ++ r.data → ((setToBer S t).toVec s = .ok b ↔
          OneObject (fun id cs => id = (.universal, true, 17) ∧ OneEach F ws cs) b)) := by
  unfold setP at hp
  obtain ⟨ws, h1, h2⟩ := (map_parseDer (p := setItemsP anyDer.parseDer pd)).mp hp
  have h3 : (setOfP anyDer.parseDer pd).parseDer i = .ok (r, ⟨ws⟩) :=
    (map_parseDer (p := setItemsP anyDer.parseDer pd) (f := SetOf.mk)).mpr ⟨ws, h1, rfl⟩
  refine ⟨ws, h3, h2, fun ho hw hs b hb => ?_⟩
  have e : ws.map rep = ws := by
    rw [show rep = id from funext hrep, List.map_id]
  have hv : (setToBer S t).toVec s = (listToBer 17 t).toVec ws := by
    rw [← ho]; rfl
  have hs' : SmallContent (listToBer 17 t) (ws.map rep) := by
    rw [e, ← ho]; exact hs
  obtain ⟨_, _, _, h4⟩ := C116_restored_partial (Canon.setOf h) i r ⟨ws⟩ hl h3 ⟨hw, hs'⟩
  have h5 := h4 b hb
  simp only [e] at h5
  rw [hv]
  exact h5

/-- A case: the set of 1, 2 and 300 is restored if it is written in ascending order, and not otherwise. -/
example : Canon (uintC 4).enc (uintC 4).der id (fun v => True ∧ SmallContent (uintC 4).enc v)
      (fun _ id _ => id = (.universal, false, 2) ∧ True) ∧
    (setP btreeNat anyDer.parseDer (uintDer 4)).parseDer
      (.fromSlice [0x31, 0x0a, 2, 1, 1, 2, 1, 2, 2, 2, 1, 0x2c]) = .ok (⟨[], 12, 12⟩, btreeNat.ofList [1, 2, 300]) ∧
    btreeNat.toList (btreeNat.ofList [1, 2, 300]) = [1, 2, 300] ∧
    (setToBer btreeNat (uintToBer 4)).toVec (btreeNat.ofList [1, 2, 300]) =
      .ok [0x31, 0x0a, 2, 1, 1, 2, 1, 2, 2, 2, 1, 0x2c] ∧
    (setP btreeNat anyDer.parseDer (uintDer 4)).parseDer
      (.fromSlice [0x31, 0x0a, 2, 2, 1, 0x2c, 2, 1, 1, 2, 1, 2]) =
        .ok (⟨[], 12, 12⟩, btreeNat.ofList [1, 2, 300]) :=
  ⟨.universal (.uint 4 (by decide)), by decide +kernel, by decide +kernel, by decide +kernel, by decide +kernel⟩

/-- `Vec<BTreeSet<u32>>` is one of the types nested in any way. -/
theorem sets_canon : ∃ Ok F, Canon (listToBer 16 (setToBer btreeNat (uintToBer 4)))
    (vecDer (setP btreeNat anyDer.parseDer (uintDer 4))) (List.map id) Ok F ∧
    Ok [btreeNat.ofList [300, 1], btreeNat.ofList []] := by
  refine ⟨_, _, .vec (.set btreeNat (.universal (c := uintC 4) (.uint 4 (by decide))) fun i r w hp hw =>
    (C106_decoded_partial (m := .der) (.restorable (.uint 4 (by decide))) i r w hp hw.2).2), ?_⟩
  have s0 : ∀ v ∈ [1, 300], SmallContent (uintC 4).enc v := by
    intro v hv
    rcases List.mem_cons.mp hv with rfl | hv
    · exact ⟨1, by decide +kernel, by decide⟩
    · rcases List.mem_singleton.mp hv with rfl
      exact ⟨2, by decide +kernel, by decide⟩
  refine ⟨fun s hs => ?_, ⟨11, by decide +kernel, by decide⟩⟩
  rcases List.mem_cons.mp hs with rfl | hs
  · exact ⟨fun v hv => ⟨trivial, s0 v ((btreeNat.mem [300, 1] v).mp hv |> fun h => by simpa [or_comm] using h)⟩, ⟨7, by decide +kernel, by decide⟩⟩
  · rcases List.mem_singleton.mp hs with rfl
    exact ⟨fun v hv => (nomatch hv), ⟨0, by decide +kernel, by decide⟩⟩

/-- A case: the members in the order of the set, and in another order, or twice. -/
example : ∃ F : List _ → Class × Bool × Nat → Bytes → Prop,
    OneObject (F [btreeNat.ofList [300, 1], btreeNat.ofList []])
      [0x30, 11, 0x31, 7, 2, 1, 1, 2, 2, 1, 0x2c, 0x31, 0] ∧
    ¬ OneObject (F [btreeNat.ofList [300, 1], btreeNat.ofList []])
      [0x30, 11, 0x31, 7, 2, 2, 1, 0x2c, 2, 1, 1, 0x31, 0] ∧
    ¬ OneObject (F [btreeNat.ofList [300, 1], btreeNat.ofList []])
      [0x30, 14, 0x31, 10, 2, 1, 1, 2, 1, 1, 2, 2, 1, 0x2c, 0x31, 0] := by
  obtain ⟨Ok, F, h1, h2⟩ := sets_canon
  have d0 : (listToBer 16 (setToBer btreeNat (uintToBer 4))).toVec
    (List.map id [btreeNat.ofList [300, 1], btreeNat.ofList []]) =
      .ok [0x30, 11, 0x31, 7, 2, 1, 1, 2, 2, 1, 0x2c, 0x31, 0] := by decide +kernel
  have d1 : (vecDer (setP btreeNat anyDer.parseDer (uintDer 4))).parseDer
      (.fromSlice [0x30, 11, 0x31, 7, 2, 1, 1, 2, 2, 1, 0x2c, 0x31, 0]) =
    .ok (⟨[], 13, 13⟩, [btreeNat.ofList [300, 1], btreeNat.ofList []]) := by decide +kernel
  have d2 : (vecDer (setP btreeNat anyDer.parseDer (uintDer 4))).parseDer
      (.fromSlice [0x30, 11, 0x31, 7, 2, 2, 1, 0x2c, 2, 1, 1, 0x31, 0]) =
    .ok (⟨[], 13, 13⟩, [btreeNat.ofList [300, 1], btreeNat.ofList []]) := by decide +kernel
  have d3 : (vecDer (setP btreeNat anyDer.parseDer (uintDer 4))).parseDer
      (.fromSlice [0x30, 14, 0x31, 10, 2, 1, 1, 2, 1, 1, 2, 2, 1, 0x2c, 0x31, 0]) =
    .ok (⟨[], 16, 16⟩, [btreeNat.ofList [300, 1], btreeNat.ofList []]) := by decide +kernel
  obtain ⟨_, _, _, h4⟩ := C116_restored_partial h1 _ _ _ (by decide +kernel) d1 h2
  obtain ⟨_, _, _, h5⟩ := C116_restored_partial h1 _ _ _ (by decide +kernel) d2 h2
  obtain ⟨_, _, _, h6⟩ := C116_restored_partial h1 _ _ _ (by decide +kernel) d3 h2
  refine ⟨F, (h4 _ (by decide +kernel)).mp d0, fun ho => ?_, fun ho => ?_⟩
  · have := d0.symm.trans ((h5 _ (by decide +kernel)).mpr ho)
    exact absurd (Except.ok.inj this) (by decide)
  · have := d0.symm.trans ((h6 _ (by decide +kernel)).mpr ho)
    exact absurd (Except.ok.inj this) (by decide)

/-- **C116** Deviations: `parse_der` accepts what is not DER, and the value is then encoded as other bytes. A length that
is not the shortest; another class; a time with an offset, and one with a fraction; a BMPString with an odd number of
bytes; bytes after the object in an EXPLICIT tag. A REAL that is DER, `2^64 - 1`, is decoded and encoded as `-1`. -/
theorem C116_deviations :
    ((integerDer.parseDer (.fromSlice [2, 0x81, 1, 5])).map (·.2) = .ok ⟨[5]⟩ ∧
      integerToBer.toVec ⟨[5]⟩ = .ok [2, 1, 5]) ∧
    ((integerDer.parseDer (.fromSlice [0x42, 1, 5])).map (·.2) = .ok ⟨[5]⟩) ∧
    ((utcDer.parseDer (.fromSlice ([0x17, 17] ++ ascii "021213142923+0300"))).map (·.2) =
      .ok ⟨2, 12, 13, 14, 29, 23, none, .offset 3 0⟩ ∧
      utcToBer.toVec ⟨2, 12, 13, 14, 29, 23, none, .offset 3 0⟩ = .ok ([0x17, 13] ++ ascii "021213142923Z")) ∧
    ((genDer.parseDer (.fromSlice ([0x18, 17] ++ ascii "20021213142923.5Z"))).map (·.2) =
      .ok ⟨2002, 12, 13, 14, 29, 23, some 500, .z⟩ ∧
      genToBer.toVec ⟨2002, 12, 13, 14, 29, 23, some 500, .z⟩ = .ok ([0x18, 19] ++ ascii "20021213142923.500Z")) ∧
    ((bmpDer.parseDer (.fromSlice [0x1e, 3, 0, 0x41, 0x42])).map (·.2) = .ok ['A', 'B'] ∧
      bmpToBer.toVec ['A', 'B'] = .ok [0x1e, 4, 0, 0x41, 0, 0x42]) ∧
    (((explicitP .contextSpecific 0 integerDer.parseDer).parseDer
        (.fromSlice [0xa0, 5, 2, 1, 5, 5, 0])).map (·.2.inner) = .ok ⟨[5]⟩ ∧
      (explicitToBer .contextSpecific 0 (fun _ => 2) integerToBer).toVec ⟨⟨[5]⟩⟩ = .ok [0xa0, 3, 2, 1, 5]) ∧
    (((realP noLib).parseDer (.fromSlice [9, 10, 0x80, 0, 255, 255, 255, 255, 255, 255, 255, 255])).map (·.2) =
      .ok (.binary (.fin true 1 0) 2 0 2) ∧
      (realToBer noLib).toVec (.binary (.fin true 1 0) 2 0 2) = .ok [9, 3, 0xc0, 0, 1]) := by
  decide +kernel

end Asn1

import Verif.Proofs.BuiltValue
import Verif.Props.Built
/-!
# Values of types nested in any way: lengths, round-trip, no encoding is a prefix of another (C83)
-/
namespace Asn1
open Spec

variable {α β : Type} {r : Bool} {t : ToBer α} {pb pd : Parser β} {v : α} {w : β}

/-- **C83** The encoding of a value of a built type is the one object with the announced class, flag and tag
(also for the strict parser of DER objects), and the announced and returned lengths are right. -/
theorem C83_one_object (h : Value r t pb pd v w) :
    LengthsRight t v ∧ ∃ bs, t.toVec v = .ok bs ∧ ∀ (rest : Bytes) (i : Input), i.data = bs ++ rest →
      ∃ a, parseDerAny i = .ok (after i bs.length, a) ∧
        (a.header.cls, a.header.constructed, a.header.tag) = t.tagInfo v := by
  obtain ⟨cs, hs⟩ := sound_value h
  refine ⟨hs.fits.lengths, _, hs.enc.toVec hs.lt64, fun rest i hi => ?_⟩
  obtain ⟨a, _, g2, g3, g4, g5, _⟩ := hs.enc.any hs.lt64 hi
  exact ⟨a, g2, by rw [g3, g4, g5]⟩

/-- **C83** (partial) The encoding of a value of a built type comes back as this value through `parse_ber` and
`parse_der`, whatever follows, and is consumed entirely. Missing: the values excluded by the conditions of
`Value`, for which this is false (C18, C29, C54, C55, C78). -/
theorem C83_roundtrip_partial (h : Value r t pb pd v w) :
    InputBack t pb.parseBer v w ∧ InputBack t pd.parseDer v w := by
  obtain ⟨cs, hs⟩ := sound_value h
  exact hs.back

/-- **C83** (partial) The encodings of two different values of a built type are different, and none is a prefix
of the other. Missing: as above. -/
theorem C83_prefix_free_partial {r' : Bool} {v' : α} {w' : β} (h : Value r t pb pd v w)
    (h' : Value r' t pb pd v' w') (bs bs' : Bytes) (hb : t.toVec v = .ok bs) (hb' : t.toVec v' = .ok bs')
    (hp : bs <+: bs') : w = w' ∧ bs = bs' := by
  obtain ⟨b1, g1, g2⟩ := (C83_roundtrip_partial h).1
  obtain ⟨b2, k1, k2⟩ := (C83_roundtrip_partial h').1
  rw [hb] at g1; injection g1 with g1; subst g1
  rw [hb'] at k1; injection k1 with k1; subst k1
  obtain ⟨d, rfl⟩ := hp
  have e1 := g2 d (Input.fromSlice (bs ++ d)) rfl
  have e2 := k2 [] (Input.fromSlice (bs ++ d)) (by simp [Input.fromSlice])
  rw [e1] at e2
  injection e2 with e2
  injection e2 with e2 e3
  refine ⟨e3, ?_⟩
  have := congrArg (fun x : Input => x.data.length) e2
  simp only [after_data, List.length_drop, Input.fromSlice, List.length_append] at this
  have hd : d = [] := List.length_eq_zero_iff.mp (by omega)
  rw [hd, List.append_nil]

/-! A case: `struct { version: u32, items: [0] EXPLICIT Vec<Alternative>, flag: bool DEFAULT false }` with the
untagged CHOICE `Alternative { Number(i64), Text(String) }`. -/

/-- The encoder of `Alternative`. -/
def altEnc : EncVariants [Int, Text] :=
  .cons 0 (intToBer 8).tagInfo (intToBer 8) (.cons 1 (strToBer 12).tagInfo (strToBer 12) .nil)
/-- Its parsers. -/
def altP (text : Parser Text) (i64 : Parser Int) : Variants [Int, Text] :=
  .cons 0 i64 (.cons 1 text .nil)
/-- The encoder of the struct. -/
def outerEnc : EncFields [Nat, List (HSum [Int, Text]), Bool] :=
  .cons .untagged (uintToBer 4) (.cons (.explicit .contextSpecific 0)
    (listToBer 16 (choiceToBer .untagged altEnc)) (.cons .untagged boolToBer .nil))
/-- Its parsers. -/
def outerP (u32 : Parser Nat) (vec : Parser (List (HSum [Int, Text]))) (bool : Parser Bool) :
    Fields [Nat, List (HSum [Int, Text]), Bool] :=
  .cons (.required .untagged u32) (.cons (.required (.explicit .contextSpecific 0) vec)
    (.cons (.default .untagged bool false) .nil))
@[inherit_doc outerP]
def outerBer : Fields [Nat, List (HSum [Int, Text]), Bool] :=
  outerP (uintC 4).ber (vecBer (choiceP .ber .untagged (altP stringC.ber (intC 8).ber))) boolC.ber
@[inherit_doc outerP]
def outerDer : Fields [Nat, List (HSum [Int, Text]), Bool] :=
  outerP (uintC 4).der (vecDer (choiceP .der .untagged (altP stringC.der (intC 8).der))) boolC.der

/-- The value -5 of `Alternative`. -/
def altNumber : HSum [Int, Text] := (.inl (-5) : Int ⊕ HSum [Text])
/-- The value "A" of `Alternative`. -/
def altText : HSum [Int, Text] := (.inr (.inl ['A'] : Text ⊕ HSum []) : Int ⊕ HSum [Text])

theorem outer_value : Value true (structToBer 16 outerEnc) (structP .ber 16 outerBer) (structP .der 16 outerDer)
    (7, [altNumber, altText], true, ()) (7, [altNumber, altText], true, ()) := by
  refine .struct 16 (by decide) ?_ (by decide +kernel) ⟨16, by decide +kernel, by decide⟩
  refine .required .untagged trivial (.universal (.uint 4 (by decide) (by decide)) ⟨1, by decide +kernel, by decide⟩)
    (by rintro ⟨_, _, h⟩; simp at h) (by simp) ?_
  refine .required _ (by show 0 < 2 ^ 32; decide) (.vec (.cons (.choice .untagged (.here (by decide) rfl
    (.universal (c := intC 8) (.int 8 (by decide) (by unfold InInt; decide)) ⟨1, by decide +kernel, by decide⟩) (by simp))
      ⟨1, by decide +kernel, by decide⟩)
    (.cons (.choice .untagged (.there ?_ ?_ (.here (by decide) rfl
      (.universal (c := stringC) .string ⟨1, by decide +kernel, by decide⟩) (by simp)))
      ⟨1, by decide +kernel, by decide⟩) .nil)) ⟨6, by decide +kernel, by decide⟩)
    (by rintro ⟨_, _, h⟩; simp at h) ?_ ?_
  · show ¬ ((intC 8).ber.acceptTag 12 = true); decide
  · show ¬ ((intC 8).der.acceptTag 12 = true); decide
  · intro _ n hn
    have : (listToBer 16 (choiceToBer .untagged altEnc)).totalLen [altNumber, altText] = .definite 8 := by
      decide +kernel
    rw [this] at hn
    injection hn with hn
    rw [← hn]; decide
  · exact .default .untagged false trivial (.universal (c := boolC) .bool ⟨1, rfl, by decide⟩)
      (by rintro ⟨_, _, h⟩; simp at h) (by simp) .nil

example : (structToBer 16 outerEnc).toVec (7, [altNumber, altText], true, ()) =
    .ok [0x30, 16, 2, 1, 7, 0xa0, 8, 0x30, 6, 2, 1, 0xfb, 12, 1, 0x41, 1, 1, 0xff] ∧
    InputBack (structToBer 16 outerEnc) (structP .der 16 outerDer).parseDer
      (7, [altNumber, altText], true, ()) (7, [altNumber, altText], true, ()) :=
  ⟨by decide +kernel, (C83_roundtrip_partial outer_value).2⟩

end Asn1

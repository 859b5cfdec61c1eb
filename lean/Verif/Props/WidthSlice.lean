import Verif.Proofs.WidthSlice
import Verif.Spec.DeriveSlice
/-!
# Targets whose `usize` has `w` bits: the byte-slice API (C134)
-/
namespace Asn1
open Asn1.Spec

variable {α σ : Type} {w : Nat} {o : Bool}

/-- **C134** `from_ber` and `try_from` of containers, tagged values and derived types without OPTIONAL fields: the same
answer as with 64 bits, or both refuse, the former with `InvalidLength`. -/
theorem C134_from_ber (hw : 8 ≤ w) {f f' : Any → Except SErr α} (h : CompiledTry w false f f') (bytes : Bytes) (a : Any)
    (hi : bytes.length < 2 ^ w) (ha : a.data.data.length < 2 ^ w) :
    SameOrTooLongS (fromBerWith f bytes) (fromBerWithW w f' bytes) ∧ SameOrTooLongS (f a) (f' a) :=
  ⟨alikeS_strict ((sameFrom_fromBerWith hw (compiledTry_same hw h)).same bytes hi),
    alikeS_strict (compiledTry_same hw h a ha)⟩

/-- **C134** The same for `from_der`. -/
theorem C134_from_der (hw : 8 ≤ w) {g g' : Bytes → Except SErr (Bytes × α)} (h : CompiledDer w false g g')
    (bytes : Bytes) (hi : bytes.length < 2 ^ w) : SameOrTooLongS (g bytes) (g' bytes) :=
  alikeS_strict ((compiledDer_same hw h).same bytes hi)

/-- **C134** So both accept the same bytes, with the same values. -/
theorem C134_slices_accept (hw : 8 ≤ w) {f f' : Any → Except SErr α} {g g' : Bytes → Except SErr (Bytes × α)}
    (h : CompiledTry w false f f') (hd : CompiledDer w false g g') (bytes rem : Bytes) (v : α)
    (hi : bytes.length < 2 ^ w) :
    (fromBerWithW w f' bytes = .ok (rem, v) ↔ fromBerWith f bytes = .ok (rem, v)) ∧
    (g' bytes = .ok (rem, v) ↔ g bytes = .ok (rem, v)) := by
  have key : ∀ {x y : Except SErr (Bytes × α)}, SameOrTooLongS x y → (y = .ok (rem, v) ↔ x = .ok (rem, v)) := by
    intro x y hxy
    rcases hxy with h1 | ⟨⟨e, h1⟩, h2⟩
    · rw [h1]
    · rw [h1, h2]
      constructor <;> intro h <;> cases h
  exact ⟨key (alikeS_strict ((sameFrom_fromBerWith hw (compiledTry_same hw h)).same bytes hi)),
    key (C134_from_der hw hd bytes hi)⟩

/-- **C134** (partial) With OPTIONAL fields too, the answer is the same or `InvalidLength`. Missing: that what is accepted
with 64 bits is accepted with `w` bits, which does not hold (`C134_slice_deviation`). -/
theorem C134_slices_partial (hw : 8 ≤ w) {f f' : Any → Except SErr α} {g g' : Bytes → Except SErr (Bytes × α)}
    (h : CompiledTry w o f f') (hd : CompiledDer w o g g') (bytes : Bytes) (hi : bytes.length < 2 ^ w) :
    SameOrRefusedS (fromBerWith f bytes) (fromBerWithW w f' bytes) ∧ SameOrRefusedS (g bytes) (g' bytes) :=
  ⟨alikeS_refused ((sameFrom_fromBerWith hw (compiledTry_same hw h)).same bytes hi),
    alikeS_refused ((compiledDer_same hw hd).same bytes hi)⟩

/-! ### 64 bits -/

theorem anyS_64 : parseBerAnyW 64 = parseBerAny ∧ parseDerAnyW 64 = parseDerAny := by
  have h := C134_64 (α := Any) (Compiled.anyBer (w := 64) (m := .ber) (o := true) rfl)
  have h' := C134_64 (α := Any) (Compiled.anyDer (w := 64) (m := .der) (o := true) rfl)
  exact ⟨h.2.2.1, h'.2.2.1⟩

theorem taggedS_64 (m : Rules) (tag : FieldTag) (ty : SliceType α) : ty.taggedW 64 m tag = ty.tagged m tag := by
  funext i
  unfold SliceType.taggedW SliceType.tagged fromBerWithW fromBerWith explicitFromDerW explicitFromDer implicitFromDerW
    implicitFromDer
  rw [anyS_64.1, anyS_64.2]
  cases tag <;> cases m <;> rfl

theorem optionalS_64 (m : Rules) (tag : FieldTag) (ty : SliceType α) : ty.optionalW 64 m tag = ty.optional m tag := by
  have key : ∀ n, ty.optTaggedW 64 m tag n = ty.optTagged m tag n := by
    intro n
    funext i
    unfold SliceType.optTaggedW SliceType.optTagged
    rw [headerW_64, taggedS_64]
  cases tag with
  | untagged =>
    show optionFrom _ _ _ = optionFrom _ _ _
    rw [headerW_64]
  | explicit cls n => exact key n
  | implicit cls n => exact key n

theorem runS_64 (m : Rules) {Ts : List Type} (fs : SliceFields Ts) : fs.runW 64 m = fs.run m := by
  induction fs with
  | nil => rfl
  | cons f fs ih =>
    have hf : f.parseW 64 m = f.parse m := by
      funext i
      cases f with
      | required tag ty => exact congrFun (taggedS_64 m tag ty) i
      | optional tag ty => exact congrFun (optionalS_64 m tag ty) i
      | default tag ty x =>
        show (ty.optionalW 64 m tag i >>= _) = _
        rw [optionalS_64]
        rfl
    funext i
    show (f.parseW 64 m i >>= fun x => fs.runW 64 m x.1 >>= fun y => .ok (y.1, (x.2, y.2))) = _
    rw [hf, ih]
    rfl

theorem structS_64 {Ts : List Type} (tag : Nat) (fs : SliceFields Ts) :
    structTryFromW 64 tag fs = structTryFrom tag fs ∧ structFromDerW 64 tag fs = structFromDer tag fs := by
  unfold structTryFromW structTryFrom structFromDerW structFromDer
  rw [runS_64, runS_64, anyS_64.2]
  exact ⟨rfl, rfl⟩

theorem fromBerS_64 (f : Any → Except SErr α) : fromBerWithW 64 f = fromBerWith f := by
  unfold fromBerWithW fromBerWith
  rw [anyS_64.1]

/-- **C134** The functions for 64 bits are those of the other modules. -/
theorem C134_slices_64 {f f' : Any → Except SErr α} {g g' : Bytes → Except SErr (Bytes × α)}
    (h : CompiledTry 64 o f f') (hd : CompiledDer 64 o g g') :
    f' = f ∧ fromBerWithW 64 f' = fromBerWith f ∧ g' = g := by
  have hb : ∀ {β : Type} (f : Any → Except SErr β), fromBerWithW 64 f = fromBerWith f := fun f => fromBerS_64 f
  have hplain : ∀ {β : Type} {p p' : Parser β}, Compiled 64 .ber o p p' → p' = p := fun h => (C134_64 h).1
  have key : f' = f := by
    refine CompiledTry.rec (w := 64) (o := o)
      (motive_1 := fun {α} f f' _ => f' = f) (motive_2 := fun {α} g g' _ => g' = g)
      (motive_3 := fun m {α} ty ty' _ => ty' = ty) (motive_4 := fun m {Ts} fs fs' _ => fs' = fs)
      ?_ ?_ ?_ ?_ ?_ ?_ ?_ ?_ ?_ ?_ ?_ ?_ ?_ ?_ ?_ ?_ ?_ ?_ ?_ ?_ ?_ ?_ ?_ ?_ ?_ h
    · intro _ _ _ h; rw [hplain h]
    · rfl
    · intro _ _ _ _ _ ih; rw [ih, hb]
    · intro _ _ _ _ _ _ ih; rw [ih, hb]
    · intro _; rfl
    · intro _ _ _ _ _ _ ih; rw [ih, hb]
    · intro _ _ _ _ _ _ _ ih; rw [ih]
    · intro _ _ _ _ _ ih; rw [ih, (structS_64 _ _).1]
    · intro _ _ _ _ ih; rw [ih]
    · intro _ _ _ _ h; rw [hplain h]; unfold fromDerW fromDer; rw [anyS_64.2]
    · rw [anyS_64.2]
    · intro _ _ _ _ _ ih; rw [ih]; unfold seqFromDerW seqFromDer; rw [anyS_64.2]
    · intro _ _ _ _ _ _ ih; rw [ih]; unfold setFromDerW setFromDer; rw [anyS_64.2]
    · intro _; unfold rawFromDerW rawFromDer; rw [anyS_64.2]
    · intro _ _ _ _ _ _ ih; rw [ih]; unfold explicitFromDerW explicitFromDer; rw [anyS_64.2]
    · intro _ _ _ _ _ _ _ ih; rw [ih]; unfold implicitFromDerW implicitFromDer; rw [anyS_64.2]
    · intro _ _ _ _ _ ih; rw [ih, (structS_64 _ _).2]
    · intro _ _ _ _ _ ih; rw [ih]; unfold aliasFromDerW aliasFromDer; rw [anyS_64.2]
    · unfold aliasAnyFromDerW aliasAnyFromDer; rw [anyS_64.2]
    · intro _ _ _ _ _ _ ih; rw [ih, hb]
    · intro _ _ _ _ _ _ _ _ _ ih ihd; rw [ih, ihd]
    · intro _; rfl
    · intro _ _ _ _ _ _ _ _ _ _ ih iht; rw [ih, iht]
    · intro _ _ _ _ _ _ _ _ _ _ _ ih iht; rw [ih, iht]
    · intro _ _ _ _ _ _ _ _ _ _ _ _ ih iht; rw [ih, iht]
  refine ⟨key, by rw [key, hb], ?_⟩
  refine CompiledDer.rec (w := 64) (o := o)
    (motive_1 := fun {α} f f' _ => f' = f) (motive_2 := fun {α} g g' _ => g' = g)
    (motive_3 := fun m {α} ty ty' _ => ty' = ty) (motive_4 := fun m {Ts} fs fs' _ => fs' = fs)
    ?_ ?_ ?_ ?_ ?_ ?_ ?_ ?_ ?_ ?_ ?_ ?_ ?_ ?_ ?_ ?_ ?_ ?_ ?_ ?_ ?_ ?_ ?_ ?_ ?_ hd
  · intro _ _ _ h; rw [hplain h]
  · rfl
  · intro _ _ _ _ _ ih; rw [ih, hb]
  · intro _ _ _ _ _ _ ih; rw [ih, hb]
  · intro _; rfl
  · intro _ _ _ _ _ _ ih; rw [ih, hb]
  · intro _ _ _ _ _ _ _ ih; rw [ih]
  · intro _ _ _ _ _ ih; rw [ih, (structS_64 _ _).1]
  · intro _ _ _ _ ih; rw [ih]
  · intro _ _ _ _ h; rw [hplain h]; unfold fromDerW fromDer; rw [anyS_64.2]
  · rw [anyS_64.2]
  · intro _ _ _ _ _ ih; rw [ih]; unfold seqFromDerW seqFromDer; rw [anyS_64.2]
  · intro _ _ _ _ _ _ ih; rw [ih]; unfold setFromDerW setFromDer; rw [anyS_64.2]
  · intro _; unfold rawFromDerW rawFromDer; rw [anyS_64.2]
  · intro _ _ _ _ _ _ ih; rw [ih]; unfold explicitFromDerW explicitFromDer; rw [anyS_64.2]
  · intro _ _ _ _ _ _ _ ih; rw [ih]; unfold implicitFromDerW implicitFromDer; rw [anyS_64.2]
  · intro _ _ _ _ _ ih; rw [ih, (structS_64 _ _).2]
  · intro _ _ _ _ _ ih; rw [ih]; unfold aliasFromDerW aliasFromDer; rw [anyS_64.2]
  · unfold aliasAnyFromDerW aliasAnyFromDer; rw [anyS_64.2]
  · intro _ _ _ _ _ _ ih; rw [ih, hb]
  · intro _ _ _ _ _ _ _ _ _ ih ihd; rw [ih, ihd]
  · intro _; rfl
  · intro _ _ _ _ _ _ _ _ _ _ ih iht; rw [ih, iht]
  · intro _ _ _ _ _ _ _ _ _ _ _ ih iht; rw [ih, iht]
  · intro _ _ _ _ _ _ _ _ _ _ _ _ ih iht; rw [ih, iht]

/-- What the type of a field starts with. -/
theorem compiledSlice_start (hw : 8 ≤ w) {m : Rules} {ty ty' : SliceType α} (h : CompiledSlice w o m ty ty') :
    SameFrom w o m ty.from_ ty'.from_ := by
  cases h with
  | ber h => exact sameFrom_fromBerWith hw (compiledTry_same hw h)
  | der _ hd => exact compiledDer_same hw hd

/-- **C134** (deviation) Before an object of another type that announces a length which does not fit `usize`, an
OPTIONAL field is absent with 64 bits and an error with `w`. -/
theorem C134_slice_deviation (hw : 8 ≤ w) {m : Rules} {ty ty' : SliceType α} (h : CompiledSlice w o m ty ty')
    (bytes : Bytes) (r : Input) (hd : Header) (l : Nat) (hb : bytes ≠ [])
    (hh : m.header (Input.fromSlice bytes) = .ok (r, hd)) (hl : hd.length = .definite l) (hbig : 2 ^ w ≤ l)
    (ht : ty.acceptTag hd.tag = false) :
    SliceField.parse m (.optional .untagged ty) bytes = .ok (bytes, none) ∧
    SliceField.parseW w m (.optional .untagged ty') bytes = .error (.error .invalidLength) := by
  have he : bytes.isEmpty = false := by cases bytes with
    | nil => exact absurd rfl hb
    | cons b bs => rfl
  have h0 : parseHeader (Input.fromSlice bytes) = .ok (r, hd) := by
    cases m
    · exact hh
    · exact (parseHeaderDer_ok.mp hh).1
  have h1 : parseHeaderW w (Input.fromSlice bytes) = .error (.error (Input.fromSlice bytes) .invalidLength) := by
    rw [C134_headers hw, h0]
    simp only [hl]
    rw [if_neg (by omega)]
  have h2 : m.headerW w (Input.fromSlice bytes) = .error (.error (Input.fromSlice bytes) .invalidLength) := by
    cases m
    · exact h1
    · show parseHeaderDerW w _ = _
      unfold parseHeaderDerW
      rw [h1]; rfl
  constructor
  · show optionFrom ty.acceptTag m.header ty.from_ bytes = _
    unfold optionFrom wrapBerParser
    rw [he, hh]
    simp only [Bool.false_eq_true, if_false, ht, Bool.not_false, if_true]
  · show optionFrom ty'.acceptTag (m.headerW w) ty'.from_ bytes = _
    unfold optionFrom
    rw [(compiledSlice_start hw h).start bytes ⟨_, h2⟩]
    unfold wrapBerParser
    rw [he, h2]
    rfl

/-- `struct S { a: Vec<u8>, b: [3] EXPLICIT i16 }` with `from_der`. -/
example : CompiledDer 32 false
    (structFromDer 16 (.cons (.required .untagged ⟨seqFromDer 16 (fromDer (uintC 1).ber (uintC 1).check),
        seqTryFrom 16 (fromBerWith (tryFromAny (uintC 1).ber)), 16, tagIs 16⟩)
      (.cons (.required (.explicit .contextSpecific 3) (derSlice (intC 2))) .nil)))
    (structFromDerW 32 16 (.cons (.required .untagged ⟨seqFromDerW 32 16 (fromDerW 32 (uintC 1).ber (uintC 1).check),
        seqTryFrom 16 (fromBerWithW 32 (tryFromAny (uintC 1).ber)), 16, tagIs 16⟩)
      (.cons (.required (.explicit .contextSpecific 3)
        ⟨fromDerW 32 (intC 2).ber (intC 2).check, tryFromAny (intC 2).ber, (intC 2).tag, (intC 2).der.acceptTag⟩) .nil))) :=
  .struct 16 (.required (.der (.list 16 (.plain (.ber (.uint 1) rfl))) (.list 16 (.plain _ (.ber (.uint 1) rfl))))
    (.required (.der (.plain (.ber (.int 2) rfl)) (.plain _ (.ber (.int 2) rfl))) .nil))

/-- A list with an item that announces 2^16 bytes. -/
example :
    (seqFromDer 16 (fromDer octetC.ber octetC.check) [0x30, 6, 4, 0x83, 1, 0, 0, 7]).isOk = false ∧
    (seqFromDerW 16 16 (fromDerW 16 octetC.ber octetC.check) [0x30, 6, 4, 0x83, 1, 0, 0, 7]).isOk = false ∧
    seqFromDerW 16 16 (fromDerW 16 octetC.ber octetC.check) [0x30, 3, 4, 1, 7] = .ok ([], [[7]]) := by
  decide +kernel

/-- `struct S { a: Option<u8> }` of an object that holds the header of an OCTET STRING of 2^32 bytes. -/
example :
    (fromBerWith (structTryFrom 16 (.cons (.optional .untagged (berSlice (uintC 1))) .nil))
      [0x30, 7, 4, 0x85, 1, 0, 0, 0, 0]).isOk = true ∧
    (fromBerWithW 32 (structTryFromW 32 16 (.cons (.optional .untagged
        ⟨fromBerWithW 32 (tryFromAny (uintC 1).ber), tryFromAny (uintC 1).ber, 2, tagIs 2⟩) .nil))
      [0x30, 7, 4, 0x85, 1, 0, 0, 0, 0]).isOk = false := by
  decide +kernel

end Asn1

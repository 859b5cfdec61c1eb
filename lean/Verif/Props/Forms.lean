import Verif.Proofs.FormsFrom
import Verif.Props.Built
/-!
# The form of the lengths makes no difference (C130)
-/
namespace Asn1
open Spec

variable {α : Type}

/-- **C130** `Any::parse_ber` reads two encodings of the same object, which differ in the form of the lengths at
any level (short, long, with leading zeros, indefinite), entirely, as objects with the same class, tag and
constructed bit. The content of a primitive object is the same; that of a constructed one is made of the same
objects. -/
theorem C130_objects {d : Nat} {b b' r r' : Bytes} (h : LikeObject d b b') (hd : d ≤ 49) {i j : Input}
    (hi : i.data = b ++ r) (hj : j.data = b' ++ r') :
    ∃ a a', parseBerAny i = .ok (after i b.length, a) ∧ parseBerAny j = .ok (after j b'.length, a') ∧
      a.header.cls = a'.header.cls ∧ a.header.tag = a'.header.tag ∧
      a.header.constructed = a'.header.constructed ∧
      (a.header.constructed = false → a.data.data = a'.data.data) ∧
      (a.header.constructed = true → LikeObjects d a.data.data a'.data.data) := by
  obtain ⟨a, a', h1, h2, h3, h4, h5, h6⟩ := same_parse h hd hi hj
  refine ⟨a, a', h1, h2, h3, h4, h5, fun hc => ?_, fun hc => ?_⟩
  · rw [if_neg (by simp [hc])] at h6; exact h6.2
  · rw [if_pos hc] at h6; exact h6

theorem forms_sim {p : Parser α} (hp : TreeType p) {d : Nat} {b b' r r' : Bytes} (h : LikeObject d b b')
    (hd : d ≤ 49) {i j : Input} (hi : i.data = b ++ r) (hj : j.data = b' ++ r') {x : Input} {v : α}
    (hv : p.parseBer i = .ok (x, v)) : x = after i b.length ∧ p.parseBer j = .ok (after j b'.length, v) := by
  obtain ⟨a, a', h1, h2, h3⟩ := same_parse h hd hi hj
  obtain ⟨a1, y, h4, h5, h6⟩ := parseBer_ok.mp hv
  rw [h1] at h4
  injection h4 with h4
  injection h4 with h4 h7
  subst h4 h7
  obtain ⟨⟨y', w⟩, h8, h9⟩ := alike_content (tree_type hp).1 (tree_type hp).2 hd h3 (consistent_ber h1)
    (consistent_ber h2) _ h6
  simp only at h9
  subst h9
  exact ⟨rfl, parseBer_ok.mpr ⟨a', y', h2, h3.2.1 ▸ h5, h8⟩⟩

/-- **C130** `parse_ber` of a type gives the same value for two encodings that differ only in the form of the
lengths, at any level: one is accepted if the other one is, whatever follows, and both are consumed entirely.
Missing: the types that hold encoded octets, `BmpString`, `UniversalString`, and untagged OPTIONAL fields that can
be constructed, for which this is false (`C130_deviations`). -/
theorem C130_same_value_partial {p : Parser α} (hp : TreeType p) {d : Nat} {b b' r r' : Bytes}
    (h : LikeObject d b b') (hd : d ≤ 49) {i j : Input} (hi : i.data = b ++ r) (hj : j.data = b' ++ r') (v : α) :
    ((∃ x, p.parseBer i = .ok (x, v)) ↔ ∃ x, p.parseBer j = .ok (x, v)) ∧
    (∀ x, p.parseBer i = .ok (x, v) → x = after i b.length) ∧
    (∀ x, p.parseBer j = .ok (x, v) → x = after j b'.length) := by
  refine ⟨⟨?_, ?_⟩, fun x hx => (forms_sim hp h hd hi hj hx).1,
    fun x hx => (forms_sim hp (likeObject_symm h) hd hj hi hx).1⟩
  · rintro ⟨x, hx⟩
    exact ⟨_, (forms_sim hp h hd hi hj hx).2⟩
  · rintro ⟨x, hx⟩
    exact ⟨_, (forms_sim hp (likeObject_symm h) hd hj hi hx).2⟩

/-- **C130** The same for several objects, such as the content of a SEQUENCE, read one after the other by the
parser of a tuple: they are read with the same values, and what is left are the same objects. -/
theorem C130_same_components_partial {Ts : List Type} {fs : TupFns Ts} (hf : TreeTuple fs) {d : Nat}
    {i j : Input} (h : LikeObjects d i.data j.data) (hd : d ≤ 49) {x : Input} {v : Tup Ts}
    (hv : fs.run i = .ok (x, v)) : ∃ y, fs.run j = .ok (y, v) ∧ LikeObjects d x.data y.data := by
  have key : ∀ {Ts : List Type} {fs : TupFns Ts}, TreeTuple fs → AgreeAll fs := by
    intro Ts fs hf
    induction fs with
    | nil => exact .nil
    | cons f fs ih =>
      cases hf with
      | cons hp ht => exact .cons (tree_type hp).agree (ih ht)
  obtain ⟨⟨y, w⟩, h1, h2, h3⟩ := agree_run (key hf) d i j hd h _ hv
  simp only at h2 h3
  subst h3
  exact ⟨y, h1, h2⟩

/-- **C130** `from_ber`, for the types with `TryFrom<Any>`, lists, sets, tagged values, aliases and structs (also
with untagged OPTIONAL fields). Missing: the types that hold encoded octets, `BmpString` and `UniversalString`. -/
theorem C130_from_ber_partial {f : Any → Except SErr α} (hf : TreeFrom f) {d : Nat} {b b' : Bytes}
    (h : LikeObject d b b') (hd : d ≤ 49) (r r' : Bytes) (v : α) :
    fromBerWith f (b ++ r) = .ok (r, v) ↔ fromBerWith f (b' ++ r') = .ok (r', v) := by
  have key : ∀ {b b' r r' : Bytes}, LikeObject d b b' → fromBerWith f (b ++ r) = .ok (r, v) →
      fromBerWith f (b' ++ r') = .ok (r', v) := by
    intro b b' r r' h hv
    obtain ⟨x, a, h1, h2, h3⟩ := fromBerWith_ok.mp hv
    obtain ⟨a1, a', g1, g2, g3⟩ := same_parse (i := Input.fromSlice (b ++ r)) (j := Input.fromSlice (b' ++ r'))
      h hd rfl rfl
    rw [g1] at h1
    injection h1 with h1
    injection h1 with h1 h5
    subst h1 h5
    exact fromBerWith_ok.mpr ⟨_, a', g2, after_left rfl,
      blind_treeFrom hf d _ _ v hd g3 (consistent_ber g1) (consistent_ber g2) h3⟩
  exact ⟨key h, key (likeObject_symm h)⟩

/-- **C130** What `parse_der` reads as a value, `parse_ber` reads as the same value in every form of the
lengths. -/
theorem C130_der_in_every_form_partial {real : Bool} {pb pd : Parser α} (hb : Built real pb pd)
    (hp : TreeType pb) {d : Nat} {b b' r r' : Bytes} (h : LikeObject d b b') (hd : d ≤ 49) {i j : Input}
    (hi : i.data = b ++ r) (hj : j.data = b' ++ r') {x : Input} {v : α} (hv : pd.parseDer i = .ok (x, v)) :
    pb.parseBer j = .ok (after j b'.length, v) :=
  (forms_sim hp h hd hi hj (C82_der_subset_ber hb i x v hv)).2

/-! A case: the struct of C82, in DER, and with indefinite lengths and long lengths. -/

/-- In DER. -/
def formsDer : Bytes := [0x30, 13, 2, 1, 7, 0xa0, 8, 0x30, 6, 2, 1, 0xfb, 12, 1, 0x41]
/-- With indefinite lengths, and lengths in more octets than needed. -/
def formsBer : Bytes := [0x30, 0x80, 2, 0x81, 1, 7, 0xa0, 0x80, 0x30, 0x82, 0, 8, 2, 1, 0xfb, 12, 0x82, 0, 1, 0x41,
  0, 0, 0, 0]

theorem short_len {p : Bool} (n : Nat) (h : n < 128) : Len p (.definite n) [UInt8.ofNat n] := by
  have e : (UInt8.ofNat n).toNat = n := by rw [UInt8.toNat_ofNat']; omega
  exact .short _ (by omega) (by rw [e])

theorem forms_example : LikeObject 2 formsDer formsBer := by
  have hid : ∀ {c p t} (_ : t < 31), Ident c p t [UInt8.ofNat (identByte c p t)] := by
    intro c p t ht
    refine .low _ ht ?_
    rw [UInt8.toNat_ofNat']
    have : identByte c p t < 256 := by
      unfold identByte; cases c <;> cases p <;> simp [classBits] <;> omega
    omega
  have h1 : LikeObject 0 ([2] ++ [1] ++ [7]) ([2] ++ [0x81, 1] ++ [7]) :=
    .primitive (c := .universal) (tag := 2) (hid (c := .universal) (p := false) (by decide)) (short_len 1 (by decide))
      (.long 0x81 [1] (by decide) (by decide) (by decide) (by decide) rfl) (.inl (by decide))
  have h2 : LikeObject 0 ([2] ++ [1] ++ [0xfb]) ([2] ++ [1] ++ [0xfb]) :=
    .primitive (c := .universal) (tag := 2) (hid (c := .universal) (p := false) (by decide)) (short_len 1 (by decide))
      (short_len 1 (by decide)) (.inl (by decide))
  have h3 : LikeObject 0 ([12] ++ [1] ++ [0x41]) ([12] ++ [0x82, 0, 1] ++ [0x41]) :=
    .primitive (c := .universal) (tag := 12) (hid (c := .universal) (p := false) (by decide))
      (short_len 1 (by decide))
      (.long 0x82 [0, 1] (by decide) (by decide) (by decide) (by decide) rfl) (.inl (by decide))
  have h4 : LikeObject 0 ([0x30] ++ ([6] ++ [2, 1, 0xfb, 12, 1, 0x41]))
      ([0x30] ++ ([0x82, 0, 8] ++ [2, 1, 0xfb, 12, 0x82, 0, 1, 0x41])) :=
    .constructed (c := .universal) (tag := 16) (hid (c := .universal) (p := true) (by decide))
      (.cons h2 (.cons h3 .nil)) (.definite (short_len 6 (by decide)))
      (.definite (.long 0x82 [0, 8] (by decide) (by decide) (by decide) (by decide) rfl)) (.inl (by decide))
      (Nat.le_refl _)
  have h5 : LikeObject 1 ([0xa0] ++ ([8] ++ [0x30, 6, 2, 1, 0xfb, 12, 1, 0x41]))
      ([0xa0] ++ ([0x80] ++ [0x30, 0x82, 0, 8, 2, 1, 0xfb, 12, 0x82, 0, 1, 0x41] ++ [0, 0])) :=
    .constructed (c := .contextSpecific) (tag := 0) (hid (c := .contextSpecific) (p := true) (by decide))
      (.cons h4 .nil) (.definite (short_len 8 (by decide)))
      (.indefinite (.indefinite 0x80 (by decide) rfl rfl)) (.inr (by decide)) (Nat.le_refl _)
  have h6 : LikeObject 2 ([0x30] ++ ([13] ++ [2, 1, 7, 0xa0, 8, 0x30, 6, 2, 1, 0xfb, 12, 1, 0x41]))
      ([0x30] ++ ([0x80] ++ [2, 0x81, 1, 7, 0xa0, 0x80, 0x30, 0x82, 0, 8, 2, 1, 0xfb, 12, 0x82, 0, 1, 0x41, 0, 0] ++
        [0, 0])) :=
    .constructed (c := .universal) (tag := 16) (k := false) (k' := true)
      (hid (c := .universal) (p := true) (by decide))
      (.cons (likeObject_mono (Nat.zero_le _) h1) (.cons h5 .nil)) (.definite (short_len 13 (by decide)))
      (.indefinite (.indefinite 0x80 (by decide) rfl rfl)) (.inl (by decide)) (Nat.le_refl _)
  exact h6

theorem nested_tree : TreeType nestedBer := by
  refine .struct 16 (.required .untagged (.uint 4)
    (.optional (.explicit .contextSpecific 0) (.vec (.choice .untagged ?_)) nofun
      (.default .untagged false .bool (fun _ => ⟨_, .bool⟩) .nil)))
  exact .cons 0 (.int 8) (.cons 1 .string .nil)

example : nestedOutcome (nestedDer.parseDer (Input.fromSlice formsDer)) = ([], 7, true, false) ∧
    nestedOutcome (nestedBer.parseBer (Input.fromSlice (formsBer ++ [0xee]))) = ([0xee], 7, true, false) := by
  decide +kernel

/-- A case for `from_ber`: `struct S { a: Option<Vec<u8>>, b: u8 }` with `#[derive(BerSequence)]`. -/
def formsSlices : SliceFields [Option (List Nat), Nat] :=
  .cons (.optional .untagged ⟨fromBerWith (seqTryFrom 16 (fromBerWith (tryFromAny (uintBer 1)))),
      seqTryFrom 16 (fromBerWith (tryFromAny (uintBer 1))), 16, tagIs 16⟩)
    (.cons (.required .untagged ⟨fromBerWith (tryFromAny (uintBer 1)), tryFromAny (uintBer 1), 2, tagIs 2⟩) .nil)

example : TreeFrom (structTryFrom 16 formsSlices) :=
  .struct 16 (.optional _ (.vec 16 (.simple (.uint 1))) (.required _ (.simple (.uint 1)) .nil))

example : fromBerWith (structTryFrom 16 formsSlices) [0x30, 8, 0x30, 3, 2, 1, 7, 2, 1, 9] =
      .ok ([], (some [7], 9, ())) ∧
    fromBerWith (structTryFrom 16 formsSlices) [0x30, 0x80, 0x30, 0x80, 2, 1, 7, 0, 0, 2, 1, 9, 0, 0, 0xee] =
      .ok ([0xee], (some [7], 9, ())) := ⟨by rfl, by rfl⟩

/-- **C130** Where the form of the lengths makes a difference. The segments of a `BmpString` are taken for
characters, with their length octets. The raw `Sequence` holds the octets. An untagged OPTIONAL field is refused in
the indefinite form. An empty object with the tag `[0]` ends the content in the indefinite form. -/
theorem C130_deviations :
    bmpBer.parseBer (Input.fromSlice [0x3e, 4, 0x1e, 2, 0, 0x41]) = .ok (⟨[], 6, 6⟩, [Char.ofNat 0x1e02, 'A']) ∧
    bmpBer.parseBer (Input.fromSlice [0x3e, 6, 0x1e, 0x82, 0, 2, 0, 0x41]) =
      .ok (⟨[], 8, 8⟩, [Char.ofNat 0x1e82, Char.ofNat 2, 'A']) ∧
    (rawP 16).parseBer (Input.fromSlice [0x30, 3, 5, 0x81, 0]) = .ok (⟨[], 5, 5⟩, ⟨[5, 0x81, 0], false⟩) ∧
    (rawP 16).parseBer (Input.fromSlice [0x30, 2, 5, 0]) = .ok (⟨[], 4, 4⟩, ⟨[5, 0], false⟩) ∧
    (optionParse parseHeader (vecBer (uintBer 1))) (Input.fromSlice [0x30, 3, 2, 1, 7]) =
      .ok (⟨[], 5, 5⟩, some [7]) ∧
    ((optionParse parseHeader (vecBer (uintBer 1)))
      (Input.fromSlice [0x30, 0x80, 2, 1, 7, 0, 0])).isOk = false ∧
    (vecBer (implicitP .contextSpecific 0 octetBer)).parseBer (Input.fromSlice [0x30, 2, 0x80, 0]) =
      .ok (⟨[], 4, 4⟩, [⟨[]⟩]) ∧
    (vecBer (implicitP .contextSpecific 0 octetBer)).parseBer (Input.fromSlice [0x30, 0x80, 0x80, 0, 0, 0]) =
      .ok (⟨[0, 0], 4, 6⟩, []) := by
  refine ⟨?_, ?_, ?_, ?_, ?_, ?_, ?_, ?_⟩ <;> decide +kernel

end Asn1

import Verif.Props.Arrays
/-!
# Indefinite-length SEQUENCE OF (C32)
-/
namespace Asn1
open Spec Wr

variable {α β : Type}

theorem Spec.BerItem.toVec {t : ToBer α} {v : α} {d : Nat} {bs : Bytes} (h : BerItem t v d bs) :
    t.toVec v = .ok bs := by
  unfold ToBer.toVec; rw [h.writes]

theorem Spec.BerItem.ne_nil {t : ToBer α} {v : α} {d : Nat} {bs : Bytes} (h : BerItem t v d bs) :
    bs ≠ [] := by
  have key : ∀ {bs : Bytes}, DefElem bs → bs ≠ [] := by
    rintro _ ⟨c, p, tag, id, len, content, h1, h2, rfl⟩
    cases h1 <;> simp
  cases d with
  | zero => exact key h.elem
  | succ d =>
    rcases h.elem with he | ⟨c, tag, id, len, items, eoc, h1, h2, h3, h4⟩
    · exact key he
    · subst h4; cases h1 <;> simp

theorem encodes_item {t : ToBer α} {v : α} {cs : Bytes} (h : Encodes t v cs)
    (hs : cs.length < 2 ^ 64) (hne : (t.tagInfo v).2.2 ≠ 0 ∨ cs ≠ []) :
    BerItem t v 0 (t.fullOf v cs) := by
  have h1 := identOctets_ident (t.tagInfo v).1 (t.tagInfo v).2.1 h.tag
  have h2 := lenOctets_len (l := .definite cs.length) (p := (t.tagInfo v).2.1)
    (by intro n hn; simp at hn; omega) (by simp)
  refine ⟨h.encode hs, ⟨_, _, _, _, _, cs, h1, h2, rfl⟩, fun he => ?_⟩
  obtain ⟨h3, h4⟩ := (laxEoc_def h1 h2 rfl).mp he
  rcases hne with hne | hne
  · exact hne h4
  · exact hne (List.length_eq_zero_iff.mp h3)

theorem indef_header {t : ToBer α} {vs : List α} :
    Writes ((indefToBer t).writeHeader vs) [0x30, 0x80] 2 := by
  unfold Writes
  show Wr.exec (do
    let n1 ← EncoderKind.constructedIndefinite.writeTagInfo .universal true 16
    let n2 ← writeLength .indefinite
    pure (n1 + n2)) = _
  decide +kernel

theorem indef_writes {t : ToBer α} {vs : List α} {bss : List Bytes}
    (h : Pointwise (fun v bs => Writes (t.encode v) bs bs.length) vs bss) :
    Writes ((indefToBer t).encode vs) ([0x30, 0x80] ++ bss.flatten ++ [0, 0])
      ([0x30, 0x80] ++ bss.flatten ++ [0, 0]).length := by
  have h1 := writeItems_writes h 0
  have h2 : Writes ((indefToBer t).writeContent vs) (bss.flatten ++ [0, 0])
      (bss.flatten.length + 2) :=
    (h1.bind (f := fun sz => Wr.writeAll [0, 0] >>= fun _ => (pure (sz + 2) : Wr Nat))
      ((writes_writeAll [0, 0]).bind (f := fun _ => (pure _ : Wr Nat)) (writes_pure _))).congr
      (by simp) (by simp)
  have := (indef_header (t := t) (vs := vs)).bind
    (f := fun n1 => (indefToBer t).writeContent vs >>= fun n2 => (pure (n1 + n2) : Wr Nat))
    (h2.bind (f := fun n2 => (pure (2 + n2) : Wr Nat)) (writes_pure _))
  exact this.congr (by simp) (by simp; omega)

/-- **C32** The wrapper can be nested: lists of elements, written with an indefinite length, are
elements. -/
theorem C32_nested (t : ToBer α) (vs : List α) (d : Nat) (bss : List Bytes)
    (h : Pointwise (fun v bs => BerItem t v d bs) vs bss) :
    BerItem (indefToBer t) vs (d + 1) ([0x30, 0x80] ++ bss.flatten ++ [0, 0]) := by
  have hid : Ident .universal true 16 [0x30] := .low _ (by decide) (by decide)
  have hlen : Len true .indefinite [0x80] := .indefinite _ (by decide) rfl rfl
  refine ⟨indef_writes (pointwise_imp (fun _ _ h => h.writes) h), .inr ⟨.universal, 16, [0x30],
    [0x80], bss, [0, 0], hid, hlen, ⟨?_, rfl⟩, rfl⟩, ?_⟩
  · induction h with
    | nil => simp
    | cons h _ ih =>
      intro it hit
      rcases List.mem_cons.mp hit with rfl | hit
      · exact ⟨h.elem, h.notEoc⟩
      · exact ih it hit
  · have := laxEoc_indef (x := bss.flatten ++ [0, 0]) hid hlen
    simpa using this

/-- **C32** A list written with the indefinite-length wrapper, whose items are BER elements with at
most 48 indefinite lengths nested in each, is written as `30 80`, the items, `00 00`; it comes back
from the BER decoders of `Vec` and `SequenceOf`, in the same order, if each item does; the DER
decoders of every type refuse it as an indefinite length.
Missing: lists nested deeper than the parser accepts, and `Vec`s of such lists (`C32_depth_deviation`,
`C32_vec_of_indefinite_deviation`). -/
theorem C32_indefinite_roundtrip_partial (t : ToBer α) (vs : List α) (bss : List Bytes)
    (h : Pointwise (fun v bs => BerItem t v 48 bs) vs bss) (ws : List β) :
    (indefToBer t).toVec vs = .ok ([0x30, 0x80] ++ bss.flatten ++ [0, 0]) ∧
    ((indefToBer t).encode vs).exec.2 = .ok ([0x30, 0x80] ++ bss.flatten ++ [0, 0]).length ∧
    (∀ p : Parser β, Pointwise (InputBack t p.parseBer) vs ws →
      InputBack (indefToBer t) (vecBer p).parseBer vs ws ∧
      InputBack (indefToBer t) (sequenceOfP anyBer.parseBer p).parseBer vs ⟨ws⟩) ∧
    (∀ g : Bytes → Except SErr (Bytes × β), Pointwise (BytesBack t g) vs ws →
      BytesBack (indefToBer t) (fromBerWith (seqTryFrom 16 g)) vs ws) ∧
    (∀ (i : Input) (rest : Bytes), i.data = [0x30, 0x80] ++ bss.flatten ++ [0, 0] ++ rest →
      parseDerAny i = .error (.error i (.derConstraintFailed .indefiniteLength)) ∧
      (∀ p : Parser β, p.parseDer i = .error (.error i (.derConstraintFailed .indefiniteLength))) ∧
      ∀ (p : Parser β) check, fromDer p check i.data =
        .error (.error (.derConstraintFailed .indefiniteLength))) := by
  have hw := indef_writes (pointwise_imp (fun _ _ h => h.writes) h)
  have hv : (indefToBer t).toVec vs = .ok ([0x30, 0x80] ++ bss.flatten ++ [0, 0]) := by
    unfold ToBer.toVec; unfold Writes at hw; rw [hw]
  have hne : Pointwise (fun v bs => t.toVec v = .ok bs ∧ bs ≠ []) vs bss :=
    pointwise_imp (fun _ _ h => ⟨h.toVec, h.ne_nil⟩) h
  have hmem : ∀ it ∈ bss, Elem StrictEoc 48 it ∧ ¬ LaxEoc it := by
    clear hne hv hw
    induction h with
    | nil => simp
    | cons h _ ih =>
      intro it hit
      rcases List.mem_cons.mp hit with rfl | hit
      · exact ⟨h.elem, h.notEoc⟩
      · exact ih it hit
  have hid : Ident .universal true 16 [0x30] := .low _ (by decide) (by decide)
  have hlen : Len true .indefinite [0x80] := .indefinite _ (by decide) rfl rfl
  have hany : ∀ (i : Input) (rest : Bytes), i.data = [0x30, 0x80] ++ bss.flatten ++ [0, 0] ++ rest →
      ∃ a, parseBerAny i = .ok (after i ([0x30, 0x80] ++ bss.flatten ++ [0, 0]).length, a) ∧
        a.data.data = bss.flatten ∧ a.header.tag = 16 ∧ a.header.constructed = true := by
    intro i rest hi
    obtain ⟨r, a, g1, g2, g3, g4, g5, g6⟩ := C04_marker_partial i .universal 16 [0x30] [0x80] rest
      bss hid hlen hmem (by simpa using hi)
    obtain ⟨e, _, e1, e2, _⟩ := parseBerAny_local g1
    have hl : e.length = ([0x30, 0x80] ++ bss.flatten ++ [0, 0]).length := by
      rw [hi, g2] at e1
      have := congrArg List.length e1
      simp only [List.length_append] at this ⊢
      omega
    refine ⟨a, by rw [← hl, ← e2]; exact g1, g3, g5, ?_⟩
    obtain ⟨r1, h1, _⟩ := parseBerAny_ok.mp g1
    rw [parseHeader_3080 i (bss.flatten ++ [0, 0] ++ rest) (by simpa using hi)] at h1
    injection h1 with h1
    injection h1 with _ h1
    rw [← h1]
  refine ⟨hv, by unfold Writes at hw; rw [hw], fun p hb => ⟨⟨_, hv, fun rest i hi => ?_⟩,
    ⟨_, hv, fun rest i hi => ?_⟩⟩, fun g hb => ⟨_, hv, fun rest => ?_⟩, fun i rest hi => ?_⟩
  · obtain ⟨a, g1, g2, g3, g4⟩ := hany i rest hi
    exact parseBer_ok.mpr ⟨a, _, g1, tagIs_iff.mpr g3,
      vecBer_content.mpr ⟨g4, repeats_back hne hb a.data g2⟩⟩
  · obtain ⟨a, g1, g2, g3, g4⟩ := hany i rest hi
    exact parseBer_ok.mpr ⟨a, _, g1, tagIs_iff.mpr g3,
      bind_eq_ok.mpr ⟨(_, ws), vecBer_content.mpr ⟨g4, repeats_back hne hb a.data g2⟩, rfl⟩⟩
  · obtain ⟨a, g1, g2, g3, g4⟩ := hany (Input.fromSlice _) rest rfl
    obtain ⟨h4, h5⟩ := repeatsB_back hne hb
    refine fromBerWith_ok.mpr ⟨_, a, g1, ?_, seqTryFrom_ok.mpr ⟨g3, g4, ?_⟩⟩
    · rw [after_data]; exact List.drop_left' rfl
    · rw [g2]; exact collect_ok_of h4 (by omega)
  · have hp := parseHeader_3080 i (bss.flatten ++ [0, 0] ++ rest) (by simpa using hi)
    obtain ⟨k1, k2⟩ := (C10_der_definite i).2 _ _ hp rfl
    refine ⟨k1, fun p => ?_, fun p check => ?_⟩
    · unfold Parser.parseDer; rw [k2]; rfl
    · have hp := parseHeader_3080 (Input.fromSlice i.data) (bss.flatten ++ [0, 0] ++ rest)
        (by simpa [Input.fromSlice] using hi)
      have k1 := ((C10_der_definite (Input.fromSlice i.data)).2 _ _ hp rfl).1
      unfold fromDer wrapBerParser
      rw [k1]; rfl

/-- A case: two booleans. -/
example : (indefToBer boolToBer).toVec [true, false] = .ok [0x30, 0x80, 1, 1, 0xff, 1, 1, 0, 0, 0] ∧
    (vecBer boolBer).parseBer (Input.fromSlice [0x30, 0x80, 1, 1, 0xff, 1, 1, 0, 0, 0, 9]) =
      .ok (⟨[9], 10, 11⟩, [true, false]) := by decide +kernel

/-- The items can be values of a universal type. -/
theorem C32_universal_items {c : Codec α} {v : α} (h : UniversalValue c v) (n : Nat)
    (hn : c.enc.contentLen v = .definite n) (hlt : n < 2 ^ 64) :
    ∃ bs, BerItem c.enc v 48 bs ∧ InputBack c.enc c.ber.parseBer v v ∧
      BytesBack c.enc (fromBer c.ber) v v := by
  obtain ⟨cs, hw, hl, ht⟩ := universal_works h
  rw [hl] at hn; injection hn with hn; subst hn
  have hb := hw.back hlt
  have hi := encodes_item hw.enc hlt (.inl (by
    rw [hw.tag]
    cases h
    case text hk _ _ =>
      have := hk.tag_eq; have := hk.tag_lt.2; simp only [strC]; omega
    all_goals exact Nat.succ_ne_zero _))
  exact ⟨_, ⟨hi.writes, elem_mono (Nat.zero_le 48) hi.elem, hi.notEoc⟩, hb.1, hb.2.2.1⟩

/-- **C32** Lists of values of a universal type come back from the indefinite-length wrapper.
Missing: as above. -/
theorem C32_indefinite_universal_partial (c : Codec α) (vs : List α) (hu : ∀ v ∈ vs, UniversalValue c v)
    (hs : ∀ v ∈ vs, ∃ n, c.enc.contentLen v = .definite n ∧ n < 2 ^ 64) :
    InputBack (indefToBer c.enc) (vecBer c.ber).parseBer vs vs ∧
    BytesBack (indefToBer c.enc) (fromBerWith (seqTryFrom 16 (fromBer c.ber))) vs vs ∧
    ∃ bs, (indefToBer c.enc).toVec vs = .ok bs ∧ ∀ rest,
      parseDerAny (Input.fromSlice (bs ++ rest)) =
        .error (.error (Input.fromSlice (bs ++ rest)) (.derConstraintFailed .indefiniteLength)) := by
  have hb : ∀ v ∈ vs, ∃ bs, BerItem c.enc v 48 bs ∧ InputBack c.enc c.ber.parseBer v v ∧
      BytesBack c.enc (fromBer c.ber) v v := fun v hv =>
    have ⟨n, hn, hlt⟩ := hs v hv
    C32_universal_items (hu v hv) n hn hlt
  obtain ⟨bss, hp⟩ := pointwise_exists fun v hv =>
    have ⟨bs, h, _⟩ := hb v hv; (⟨bs, h⟩ : ∃ bs, BerItem c.enc v 48 bs)
  obtain ⟨h1, h2, h3, h4, h5⟩ := C32_indefinite_roundtrip_partial c.enc vs bss hp vs
  exact ⟨(h3 _ (pointwise_diag fun v hv => (hb v hv).choose_spec.2.1)).1,
    h4 _ (pointwise_diag fun v hv => (hb v hv).choose_spec.2.2),
    _, h1, fun rest => (h5 _ rest rfl).1⟩

/-- A case: `IndefiniteVec` of `IndefiniteVec` of booleans. -/
example : (indefToBer (indefToBer boolToBer)).toVec [[true, false], []] =
      .ok [0x30, 0x80, 0x30, 0x80, 0x01, 0x01, 0xff, 0x01, 0x01, 0x00, 0x00, 0x00,
        0x30, 0x80, 0x00, 0x00, 0x00, 0x00] ∧
    fromBerWith (seqTryFrom 16 (fromBerWith (seqTryFrom 16 (fromBer boolBer))))
      [0x30, 0x80, 0x30, 0x80, 0x01, 0x01, 0xff, 0x01, 0x01, 0x00, 0x00, 0x00,
        0x30, 0x80, 0x00, 0x00, 0x00, 0x00] = .ok ([], [[true, false], []]) ∧
    ∃ bs, BerItem boolToBer true 48 bs := by
  refine ⟨by decide +kernel, by decide +kernel, ?_⟩
  obtain ⟨bs, h, _⟩ := C32_universal_items (c := boolC) (v := true) .bool 1 (by decide) (by decide)
  exact ⟨bs, h⟩

theorem lengthItems_indef {t : ToBer α} {v : α} (h : t.totalLen v = .indefinite) (vs : List α) :
    t.lengthItems (v :: vs) = .indefinite := by
  unfold ToBer.lengthItems
  rw [List.map_cons, Length.sum, List.foldl_cons, h]
  show List.foldl Length.add .indefinite _ = _
  generalize vs.map t.totalLen = ls
  induction ls with
  | nil => rfl
  | cons _ _ ih => simpa [Length.add] using ih

/-- **C32** Deviation: a `Vec` (definite-length wrapper) of `IndefiniteVec`s is written, without an
error, as an indefinite-length SEQUENCE without its end-of-contents octets, for every non-empty list
of lists; the BER decoders ask for more or fail. -/
theorem C32_vec_of_indefinite_deviation (t : ToBer α) (v : List α) (vs : List (List α))
    (bss : List Bytes) (h : Pointwise (fun v bs => BerItem (indefToBer t) v 48 bs) (v :: vs) bss) :
    (listToBer 16 (indefToBer t)).toVec (v :: vs) = .ok ([0x30, 0x80] ++ bss.flatten) ∧
    ∀ x, parseBerAny (Input.fromSlice ([0x30, 0x80] ++ bss.flatten)) ≠ .ok x := by
  constructor
  · have hh : Writes ((listToBer 16 (indefToBer t)).writeHeader (v :: vs)) [0x30, 0x80] 2 := by
      unfold ToBer.writeHeader
      have : (listToBer 16 (indefToBer t)).contentLen (v :: vs) = .indefinite :=
        lengthItems_indef rfl vs
      rw [this]
      unfold Writes
      show Wr.exec (do
        let n1 ← EncoderKind.constructed.writeTagInfo .universal true 16
        let n2 ← writeLength .indefinite
        pure (n1 + n2)) = _
      decide +kernel
    have h1 := writeItems_writes (pointwise_imp (fun _ _ h => h.writes) h) 0
    have := hh.bind
      (f := fun n1 => (indefToBer t).writeItems (v :: vs) 0 >>= fun n2 => (pure (n1 + n2) : Wr Nat))
      (h1.bind (f := fun n2 => (pure (2 + n2) : Wr Nat)) (writes_pure _))
    unfold ToBer.toVec
    unfold Writes at this
    rw [show ((listToBer 16 (indefToBer t)).encode (v :: vs)).exec = _ from this]
    simp
  · have hid : Ident .universal true 16 [0x30] := .low _ (by decide) (by decide)
    have hlen : Len true .indefinite [0x80] := .indefinite _ (by decide) rfl rfl
    have hmem : ∀ it ∈ bss, Elem StrictEoc 48 it ∧ ¬ LaxEoc it := by
      generalize v :: vs = l at h
      induction h with
      | nil => simp
      | cons h _ ih =>
        intro it hit
        rcases List.mem_cons.mp hit with rfl | hit
        · exact ⟨h.elem, h.notEoc⟩
        · exact ih it hit
    obtain ⟨r, a, g1, g2, _⟩ := C04_marker_partial
      (Input.fromSlice ([0x30, 0x80] ++ bss.flatten ++ [0, 0])) .universal 16 [0x30] [0x80] []
      bss hid hlen hmem (by simp [Input.fromSlice])
    exact (C07_no_truncation ([0x30, 0x80] ++ bss.flatten) [0, 0] (by simp) r a).1 g1 g2

/-- A case of the deviation. -/
example : (listToBer 16 (indefToBer boolToBer)).toVec [[true]] =
      .ok [0x30, 0x80, 0x30, 0x80, 0x01, 0x01, 0xff, 0x00, 0x00] ∧
    fromBerWith (seqTryFrom 16 (fromBerWith (seqTryFrom 16 (fromBer boolBer))))
      [0x30, 0x80, 0x30, 0x80, 0x01, 0x01, 0xff, 0x00, 0x00] = .error (.incomplete 1) := by
  decide +kernel

/-- `IndefiniteVec<... <IndefiniteVec<bool>>>`, with `k + 1` wrappers. -/
def NestTy : Nat → Type
  | 0 => List Bool
  | k + 1 => List (NestTy k)
/-- Its encoder. -/
def nestEnc : (k : Nat) → ToBer (NestTy k)
  | 0 => indefToBer boolToBer
  | k + 1 => indefToBer (nestEnc k)
/-- The parser of the `Vec`s. -/
def nestDec : (k : Nat) → Parser (NestTy k)
  | 0 => vecBer boolBer
  | k + 1 => vecBer (nestDec k)
/-- The empty list in `k` lists. -/
def nestVal : (k : Nat) → NestTy k
  | 0 => ([] : List Bool)
  | k + 1 => [nestVal k]

theorem nest_item (k : Nat) : BerItem (nestEnc k) (nestVal k) (k + 1) (nest (k + 1)) := by
  induction k with
  | zero => exact C32_nested boolToBer [] 0 [] .nil
  | succ k ih =>
    have := C32_nested (nestEnc k) [nestVal k] (k + 1) [nest (k + 1)] (.cons ih .nil)
    have e : [nest (k + 1)].flatten = nest (k + 1) := by simp
    rw [e] at this
    exact this

/-- **C32** Deviation: 49 wrappers nested around nothing come back, 50 or more do not (the BER
decoder gives up with `BerMaxDepth`), although the encoder writes them. -/
theorem C32_depth_deviation (k : Nat) :
    (k + 1 < 50 → InputBack (nestEnc k) (nestDec k).parseBer (nestVal k) (nestVal k)) ∧
    (50 ≤ k + 1 → ∃ bs, (nestEnc k).toVec (nestVal k) = .ok bs ∧ ∀ rest (i : Input),
      i.data = bs ++ rest → ∃ j, (nestDec k).parseBer i = .error (.error j .berMaxDepth)) := by
  constructor
  · intro hk
    induction k with
    | zero =>
      exact ((C32_indefinite_roundtrip_partial boolToBer [] [] .nil []).2.2.1 boolBer .nil).1
    | succ k ih =>
      have hi := nest_item k
      exact ((C32_indefinite_roundtrip_partial (nestEnc k) [nestVal k] [nest (k + 1)]
        (.cons ⟨hi.writes, elem_mono (by omega) hi.elem, hi.notEoc⟩ .nil) [nestVal k]).2.2.1
          (nestDec k) (.cons (ih (by omega)) .nil)).1
  · intro hk
    refine ⟨_, (nest_item k).toVec, fun rest i hi => ?_⟩
    have hb : ∃ j, parseBerAny i = .error (.error j .berMaxDepth) := by
      have := C09_nesting_limit k i rest hi
      rw [if_neg (by omega)] at this
      exact this
    obtain ⟨j, hj⟩ := hb
    have hp := parseHeader_3080 i (nest k ++ [0, 0] ++ rest) (by rw [hi]; simp [nest])
    refine ⟨j, ?_⟩
    have hacc : (nestDec k).acceptTag 16 = true := by cases k <;> rfl
    unfold Parser.parseBer
    unfold parseBerAny at hj
    rw [hp] at hj ⊢
    simp only [bind_ok, hacc, Bool.not_true, Bool.false_eq_true, if_false] at hj ⊢
    generalize berContent _ _ _ = x at hj ⊢
    cases x with
    | ok x => simp [Bind.bind, Except.bind] at hj
    | error e =>
      injection hj with hj
      rw [hj]; rfl

end Asn1

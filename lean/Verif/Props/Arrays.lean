import Verif.Props.Sets
/-!
# Arrays and tuples (C33, C34)
-/
namespace Asn1
open Spec Wr

variable {α β : Type}

/-! ### Arrays -/

theorem arrayP_content {N : Nat} {parse : Input → PRes Any} {p : Parser α} {h : Header}
    {i e : Input} {v : Arr α N} :
    (arrayP N parse p).content h i = .ok (e, v) ↔ (vecP parse p).content h i = .ok (e, v.val) := by
  show ((vecP parse p).content h i >>= fun x => _) = _ ↔ _
  rw [bind_eq_ok]
  constructor
  · rintro ⟨⟨r, l⟩, h1, h2⟩
    simp only at h2
    split at h2
    · simp at h2
      obtain ⟨rfl, rfl⟩ := h2
      exact h1
    · simp [nomErr] at h2
  · intro h1
    refine ⟨(e, v.val), h1, ?_⟩
    simp only
    rw [dif_pos v.property]

/-- **C33** (partial) An array of `N` values encodes with the right lengths and comes back, from the
parsers of `[T; N]`, with the values of its elements in order. Missing: items with `2^24` content bytes
or more, for which the code is wrong (`C33_large_deviation`). -/
theorem C33_array_roundtrip_partial (N : Nat) (t : ToBer α) (v : Arr α N) (h : ListFits t v.val)
    (w : Arr β N) :
    LengthsRight (arrayToBer N t) v ∧
    (∀ p : Parser β, Pointwise (InputBack t p.parseBer) v.val w.val →
      InputBack (arrayToBer N t) (arrayP N anyBer.parseBer p).parseBer v w) ∧
    (∀ p : Parser β, Pointwise (InputBack t p.parseDer) v.val w.val →
      InputBack (arrayToBer N t) (arrayP N anyDer.parseDer p).parseDer v w) := by
  obtain ⟨bss, h1, h2, h3⟩ := list_items h
  have he : Encodes (arrayToBer N t) v bss.flatten := by
    have := list_encodes (tag := 16) (by decide) h1
    exact ⟨this.content, this.len, by show 16 < 2 ^ 32; decide, rfl⟩
  refine ⟨he.lengths h3, fun p hb => ?_, fun p hb => ?_⟩
  · exact (he.back (p := arrayP N anyBer.parseBer p) (w := w) h3 rfl fun a g1 g2 g3 g4 g5 =>
      ⟨_, arrayP_content.mpr (vecBer_content.mpr ⟨g2, repeats_back h2 hb a.data g5⟩)⟩).1
  · exact (he.back (p := arrayP N anyDer.parseDer p) (w := w) h3 rfl fun a g1 g2 g3 g4 g5 =>
      ⟨_, arrayP_content.mpr (vecDer_content.mpr ⟨g2, repeats_back h2 hb a.data g5⟩)⟩).2.1

/-- A case: `[u16; 2]`. -/
example : ListFits (uintToBer 2) [1, 300] ∧
    Pointwise (InputBack (uintToBer 2) (uintBer 2).parseBer) [1, 300] [1, 300] := by
  have hu : ∀ v ∈ [1, 300], UniversalValue (uintC 2) v := by
    intro v hv; simp at hv; rcases hv with rfl | rfl <;> exact .uint 2 (by omega) (by decide)
  have hs : ∀ v ∈ [1, 300], SmallContent (uintC 2).enc v := by
    intro v hv; simp at hv
    rcases hv with rfl | rfl
    · exact ⟨1, by decide, by decide⟩
    · exact ⟨2, by decide, by decide⟩
  have hb : ∀ v ∈ [1, 300], InputBack (uintToBer 2) (uintBer 2).parseBer v v := by
    intro v hv
    obtain ⟨cs, hw, hl, -⟩ := universal_works (hu v hv)
    obtain ⟨n, hn, hlt⟩ := hs v hv
    rw [hl] at hn; injection hn with hn
    exact (hw.back (by omega)).1
  refine ⟨⟨fun v hv => Works.fits (hu v hv) (hs v hv), fun n hn => ?_⟩,
    .cons (hb _ (by simp)) (.cons (hb _ (by simp)) .nil)⟩
  have : (listToBer 16 (uintToBer 2)).contentLen [1, 300] = .definite 7 := by decide +kernel
  rw [this] at hn; injection hn; omega

/-- The content of an object decides what the typed parser answers. -/
theorem parseBer_err_any {p : Parser α} {i r : Input} {a : Any} (h : parseBerAny i = .ok (r, a))
    (hacc : p.acceptTag a.header.tag = true) {j : Input} {e : InnerError}
    (hc : p.content a.header a.data = .error (.error j e)) :
    p.parseBer i = .error (.error j e) := by
  obtain ⟨r1, h1, h2⟩ := parseBerAny_ok.mp h
  unfold Parser.parseBer
  rw [h1]
  simp only [bind_ok]
  rw [if_neg (by simp [hacc]), h2]
  simp only [bind_ok, hc, bind_err]

theorem parseDer_err_any {p : Parser α} {i r : Input} {a : Any} (h : parseDerAny i = .ok (r, a))
    (hacc : p.acceptTag a.header.tag = true) {j : Input} {e : InnerError}
    (hc : p.content a.header a.data = .error (.error j e)) :
    p.parseDer i = .error (.error j e) := by
  obtain ⟨r1, n, h1, h2, h3, h4, h5⟩ := parseDerAny_ok.mp h
  have hh : parseHeaderDer i = .ok (r1, a.header) := by
    unfold parseHeaderDer
    rw [h1]; simp [h2, Length.isDefinite]
  unfold Parser.parseDer
  rw [hh]
  simp only [bind_ok, h2, definiteInner]
  rw [if_neg (by simp [hacc]), takeS_eq, if_pos h3]
  simp only [bind_ok]
  rw [← h5, hc]; rfl

/-- **C33** What the parsers of `[T; N]` accept: exactly the SEQUENCE OF that `Vec<T>` accepts with
`N` elements; if there are more or fewer, the answer is an `InvalidLength` error at the content. -/
theorem C33_array_size (N : Nat) (p : Parser α) (i : Input) :
    (∀ r (v : Arr α N), (arrayP N anyBer.parseBer p).parseBer i = .ok (r, v) ↔
      (vecBer p).parseBer i = .ok (r, v.val)) ∧
    (∀ r (v : Arr α N), (arrayP N anyDer.parseDer p).parseDer i = .ok (r, v) ↔
      (vecDer p).parseDer i = .ok (r, v.val)) ∧
    (∀ r vs, (vecBer p).parseBer i = .ok (r, vs) → vs.length ≠ N →
      ∃ a, parseBerAny i = .ok (r, a) ∧
        (arrayP N anyBer.parseBer p).parseBer i = .error (.error a.data .invalidLength)) ∧
    (∀ r vs, (vecDer p).parseDer i = .ok (r, vs) → vs.length ≠ N →
      ∃ a, parseDerAny i = .ok (r, a) ∧
        (arrayP N anyDer.parseDer p).parseDer i = .error (.error a.data .invalidLength)) := by
  refine ⟨fun r v => ?_, fun r v => ?_, fun r vs h hne => ?_, fun r vs h hne => ?_⟩
  · rw [parseBer_ok, parseBer_ok]
    constructor
    · rintro ⟨a, x, h1, h2, h3⟩; exact ⟨a, x, h1, h2, arrayP_content.mp h3⟩
    · rintro ⟨a, x, h1, h2, h3⟩; exact ⟨a, x, h1, h2, arrayP_content.mpr h3⟩
  · rw [parseDer_ok, parseDer_ok]
    constructor
    · rintro ⟨a, x, h1, h2, h3⟩; exact ⟨a, x, h1, h2, arrayP_content.mp h3⟩
    · rintro ⟨a, x, h1, h2, h3⟩; exact ⟨a, x, h1, h2, arrayP_content.mpr h3⟩
  · obtain ⟨a, x, h1, h2, h3⟩ := parseBer_ok.mp h
    refine ⟨a, h1, parseBer_err_any (p := arrayP N anyBer.parseBer p) h1 h2 ?_⟩
    show ((vecBer p).content a.header a.data >>= fun x => _) = _
    rw [h3]
    simp only [bind_ok, dif_neg hne]; rfl
  · obtain ⟨a, x, h1, h2, h3⟩ := parseDer_ok.mp h
    refine ⟨a, h1, parseDer_err_any (p := arrayP N anyDer.parseDer p) h1 h2 ?_⟩
    show ((vecDer p).content a.header a.data >>= fun x => _) = _
    rw [h3]
    simp only [bind_ok, dif_neg hne]; rfl

/-- Cases: two integers into `[u32; 2]`, and into `[u32; 3]`; none into `[u32; 0]`. -/
example : (arrayP 2 anyDer.parseDer (uintDer 4)).parseDer
      (Input.fromSlice [0x30, 0x06, 0x02, 0x01, 0x05, 0x02, 0x01, 0x07]) =
        .ok (after (Input.fromSlice [0x30, 0x06, 0x02, 0x01, 0x05, 0x02, 0x01, 0x07]) 8,
          ⟨[5, 7], rfl⟩) ∧
    (arrayP 3 anyDer.parseDer (uintDer 4)).parseDer
      (Input.fromSlice [0x30, 0x06, 0x02, 0x01, 0x05, 0x02, 0x01, 0x07]) =
        .error (.error ⟨[0x02, 0x01, 0x05, 0x02, 0x01, 0x07], 2, 8⟩ .invalidLength) ∧
    (arrayP 0 anyBer.parseBer (uintBer 4)).parseBer (Input.fromSlice [0x30, 0x00]) =
        .ok (after (Input.fromSlice [0x30, 0x00]) 2, ⟨[], rfl⟩) ∧
    (vecDer (uintDer 4)).parseDer
      (Input.fromSlice [0x30, 0x06, 0x02, 0x01, 0x05, 0x02, 0x01, 0x07]) =
        .ok (after (Input.fromSlice [0x30, 0x06, 0x02, 0x01, 0x05, 0x02, 0x01, 0x07]) 8,
          [5, 7]) := by decide +kernel

/-! ### Tuples -/

theorem run_ok {Ts : List Type} {fs : TupFns Ts} {i e : Input} {v : Tup Ts} :
    fs.run i = .ok (e, v) ↔ InOrder fs i v e := by
  induction fs generalizing i with
  | nil =>
    constructor
    · intro h
      simp only [TupFns.run, Except.ok.injEq] at h
      obtain ⟨rfl, rfl⟩ := h
      exact .nil
    · intro h
      cases h
      rfl
  | cons f fs ih =>
    unfold TupFns.run
    rw [bind_eq_ok]
    constructor
    · rintro ⟨⟨r, x⟩, h1, h2⟩
      obtain ⟨⟨e', xs⟩, h4, h3⟩ := bind_eq_ok.mp h2
      simp only [pure, Except.pure, Except.ok.injEq] at h3
      obtain ⟨rfl, rfl⟩ := h3
      exact .cons h1 (ih.mp h4)
    · intro h
      cases h with
      | cons h ht =>
        rename_i r x xs
        exact ⟨(r, x), h, bind_eq_ok.mpr ⟨(e, xs), ih.mpr ht, rfl⟩⟩

/-- **C34** Exactly what the parsers of a tuple accept: an object with the tag of SEQUENCE, whose
content starts with the components, read one after the other, each from where the previous one
ended. What is left in the content is ignored, and so is the constructed flag. -/
theorem C34_tuple_accepts {Ts : List Type} (fs : TupFns Ts) (i r : Input) (v : Tup Ts) :
    ((tupleP fs).parseBer i = .ok (r, v) ↔ ∃ a e, parseBerAny i = .ok (r, a) ∧
      a.header.tag = 16 ∧ InOrder fs a.data v e) ∧
    ((tupleP fs).parseDer i = .ok (r, v) ↔ ∃ a e, parseDerAny i = .ok (r, a) ∧
      a.header.tag = 16 ∧ InOrder fs a.data v e) := by
  constructor
  · rw [parseBer_ok]
    constructor
    · rintro ⟨a, e, h1, h2, h3⟩; exact ⟨a, e, h1, tagIs_iff.mp h2, run_ok.mp h3⟩
    · rintro ⟨a, e, h1, h2, h3⟩; exact ⟨a, e, h1, tagIs_iff.mpr h2, run_ok.mpr h3⟩
  · rw [parseDer_ok]
    constructor
    · rintro ⟨a, e, h1, h2, h3⟩; exact ⟨a, e, h1, tagIs_iff.mp h2, run_ok.mp h3⟩
    · rintro ⟨a, e, h1, h2, h3⟩; exact ⟨a, e, h1, tagIs_iff.mpr h2, run_ok.mpr h3⟩

theorem components_inOrder {Ts : List Type} {fs : TupFns Ts} {v : Tup Ts} {bs : Bytes}
    (h : Components fs v bs) (junk : Bytes) (i : Input) (hi : i.data = bs ++ junk) :
    InOrder fs i v (after i bs.length) := by
  induction h generalizing i with
  | nil =>
    rw [show after i ([] : Bytes).length = i from after_zero i]
    exact .nil
  | cons t u henc h _ ih =>
    rename_i bs cs _
    obtain ⟨bs', h1, h2⟩ := h
    rw [henc] at h1; injection h1 with h1; subst h1
    refine .cons (h2 (cs ++ junk) i (by simpa using hi)) ?_
    have := ih (after i bs.length) (by
      rw [after_data, hi, List.append_assoc, List.drop_left' rfl])
    rw [after_after] at this
    simpa using this

theorem raw_encodes {tag : Nat} (htag : tag < 2 ^ 32) (s : RawSeq) :
    Encodes (rawToBer tag) s s.content := by
  refine ⟨?_, rfl, htag, rfl⟩
  exact ((writes_writeAll s.content).bind (f := fun _ => (pure s.content.length : Wr Nat))
    (writes_pure _)).congr (by simp) rfl

/-- **C34** The encodings of the components, one after the other in a SEQUENCE, decode to the tuple
of the values; so they do if anything follows the last component (for `junk = []` this is the
round-trip). -/
theorem C34_tuple_roundtrip {Ts : List Type} (fs : TupFns Ts) (v : Tup Ts) (bs junk : Bytes)
    (h : Components fs v bs) (hs : (bs ++ junk).length < 2 ^ 64) (o : Bool) :
    InputBack (rawToBer 16) (tupleP fs).parseBer ⟨bs ++ junk, o⟩ v ∧
    InputBack (rawToBer 16) (tupleP fs).parseDer ⟨bs ++ junk, o⟩ v := by
  have := (raw_encodes (tag := 16) (by decide) ⟨bs ++ junk, o⟩).back (p := tupleP fs) (w := v) hs
    rfl fun a g1 g2 g3 g4 g5 => ⟨_, run_ok.mpr (components_inOrder h junk a.data g5)⟩
  exact ⟨this.1, this.2.1⟩

/-- The parsers of `(u32, bool)`. -/
def u32Bool : TupFns [Nat, Bool] := .cons (uintDer 4).parseDer (.cons boolDer.parseDer .nil)

instance : DecidableEq (Tup [Nat, Bool]) := inferInstanceAs (DecidableEq (Nat × Bool × Unit))

/-- A case: `(u32, bool)` = (258, true), alone and followed by a NULL; and the components in the
other order, refused. -/
example : Components u32Bool (258, true, ()) ([0x02, 0x02, 0x01, 0x02] ++ ([0x01, 0x01, 0xff] ++ [])) ∧
    (tupleP u32Bool).parseDer
      (Input.fromSlice [0x30, 0x07, 0x02, 0x02, 0x01, 0x02, 0x01, 0x01, 0xff]) =
      .ok (after (Input.fromSlice [0x30, 0x07, 0x02, 0x02, 0x01, 0x02, 0x01, 0x01, 0xff]) 9,
        (258, true, ())) ∧
    ((tupleP u32Bool).parseDer
      (Input.fromSlice [0x30, 0x07, 0x01, 0x01, 0xff, 0x02, 0x02, 0x01, 0x02])).isOk = false := by
  refine ⟨?_, by decide +kernel, by decide +kernel⟩
  obtain ⟨cs, hw, hl⟩ := uint_works (N := 4) (v := 258) (by omega) (by decide)
  refine .cons (uintToBer 4) 258 (by decide +kernel) (hw.back (by omega)).2.1 ?_
  refine .cons boolToBer true (by decide +kernel) ((bool_works true).back (by decide)).2.1 .nil

/-- **C34** Deviations: a tuple is read from a primitive object, and what follows the last component
in the SEQUENCE is dropped without an error, in DER too. -/
theorem C34_tuple_deviation :
    ((tupleP u32Bool).parseDer
      (Input.fromSlice [0x10, 0x07, 0x02, 0x02, 0x01, 0x02, 0x01, 0x01, 0xff])).isOk = true ∧
    ((tupleP u32Bool).parseDer
      (Input.fromSlice [0x30, 0x09, 0x02, 0x02, 0x01, 0x02, 0x01, 0x01, 0xff, 0xde, 0xad])).isOk =
      true := by decide +kernel

end Asn1

import Verif.Proofs.StreamApi
/-!
# Objects that arrive in pieces (C107, C108, C109)
-/
namespace Asn1
open Spec

variable {α β : Type}

/-! ### C107: a part of an object -/

/-- **C107** (partial) If an object is accepted, by the parsing function of any type under any rules, then for every
part of it from its start on the same function asks for more bytes, at least one and at most as many as are
missing.
Missing: if the part ends within the identifier octets of an object with a tag number of 31 or more, the answer is
the error `InvalidTag` (see `C107_cut_deviation`). -/
theorem C107_prefix_partial (m : Rules) (p : Parser α) (x y : Bytes) (r : Input) (v : α)
    (h : m.parse p (Input.fromSlice (x ++ y)) = .ok (r, v)) (hy : r.data.length < y.length) :
    (∃ n, m.parse p (Input.fromSlice x) = .error (.incomplete n) ∧ 1 ≤ n ∧ n ≤ y.length - r.data.length) ∨
    ((∃ j, m.parse p (Input.fromSlice x) = .error (.error j .invalidTag)) ∧ CutInTag m x) := by
  rcases parse_cases m p (x ++ y) with ⟨e, r', a, h1, h2, h3, h4⟩ | ⟨n, _, hn⟩ | ⟨j, e, hn, _⟩
  · have hr : r.data = r' := by
      rw [h2, h4] at h
      obtain ⟨z, _, h⟩ := bind_eq_ok.mp h
      simp only [Except.ok.injEq, Prod.mk.injEq] at h
      rw [← h.1, after_whole]
    rw [hr] at hy
    have hlen : x.length + y.length = e.length + r'.length := by
      have := congrArg List.length h2; simpa using this
    have hx : e = x ++ e.drop x.length := by
      have := congrArg (List.take x.length) h2
      rw [List.take_left, List.take_append_of_le_length (by omega)] at this
      conv => lhs; rw [← List.take_append_drop x.length e]
      rw [← this]
    rcases parse_cases m p x with ⟨e', s, a', g1, g2, g3, g4⟩ | ⟨n, hn1, hn2⟩ | ⟨j, err, hn, hf⟩
    · exfalso
      have k1 := g3 (s ++ y)
      rw [← List.append_assoc, ← g2] at k1
      have k2 := h3 r'
      rw [← h2, k1] at k2
      simp only [Except.ok.injEq, Prod.mk.injEq] at k2
      have := congrArg (fun i : Input => i.start) k2.1
      simp [after, Input.fromSlice] at this
      have : x.length = e'.length + s.length := by rw [g2, List.length_append]
      omega
    · left
      obtain ⟨g1, g2⟩ := (good_any m).inc _ _ hn1
      refine ⟨n, hn2, g1, ?_⟩
      rw [hr]
      rcases Nat.lt_or_ge (y.length - r'.length) n with hlt | hge
      · exfalso
        have k1 := g2 (e.drop x.length) (by simp; omega)
        rw [← ext_slice, ← hx] at k1
        have k2 := h3 []
        rw [List.append_nil, k1] at k2
        simp at k2
      · exact hge
    · right
      rcases hf with ⟨rfl, g⟩ | g
      · exact ⟨⟨j, hn⟩, g⟩
      · obtain ⟨j', g⟩ := g y
        rw [g] at h; simp at h
  · rw [hn] at h; simp at h
  · rw [hn] at h; simp at h

/-- A case: an INTEGER without its last byte. -/
example : (Rules.ber.parse (uintBer 2) (Input.fromSlice ([2, 2, 1] ++ [0x2c, 9]))).map (fun x => (x.1.data.length, x.2)) =
      .ok (1, 300) ∧
    Rules.ber.parse (uintBer 2) (Input.fromSlice [2, 2, 1]) = .error (.incomplete 1) := by decide +kernel

/-- **C107** An object with a tag number below 31 in one identifier octet and a definite length can be cut anywhere. -/
theorem C107_definite (m : Rules) (p : Parser α) (x y : Bytes) (r : Input) (v : α)
    (h : m.parse p (Input.fromSlice (x ++ y)) = .ok (r, v)) (hy : r.data.length < y.length)
    (c : Class) (b : Bool) (tag n : Nat) (id : UInt8) (len content : Bytes) (hid : Ident c b tag [id])
    (hlen : Len b (.definite n) len) (hc : x ++ y = [id] ++ len ++ content) :
    ∃ n, m.parse p (Input.fromSlice x) = .error (.incomplete n) ∧ 1 ≤ n ∧ n ≤ y.length - r.data.length := by
  rcases C107_prefix_partial m p x y r v h hy with h1 | ⟨_, h2⟩
  · exact h1
  · exact absurd h2 (not_cut hid hlen hc.symm)

/-- A case. -/
example : Ident .universal false 2 [2] ∧ Len false (.definite 2) [2] ∧ [2, 2, 1] ++ [0x2c] = [2] ++ [2] ++ [1, 0x2c] :=
  ⟨.low _ (by decide) (by decide), .short _ (by decide) (by decide), rfl⟩

/-- **C107** Deviation: if the bytes end within the identifier octets of an object with a tag number of 31 or more,
or of one in an indefinite-length encoding, then every parsing function answers `InvalidTag`, and not `Incomplete`;
although two more bytes make any such beginning of an object a complete one. -/
theorem C107_cut_deviation (x : Bytes) :
    (PartOfTag x → (∀ (m : Rules) (p : Parser α),
        ∃ j, m.parse p (Input.fromSlice x) = .error (.error j .invalidTag)) ∧
      ∀ m : Rules, ∃ r a, m.any (Input.fromSlice (x ++ [0x00, 0x00])) = .ok (r, a) ∧ r.data = []) ∧
    (∀ d, EndsInTag d x → d ≤ 49 → ∃ j, parseBerAny (Input.fromSlice x) = .error (.error j .invalidTag)) := by
  refine ⟨fun h => ⟨fun m p => ?_, fun m => ?_⟩, fun d h hd => cut_any hd h⟩
  · have h1 : parseHeader (Input.fromSlice x) = .error (.error (Input.fromSlice x) .invalidTag) := part_header h
    have h2 : m.header (Input.fromSlice x) = .error (.error (Input.fromSlice x) .invalidTag) := by
      cases m
      · exact h1
      · show parseHeaderDer _ = _
        unfold parseHeaderDer; rw [h1]; rfl
    exact ⟨_, by rw [parse_staged, h2]; rfl⟩
  · obtain ⟨b, v, rfl, h1, h2, h3⟩ := h
    obtain ⟨c, p, hcp⟩ : ∃ c p, b.toNat = identByte c p 31 := by
      have hb := b.toNat_lt
      have h256 : (2 : Nat) ^ 8 = 256 := by decide
      have : b.toNat / 32 < 8 := by omega
      have hdm := Nat.div_add_mod b.toNat 32
      rw [h1] at hdm
      generalize b.toNat / 32 = q at *
      match q, this with
      | 0, _ => exact ⟨.universal, false, by simp [identByte, classBits]; omega⟩
      | 1, _ => exact ⟨.universal, true, by simp [identByte, classBits]; omega⟩
      | 2, _ => exact ⟨.application, false, by simp [identByte, classBits]; omega⟩
      | 3, _ => exact ⟨.application, true, by simp [identByte, classBits]; omega⟩
      | 4, _ => exact ⟨.contextSpecific, false, by simp [identByte, classBits]; omega⟩
      | 5, _ => exact ⟨.contextSpecific, true, by simp [identByte, classBits]; omega⟩
      | 6, _ => exact ⟨.priv, false, by simp [identByte, classBits]; omega⟩
      | 7, _ => exact ⟨.priv, true, by simp [identByte, classBits]; omega⟩
    have hi : Ident c p (base128 (v ++ [0]) % 2 ^ 32) (b :: (v ++ [0])) :=
      .high b _ hcp ⟨v, 0, rfl, h2, by decide⟩ (by simp; omega) rfl
    have hl : Len p (.definite 0) [0] := .short 0 (by decide) (by decide)
    have hdat : (Input.fromSlice (b :: v ++ [0x00, 0x00])).data = (b :: (v ++ [0])) ++ [0] ++ [] := by
      simp [Input.fromSlice]
    have hp := (parseHeader_ok (input := Input.fromSlice (b :: v ++ [0x00, 0x00]))
      (r := after (Input.fromSlice (b :: v ++ [0x00, 0x00])) ((b :: (v ++ [0])).length + [(0 : UInt8)].length))
      (h := ⟨c, p, _, .definite 0, _, _⟩)).mpr
      ⟨b :: (v ++ [0]), [0], hi, hl, by rw [hdat]; simp [after, Input.fromSlice], rfl, rfl, rfl⟩
    have hder := (parseDerAny_ok (a := ⟨_, first _ 0⟩)).mpr ⟨_, 0, hp, rfl, by simp, rfl, rfl⟩
    cases m
    · exact ⟨_, _, C11_der_subset_ber_any _ _ _ hder, by simp [after, Input.fromSlice]⟩
    · exact ⟨_, _, hder, by simp [after, Input.fromSlice]⟩

/-- Cases: a SEQUENCE of two INTEGERs cut after three bytes; and an object `[31]` cut after the first byte, and one
in a SEQUENCE of indefinite length. -/
example :
    parseBerAny (Input.fromSlice [0x30, 0x06, 0x02]) = .error (.incomplete 5) ∧
    (parseBerAny (Input.fromSlice ([0x30, 0x06, 0x02] ++ [1, 1, 2, 1, 2]))).isOk = true ∧
    parseBerAny (Input.fromSlice [0xbf]) = .error (.error (Input.fromSlice [0xbf]) .invalidTag) ∧
    (parseBerAny (Input.fromSlice ([0xbf] ++ [0x1f, 0x00]))).isOk = true ∧
    (parseBerAny (Input.fromSlice [0x30, 0x80, 0x05, 0x00, 0x9f, 0x83])).isOk = false ∧
    (parseBerAny (Input.fromSlice ([0x30, 0x80, 0x05, 0x00, 0x9f, 0x83] ++ [0x01, 0x00, 0x00, 0x00]))).isOk = true := by
  decide +kernel

example : PartOfTag [0xbf, 0x81] ∧ EndsInTag 1 [0x30, 0x80, 0x05, 0x00, 0x9f, 0x83] := by
  refine ⟨⟨_, _, rfl, by decide, by decide, by decide⟩, .inr ⟨.universal, 16, [0x30], [0x80], [[0x05, 0x00]],
    [0x9f, 0x83], .low _ (by decide) (by decide), .indefinite _ (by decide) rfl rfl, ?_,
    ⟨_, _, rfl, by decide, by decide, by decide⟩, rfl⟩⟩
  intro it hit
  simp only [List.mem_singleton] at hit
  subst hit
  refine ⟨⟨.universal, false, 5, [5], [0], [], .low _ (by decide) (by decide), .short _ (by decide) rfl, rfl⟩, ?_⟩
  have := laxEoc_def (c := .universal) (p := false) (t := 5) (n := 0) (id := [5]) (len := [0]) (content := [])
    (.low _ (by decide) (by decide)) (.short _ (by decide) rfl) rfl
  simpa using this

/-! ### C108: a stream in pieces -/

theorem behind_suffix {ε : Type} {T : Bytes → Prop} {f : Bytes → Outcome ε α} (hf : Steady T f) {x r : Bytes}
    (h : Behind f x r) : ∃ u, x = u ++ r := by
  induction h with
  | here x => exact ⟨[], rfl⟩
  | skip h _ ih =>
    obtain ⟨u, rfl⟩ := ih
    obtain ⟨e, _, h2, _⟩ := hf.done _ _ _ h
    exact ⟨e ++ u, by rw [h2, List.append_assoc]⟩

theorem readPieces_one {ε : Type} {T : Bytes → Prop} {f : Bytes → Outcome ε α} (hf : Steady T f) (x : Bytes) :
    readPieces f [x] = full' f x [] := by
  have := readPieces_eq hf [x] (fun a b r h hb hr => by
    cases a with
    | nil =>
      obtain ⟨u, hu⟩ := behind_suffix hf hr
      simp at hu
      rw [hu.2]; exact hf.notNil
    | cons a as => simp at h; exact absurd h.2.2 hb)
  simpa using this

/-- **C108** (partial) A reader that is given a stream in pieces reads the same objects, stops with the same error,
and keeps the same bytes, as one that is given the stream at once: with the parsing functions of any type under any
rules, `from_ber` and `from_der`.
Missing: the pieces must not end within the identifier octets of an object with a tag number of 31 or more, nor with
bytes that could be such (see `C108_cut_deviation`). -/
theorem C108_pieces_partial (m : Rules) (p : Parser α) (check : Any → Except SErr Unit) (pieces : List Bytes)
    (h : ∀ a b u r, pieces = a ++ b → b ≠ [] → a.flatten = u ++ r → ¬ CutInTag m r) :
    readPieces (outcome (m.parse p)) pieces = readPieces (outcome (m.parse p)) [pieces.flatten] ∧
    (m = .ber → readPieces (outcomeS (fromBer p)) pieces = readPieces (outcomeS (fromBer p)) [pieces.flatten]) ∧
    (m = .der → readPieces (outcomeS (fromDer p check)) pieces =
      readPieces (outcomeS (fromDer p check)) [pieces.flatten]) := by
  have key : ∀ {ε : Type} {f : Bytes → Outcome ε α}, Steady (CutInTag m) f →
      readPieces f pieces = readPieces f [pieces.flatten] := by
    intro ε f hf
    rw [readPieces_one hf]
    refine readPieces_eq hf pieces fun a b r hab hb hr => ?_
    obtain ⟨u, hu⟩ := behind_suffix hf hr
    exact h a b u r hab hb hu
  refine ⟨key (steady_parse m p), ?_, ?_⟩
  · rintro rfl; exact key (fromBer_slice p ▸ steady_slice .ber _)
  · rintro rfl; exact key (fromDer_slice p check ▸ steady_slice .der _)

/-- **C108** (partial) If a stream consists of objects, followed by the beginning of another one, then the reader
gets the values of all these objects in order, and keeps the rest, whatever the pieces are.
Missing: no part of an object may end within a tag. -/
theorem C108_objects_partial (m : Rules) (p : Parser α) (objs : List (Bytes × α)) (tail : Bytes) (n : Nat)
    (pieces : List Bytes)
    (ho : ∀ o ∈ objs, outcome (m.parse p) o.1 = .done [] o.2 ∧ ∀ x y, o.1 = x ++ y → y ≠ [] → ¬ CutInTag m x)
    (ht : outcome (m.parse p) tail = .more n) (hc : ∀ x y, tail = x ++ y → y ≠ [] → ¬ CutInTag m x)
    (hp : pieces.flatten = (objs.map (·.1)).flatten ++ tail) :
    readPieces (outcome (m.parse p)) pieces = ⟨tail, objs.map (·.2), none⟩ := by
  have hf := steady_parse m p
  exact readPieces_objects hf objs
    (fun o h => ⟨(ho o h).1, divisible hf (.inl ⟨_, (ho o h).1⟩) (ho o h).2⟩) ht
    (divisible hf (.inr ⟨n, ht⟩) hc) pieces hp

/-- **C108** The encodings of values of a built type (C83) with tag numbers below 31 can be sent one after the other,
and cut into any pieces: the reader gets these values in order, in BER and in DER. -/
theorem C108_values {r : Bool} {t : ToBer α} {pb pd : Parser β} (vs : List (α × β × Bytes)) (pieces : List Bytes)
    (hv : ∀ x ∈ vs, Value r t pb pd x.1 x.2.1 ∧ t.toVec x.1 = .ok x.2.2 ∧ (t.tagInfo x.1).2.2 < 31)
    (hp : pieces.flatten = (vs.map (·.2.2)).flatten) :
    readPieces (outcome pb.parseBer) pieces = ⟨[], vs.map (·.2.1), none⟩ ∧
    readPieces (outcome pd.parseDer) pieces = ⟨[], vs.map (·.2.1), none⟩ := by
  have hcut : ∀ x ∈ vs, ∀ (m : Rules) u w, x.2.2 = u ++ w → ¬ CutInTag m u := by
    intro x hx m u w huw
    obtain ⟨h1, h2, h3⟩ := hv x hx
    obtain ⟨cs, hs⟩ := sound_value h1
    rw [hs.enc.toVec hs.lt64] at h2
    injection h2 with h2
    have hi := identOctets_ident (t.tagInfo x.1).1 (t.tagInfo x.1).2.1 (t := (t.tagInfo x.1).2.2)
      (Nat.lt_of_lt_of_le h3 (by decide))
    have hone : ∃ b0, identOctets (t.tagInfo x.1).1 (t.tagInfo x.1).2.1 (t.tagInfo x.1).2.2 = [b0] := by
      rcases (writeTag_spec (t.tagInfo x.1).1 (t.tagInfo x.1).2.1 (t.tagInfo x.1).2.2
        (Nat.lt_of_lt_of_le h3 (by decide))).2 with ⟨_, b, e, _⟩ | ⟨h, _⟩
      · exact ⟨b, e⟩
      · omega
    obtain ⟨b0, hb0⟩ := hone
    rw [hb0] at hi
    refine not_cut hi (lenOctets_len (l := .definite cs.length) (fun n h => by injection h with h; rw [← h]; exact hs.lt64)
      (by simp)) (content := cs) (y := w) ?_
    rw [← huw, ← h2, ToBer.fullOf, full, hb0]
  have hbase : ∀ (m : Rules) (p : Parser β), (∀ x ∈ vs, InputBack t (m.parse p) x.1 x.2.1) →
      readPieces (outcome (m.parse p)) pieces = ⟨[], vs.map (·.2.1), none⟩ := by
    intro m p hb
    obtain ⟨n, hn⟩ := (steady_parse m p).nil
    have := C108_objects_partial m p (vs.map fun x => (x.2.2, x.2.1)) [] n pieces ?_ hn ?_ ?_
    · simpa [Function.comp_def] using this
    · intro o ho
      obtain ⟨x, hx, rfl⟩ := List.mem_map.mp ho
      refine ⟨?_, fun u w huw _ => hcut x hx m u w huw⟩
      obtain ⟨bs, g1, g2⟩ := hb x hx
      rw [(hv x hx).2.1] at g1
      injection g1 with g1
      unfold outcome
      rw [g2 [] (Input.fromSlice x.2.2) (by simp [Input.fromSlice, g1])]
      simp [g1, after, Input.fromSlice]
    · intro u w h hw
      exact absurd (List.append_eq_nil_iff.mp h.symm).2 hw
    · simpa [Function.comp_def] using hp
  exact ⟨hbase .ber pb fun x hx => (C83_roundtrip_partial (hv x hx).1).1,
    hbase .der pd fun x hx => (C83_roundtrip_partial (hv x hx).1).2⟩

/-- **C108** Deviation: the object `bf 1f 00` is read if it arrives at once, but not if the first byte arrives before
the others. -/
theorem C108_cut_deviation :
    (readPieces (outcome parseBerAny) [[0xbf, 0x1f, 0x00]]).out.length = 1 ∧
    (readPieces (outcome parseBerAny) [[0xbf], [0x1f, 0x00]]).out = [] ∧
    (readPieces (outcome parseBerAny) [[0xbf], [0x1f, 0x00]]).stopped = some (some .invalidTag) ∧
    (readPieces (outcome parseDerAny) [[0xbf], [0x1f, 0x00]]).stopped = some (some .invalidTag) := by
  decide +kernel

/-- A case: two INTEGERs and the beginning of a third one, in pieces of one, four and two bytes. -/
example : readPieces (outcome (uintBer 4).parseBer) [[0x02], [0x01, 0x07, 0x02, 0x02], [0x01, 0x00, 0x02]] =
    ⟨[0x02], [7, 256], none⟩ := by decide +kernel

/-- A case of `C108_values`: two values of the struct of C83. -/
example (pieces : List Bytes)
    (h : pieces.flatten = [0x30, 16, 2, 1, 7, 0xa0, 8, 0x30, 6, 2, 1, 0xfb, 12, 1, 0x41, 1, 1, 0xff] ++
      [0x30, 16, 2, 1, 7, 0xa0, 8, 0x30, 6, 2, 1, 0xfb, 12, 1, 0x41, 1, 1, 0xff]) :
    (readPieces (outcome (structP .der 16 outerDer).parseDer) pieces) =
      ⟨[], [(7, [altNumber, altText], true, ()), (7, [altNumber, altText], true, ())], none⟩ := by
  let x : Tup [Nat, List (HSum [Int, Text]), Bool] := (7, [altNumber, altText], true, ())
  let bs : Bytes := [0x30, 16, 2, 1, 7, 0xa0, 8, 0x30, 6, 2, 1, 0xfb, 12, 1, 0x41, 1, 1, 0xff]
  have hx : (structToBer 16 outerEnc).toVec x = .ok bs := by decide +kernel
  refine (C108_values (r := true) (t := structToBer 16 outerEnc) (pb := structP .ber 16 outerBer) [(x, x, bs), (x, x, bs)] pieces (fun y hy => ?_)
    (h.trans (by simp [bs]))).2
  have hy : y = (x, x, bs) := by simpa using hy
  rw [hy]
  exact ⟨outer_value, hx, by decide⟩

/-! ### C109: as many bytes as asked for -/

/-- **C109** (partial) A program that reads as many bytes as `Incomplete` says (or fewer, as `read` may return), and
starts with none, gets the object at the start of the stream and has then read the bytes of this object and no more:
with the generic parsers, `from_ber` of any type, and `from_der` of any type whose constraints never answer
`Incomplete`. If the stream ends before the object does, it reads all of it and finds the end of the stream.
Missing: objects that can be cut within a tag (`C109_tag_deviation`), and the parsing functions of the types that
pass on an inner `Incomplete` (`C109_inner_deviation`). -/
theorem C109_reads_exactly_partial (m : Rules) (get : Nat → Nat → Nat) (hg : ReadsSome get) (obj rest : Bytes)
    (hc : ∀ x y, obj = x ++ y → y ≠ [] → ¬ CutInTag m x) :
    (∀ a, outcome m.any obj = .done [] a →
      readObject (outcome m.any) get (obj ++ rest) = (.object a, obj.length) ∧
      ∀ x y, obj = x ++ y → y ≠ [] → readObject (outcome m.any) get x = (.endOfStream, x.length)) ∧
    (∀ (p : Parser α) (v : α), m = .ber → outcomeS (fromBer p) obj = .done [] v →
      readObject (outcomeS (fromBer p)) get (obj ++ rest) = (.object v, obj.length) ∧
      ∀ x y, obj = x ++ y → y ≠ [] → readObject (outcomeS (fromBer p)) get x = (.endOfStream, x.length)) ∧
    (∀ (p : Parser α) (check : Any → Except SErr Unit) (v : α), m = .der → (∀ a, Settled (check a)) →
      outcomeS (fromDer p check) obj = .done [] v →
      readObject (outcomeS (fromDer p check)) get (obj ++ rest) = (.object v, obj.length) ∧
      ∀ x y, obj = x ++ y → y ≠ [] →
        readObject (outcomeS (fromDer p check)) get x = (.endOfStream, x.length)) := by
  have key : ∀ {ε β : Type} {f : Bytes → Outcome ε β} {v : β}, Steady (CutInTag m) f → Truthful f →
      f obj = .done [] v → readObject f get (obj ++ rest) = (.object v, obj.length) ∧
      ∀ x y, obj = x ++ y → y ≠ [] → readObject f get x = (.endOfStream, x.length) := by
    intro ε β f v hf ht hv
    have hd := divisible hf (.inl ⟨v, hv⟩) hc
    refine ⟨readOne_object hf ht hg hv hd _ _ _ (Nat.zero_le _) (by simp; omega), fun x y hxy hy => ?_⟩
    exact readOne_eof hf ht hg (b := x) (rest := y) (hxy ▸ hv) hy (hxy ▸ hd) _ _ _ (Nat.zero_le _) (by omega)
  refine ⟨fun a h => key (steady_any m) (truthful_any m) h, ?_, ?_⟩
  · rintro p v rfl h
    exact key (fromBer_slice p ▸ steady_slice .ber _)
      (fromBer_slice p ▸ truthful_slice fun a => settled_tryFromAny p a) h
  · rintro p check v rfl hs h
    exact key (fromDer_slice p check ▸ steady_slice .der _)
      (fromDer_slice p check ▸ truthful_slice fun a => settled_bind (hs a) fun _ => settled_tryFromAny p a) h

/-- **C109** The same for `parse_ber` and `parse_der` of a type that decodes no inner objects, or does not ask for
more bytes if an inner object is cut short. -/
theorem C109_parse_partial (m : Rules) (p : Parser α) (get : Nat → Nat → Nat) (hg : ReadsSome get)
    (hp : ∀ i r a n, m.any i = .ok (r, a) → p.content a.header a.data ≠ .error (.incomplete n))
    (obj rest : Bytes) (v : α) (hc : ∀ x y, obj = x ++ y → y ≠ [] → ¬ CutInTag m x)
    (h : outcome (m.parse p) obj = .done [] v) :
    readObject (outcome (m.parse p)) get (obj ++ rest) = (.object v, obj.length) ∧
    ∀ x y, obj = x ++ y → y ≠ [] → readObject (outcome (m.parse p)) get x = (.endOfStream, x.length) := by
  have hf := steady_parse m p
  have ht := truthful_parse hp
  have hd := divisible hf (.inl ⟨v, h⟩) hc
  refine ⟨readOne_object hf ht hg h hd _ _ _ (Nat.zero_le _) (by simp; omega), fun x y hxy hy => ?_⟩
  exact readOne_eof hf ht hg (b := x) (rest := y) (hxy ▸ h) hy (hxy ▸ hd) _ _ _ (Nat.zero_le _) (by omega)

/-- The types of C109: `u32`, for instance, never asks for more bytes once the object is complete. -/
example (N : Nat) (h : Header) (i : Input) (n : Nat) : (uintBer N).content h i ≠ .error (.incomplete n) := by
  intro hc
  rcases bind_eq_err.mp hc with h1 | ⟨_, _, h1⟩
  · unfold Header.assertPrimitive nomErr at h1
    split at h1 <;> simp at h1
  rcases bind_eq_err.mp h1 with h2 | ⟨_, _, h2⟩
  · unfold liftErr nomErr at h2
    split at h2 <;> simp at h2
  rcases bind_eq_err.mp h2 with h3 | ⟨_, _, h3⟩
  · unfold Input.atEnd Input.takeFrom at h3
    split at h3 <;> simp at h3
  · simp at h3

/-- **C109** Deviation: in this way no object with a tag number of 31 or more can be read, by any parsing function:
after the first byte the answer is an error. -/
theorem C109_tag_deviation (m : Rules) (p : Parser α) (get : Nat → Nat → Nat) (hg : ReadsSome get) (b : UInt8)
    (rest : Bytes) (hb : b.toNat % 32 = 31) :
    readObject (outcome (m.parse p)) get (b :: rest) = (.failed (some .invalidTag), 1) := by
  have h0 : outcome (m.parse p) [] = .more 1 := by
    unfold outcome; rw [parse_staged, header_nil]; rfl
  have h1 : outcome (m.parse p) [b] = .failed (some .invalidTag) := by
    obtain ⟨j, hj⟩ := ((C107_cut_deviation (α := α) [b]).1 ⟨b, [], rfl, hb, by simp, by simp⟩).1 m p
    unfold outcome; rw [hj]
  have hg1 : get 0 1 = 1 := by have := hg 0 1 (Nat.le_refl _); omega
  unfold readObject readOne
  simp only [List.take_zero, h0]
  rw [if_neg (by simp), hg1]
  have : min (b :: rest).length (0 + 1) = 1 := by simp
  rw [this, List.length_cons, readOne]
  simp [h1]

/-- A case: `get` reads as much as is asked for. -/
example : (0x1f : UInt8).toNat % 32 = 31 := by decide

theorem readOne_all {ε : Type} {f : Bytes → Outcome ε α} {get : Nat → Nat → Nat} (hg : ReadsSome get) {s : Bytes}
    (h : ∀ k, k ≤ s.length → ∃ n, f (s.take k) = .more n ∧ 1 ≤ n) :
    ∀ fuel j k, k ≤ s.length → s.length - k < fuel → readOne f get s fuel j k = (.endOfStream, s.length) := by
  intro fuel
  induction fuel with
  | zero => intro j k _ h; omega
  | succ fuel ih =>
    intro j k hk hf
    obtain ⟨n, h1, h2⟩ := h k hk
    obtain ⟨g1, g2⟩ := hg j n h2
    unfold readOne
    simp only [h1]
    split
    · have : k = s.length := by omega
      rw [this]
    · exact ih _ _ (by omega) (by omega)

/-- **C109** Deviation: if an object within an EXPLICIT tag is cut short (here `a0 02 02 05`, a complete object that
should be rejected), then `parse_ber` and `from_der` ask for more bytes again and again, and the program reads the
stream to its end, whatever follows. -/
theorem C109_inner_deviation (get : Nat → Nat → Nat) (hg : ReadsSome get) (rest : Bytes) :
    readObject (outcome (explicitP .contextSpecific 0 (uintBer 4).parseBer).parseBer) get
      ([0xa0, 0x02, 0x02, 0x05] ++ rest) = (.endOfStream, 4 + rest.length) ∧
    readObject (outcomeS (explicitFromDer .contextSpecific 0 (fromDer (uintBer 4) checkDerInt))) get
      ([0xa0, 0x02, 0x02, 0x05] ++ rest) = (.endOfStream, 4 + rest.length) := by
  have e : 4 + rest.length = ([0xa0, 0x02, 0x02, 0x05] ++ rest : Bytes).length := by simp; omega
  have htake : ∀ k, k = 0 ∨ k = 1 ∨ k = 2 ∨ k = 3 ∨
      ([0xa0, 0x02, 0x02, 0x05] ++ rest : Bytes).take k = [0xa0, 0x02, 0x02, 0x05] ++ rest.take (k - 4) := by
    intro k
    match k with
    | 0 => exact .inl rfl
    | 1 => exact .inr (.inl rfl)
    | 2 => exact .inr (.inr (.inl rfl))
    | 3 => exact .inr (.inr (.inr (.inl rfl)))
    | k + 4 => exact .inr (.inr (.inr (.inr rfl)))
  rw [e]
  refine ⟨readOne_all hg (fun k _ => ?_) _ _ _ (Nat.zero_le _) (by omega),
    readOne_all hg (fun k _ => ?_) _ _ _ (Nat.zero_le _) (by omega)⟩
  · rcases htake k with rfl | rfl | rfl | rfl | h
    · exact ⟨1, rfl, by decide⟩
    · exact ⟨1, rfl, by decide⟩
    · exact ⟨2, rfl, by decide⟩
    · exact ⟨1, rfl, by decide⟩
    · refine ⟨5, ?_, by decide⟩
      rw [h, outcome, (C64_explicit_der_deviation (rest.take (k - 4))).2]
  · rcases htake k with rfl | rfl | rfl | rfl | h
    · exact ⟨1, rfl, by decide⟩
    · exact ⟨1, rfl, by decide⟩
    · exact ⟨2, rfl, by decide⟩
    · exact ⟨1, rfl, by decide⟩
    · refine ⟨5, ?_, by decide⟩
      rw [h, outcomeS, (C64_explicit_der_deviation (rest.take (k - 4))).1]

/-- Cases: an INTEGER followed by another one, with a `read` that returns one byte at a time; a stream that ends too
early. -/
example : ReadsSome (fun _ _ => 1) ∧
    readObject (outcomeS (fromBer (uintBer 4))) (fun _ _ => 1) [0x02, 0x02, 0x01, 0x00, 0x02, 0x01, 0x07] =
      (.object 256, 4) ∧
    readObject (outcomeS (fromBer (uintBer 4))) (fun _ n => n) [0x02, 0x02, 0x01] = (.endOfStream, 3) :=
  ⟨fun _ n h => ⟨Nat.le_refl _, h⟩, by decide +kernel, by decide +kernel⟩

end Asn1

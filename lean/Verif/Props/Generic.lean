import Verif.Props.Header
/-!
# C04 - C11, C39: generic objects
-/
namespace Asn1
open Spec Wr

/-- **C04** Parsing a generic object splits the input exactly: header bytes, content, the two
bytes closing an indefinite-length encoding, and the remainder are the input, and every span
is the true offset. (What the closing bytes are is the subject of `C04_marker_deviation`
and `C04_marker_partial`.) -/
theorem C04_exact_split_ber_partial (i r : Input) (a : Any) (h : parseBerAny i = .ok (r, a)) :
    ∃ hdr marker, i.data = hdr ++ a.data.data ++ marker ++ r.data ∧
      a.header.rawHeader = some ⟨hdr, i.start, i.start + hdr.length⟩ ∧
      marker.length = (if a.header.length.isDefinite then 0 else 2) ∧
      a.data.start = i.start + hdr.length ∧
      a.data.stop = a.data.start + a.data.data.length ∧
      r.start = a.data.stop + marker.length ∧ r.stop = i.stop := by
  obtain ⟨r1, hp, hc⟩ := parseBerAny_ok.mp h
  obtain ⟨id, len, h1, h2, h3, h4, h5, h6⟩ := parseHeader_ok.mp hp
  have hr1 : r1.data = i.data.drop (id.length + len.length) := by rw [h4]; rfl
  have hr1s : r1.start = i.start + (id.length + len.length) := by rw [h4]; rfl
  have hr1e : r1.stop = i.stop := by rw [h4]; rfl
  have hhdr : first i (id.length + len.length) =
      ⟨id ++ len, i.start, i.start + (id ++ len).length⟩ := by
    have : (id ++ len ++ r1.data).take (id.length + len.length) = id ++ len :=
      List.take_left' (by simp)
    simp [first, h3, -List.append_assoc, this]
  have hc := berContent_ok.mp hc
  cases hl : a.header.length with
  | definite n =>
    rw [hl] at hc
    obtain ⟨hle, hr, hd⟩ := hc
    refine ⟨id ++ len, [], ?_, ?_, by simp [Length.isDefinite], ?_, ?_, ?_, ?_⟩
    · rw [h3, hd, hr]; simp
    · rw [h6, hhdr]
    · rw [hd]; simp [hr1s]
    · rw [hd]; simp; omega
    · rw [hr, hd]; simp
    · rw [hr]; simpa using hr1e
  | indefinite =>
    rw [hl] at hc
    obtain ⟨_, _, items, eoc, hi, hdat, hr, hd⟩ := hc
    have heoc : 2 ≤ eoc.length := by
      obtain ⟨c, p, id', len', g1, g2, rfl⟩ := hi.2
      have : 1 ≤ id'.length := by cases g1 <;> simp
      have : 1 ≤ len'.length := by cases g2 <;> simp
      simp; omega
    let k := items.flatten.length + eoc.length
    have hk : k ≤ r1.data.length := by simp [hdat, k]
    refine ⟨id ++ len, (r1.data.take k).drop (k - 2), ?_, ?_, ?_, ?_, ?_, ?_, ?_⟩
    · rw [h3, hd, hr]
      simp only [first_data, after_data, List.append_assoc]
      congr 2
      have e1 : r1.data.take (k - 2) = (r1.data.take k).take (k - 2) := by
        rw [List.take_take]; congr 1; omega
      show r1.data = r1.data.take (k - 2) ++ ((r1.data.take k).drop (k - 2) ++ r1.data.drop k)
      rw [e1, ← List.append_assoc, List.take_append_drop, List.take_append_drop]
    · rw [h6, hhdr]
    · simp [Length.isDefinite]; omega
    · rw [hd]; simp [hr1s]
    · rw [hd]
      simp only [first_data, first_start, first_stop, List.length_take]
      omega
    · rw [hr, hd]
      simp only [after_start, first_stop, List.length_drop, List.length_take]
      omega
    · rw [hr]; simpa using hr1e

/-- A case: a SEQUENCE of indefinite length, with a byte after it. -/
example : parseBerAny (Input.fromSlice [0x30, 0x80, 2, 1, 5, 0, 0, 9]) =
    .ok (⟨[9], 7, 8⟩, ⟨⟨.universal, true, 16, .indefinite, some [0x30], some ⟨[0x30, 0x80], 0, 2⟩⟩,
      ⟨[2, 1, 5], 2, 5⟩⟩) := by decide +kernel

/-- **C04** for DER. -/
theorem C04_exact_split_der (i r : Input) (a : Any) (h : parseDerAny i = .ok (r, a)) :
    ∃ hdr, i.data = hdr ++ a.data.data ++ r.data ∧
      a.header.rawHeader = some ⟨hdr, i.start, i.start + hdr.length⟩ ∧
      a.data.start = i.start + hdr.length ∧
      a.data.stop = a.data.start + a.data.data.length ∧
      r.start = a.data.stop ∧ r.stop = i.stop := by
  obtain ⟨r1, n, hp, hl, hle, hr, hd⟩ := parseDerAny_ok.mp h
  obtain ⟨id, len, h1, h2, h3, h4, h5, h6⟩ := parseHeader_ok.mp hp
  have hr1s : r1.start = i.start + (id.length + len.length) := by rw [h4]; rfl
  have hr1e : r1.stop = i.stop := by rw [h4]; rfl
  refine ⟨id ++ len, ?_, ?_, ?_, ?_, ?_, ?_⟩
  · rw [h3, hd, hr]; simp
  · have : (id ++ len ++ r1.data).take (id.length + len.length) = id ++ len :=
      List.take_left' (by simp)
    rw [h6]; simp [first, h3, -List.append_assoc, this]
  · rw [hd]; simp [hr1s]
  · rw [hd]; simp; omega
  · rw [hr, hd]; simp
  · rw [hr]; simpa using hr1e

/-- A case. -/
example : parseDerAny ⟨[2, 1, 5, 9], 20, 24⟩ =
    .ok (⟨[9], 23, 24⟩, ⟨⟨.universal, false, 2, .definite 1, some [2], some ⟨[2, 1], 20, 22⟩⟩, ⟨[5], 22, 23⟩⟩) := by
  decide +kernel

/-- **C04** (deviation) The closing bytes need not be the end-of-contents octets `00 00`: a
non-minimal or non-universal "end of contents" is accepted, and the content is then cut two
bytes before its end. -/
theorem C04_marker_deviation :
    (parseBerAny (Input.fromSlice [0x30, 0x80, 0x00, 0x81, 0x00])).map
      (fun x => (x.1.data, x.2.data.data)) = .ok ([], [0x00]) ∧
    (parseBerAny (Input.fromSlice [0x30, 0x80, 0x80, 0x00, 0x00, 0x00])).map
      (fun x => (x.1.data, x.2.data.data)) = .ok ([0x00, 0x00], []) := by
  decide +kernel

theorem strict_is_lax {bs : Bytes} (h : StrictEoc bs) : LaxEoc bs := by
  rw [StrictEoc] at h
  subst h
  exact ⟨.universal, false, [0], [0], .low _ (by decide) (by decide),
    .short _ (by decide) (by decide), rfl⟩

theorem elem_strict_lax (d : Nat) (bs : Bytes) (h : Elem StrictEoc d bs) : Elem LaxEoc d bs := by
  induction d generalizing bs with
  | zero => exact h
  | succ d ih =>
    rcases h with h | ⟨c, tag, id, len, items, eoc, h1, h2, ⟨h3, h4⟩, h5⟩
    · exact Or.inl h
    · exact Or.inr ⟨c, tag, id, len, items, eoc, h1, h2,
        ⟨fun it hit => ⟨ih _ (h3 it hit).1, (h3 it hit).2⟩, strict_is_lax h4⟩, h5⟩

/-- **C04 / C56** On an object made of X.690 elements closed by `00 00` (no element being an
empty object of tag number 0 of any class), nested at most 49 deep, parsing succeeds, the content
is exactly the bytes before the end-of-contents octets, and what follows is left. -/
theorem C04_marker_partial (i : Input) (c : Class) (tag : Nat) (id len rest : Bytes)
    (items : List Bytes) (h1 : Ident c true tag id) (h2 : Len true .indefinite len)
    (h3 : ∀ it ∈ items, Elem StrictEoc 48 it ∧ ¬ LaxEoc it)
    (hd : i.data = id ++ len ++ items.flatten ++ [0, 0] ++ rest) :
    ∃ r a, parseBerAny i = .ok (r, a) ∧ r.data = rest ∧ a.data.data = items.flatten ∧
      a.header.cls = c ∧ a.header.tag = tag ∧ a.header.length = .indefinite := by
  let k := id.length + len.length
  let r1 := after i k
  have hr1 : r1.data = items.flatten ++ [0, 0] ++ rest := by
    show i.data.drop k = _
    rw [hd, show id ++ len ++ items.flatten ++ [0, 0] ++ rest
      = (id ++ len) ++ (items.flatten ++ [0, 0] ++ rest) by simp]
    exact List.drop_left' (by simp [k])
  refine ⟨after r1 (items.flatten.length + 2),
    ⟨⟨c, true, tag, .indefinite, some id, some (first i k)⟩, first r1 (items.flatten.length)⟩,
    parseBerAny_ok.mpr ⟨r1, ?_, ?_⟩, ?_, ?_, rfl, rfl, rfl⟩
  · exact parseHeader_ok.mpr ⟨id, len, h1, h2, by rw [hr1, hd]; simp, rfl, rfl, rfl⟩
  · refine berContent_ok.mpr ⟨rfl, by omega, items, [0, 0], ⟨fun it hit =>
      ⟨elem_strict_lax _ _ (h3 it hit).1, (h3 it hit).2⟩, strict_is_lax rfl⟩, ?_, ?_, ?_⟩
    · rw [hr1, after_data, hr1, List.drop_left' (by simp)]
    · simp
    · simp
  · rw [after_data, hr1]
    exact List.drop_left' (by simp)
  · rw [first_data, hr1, List.append_assoc]
    exact List.take_left' rfl

/-- A nested indefinite encoding with a definite element inside meets the hypotheses. -/
example : Elem StrictEoc 48 [0x30, 0x80, 0x02, 0x01, 0x05, 0x00, 0x00] ∧
    ¬ LaxEoc [0x30, 0x80, 0x02, 0x01, 0x05, 0x00, 0x00] := by
  have hid : Ident .universal true 16 [0x30] := .low _ (by decide) (by decide)
  have hlen : Len true .indefinite [0x80] := .indefinite _ (by decide) rfl rfl
  have hid2 : Ident .universal false 2 [0x02] := .low _ (by decide) (by decide)
  have hlen2 : Len false (.definite 1) [0x01] := .short _ (by decide) (by decide)
  refine ⟨Or.inr ⟨.universal, 16, [0x30], [0x80], [[0x02, 0x01, 0x05]], [0, 0], hid, hlen,
    ⟨?_, rfl⟩, rfl⟩, laxEoc_indef (x := [0x02, 0x01, 0x05, 0x00, 0x00]) hid hlen⟩
  intro it hit
  simp at hit; subst hit
  refine ⟨Or.inl ⟨.universal, false, 2, [0x02], [0x01], [0x05], hid2, hlen2, rfl⟩, ?_⟩
  have := laxEoc_def (content := [0x05]) hid2 hlen2 rfl
  intro h
  exact absurd (this.mp h).1 (by omega)

theorem fromSlice_append (x y : Bytes) :
    Input.fromSlice (x ++ y) = extend (Input.fromSlice x) y := by
  simp [Input.fromSlice, extend]

/-- **C05** Success is stable under extension (BER and DER): same object, same remainder followed
by the appended bytes. -/
theorem C05_extension_stable (x y : Bytes) (r : Input) (a : Any) :
    (parseBerAny (Input.fromSlice x) = .ok (r, a) →
      parseBerAny (Input.fromSlice (x ++ y)) =
        .ok (⟨r.data ++ y, r.start, r.stop + y.length⟩, a)) ∧
    (parseDerAny (Input.fromSlice x) = .ok (r, a) →
      parseDerAny (Input.fromSlice (x ++ y)) =
        .ok (⟨r.data ++ y, r.start, r.stop + y.length⟩, a)) := by
  rw [fromSlice_append]
  exact ⟨good_parseBerAny.ext _ r a y, good_parseDerAny.ext _ r a y⟩

/-- Hypotheses of C05, C07: a nested indefinite-length object with a remainder. -/
example : (parseBerAny (Input.fromSlice [0x30, 0x80, 0x02, 0x01, 0x05, 0x00, 0x00, 0xaa])).map
    (fun x => (x.1.data, x.2.data.data)) = .ok ([0xaa], [0x02, 0x01, 0x05]) := by decide +kernel

/-- **C06** `Incomplete(n)` is truthful (BER and DER): `n ≥ 1`, and with fewer than `n` more bytes
the verdict is still `Incomplete`, with the count decreased by the bytes added. -/
theorem C06_incomplete_truthful (x : Bytes) (n : Nat) :
    (parseBerAny (Input.fromSlice x) = .error (.incomplete n) → 1 ≤ n ∧
      ∀ y, y.length < n →
        parseBerAny (Input.fromSlice (x ++ y)) = .error (.incomplete (n - y.length))) ∧
    (parseDerAny (Input.fromSlice x) = .error (.incomplete n) → 1 ≤ n ∧
      ∀ y, y.length < n →
        parseDerAny (Input.fromSlice (x ++ y)) = .error (.incomplete (n - y.length))) := by
  constructor
  · intro h
    obtain ⟨h1, h2⟩ := good_parseBerAny.inc _ _ h
    exact ⟨h1, fun y hy => by rw [fromSlice_append]; exact h2 y hy⟩
  · intro h
    obtain ⟨h1, h2⟩ := good_parseDerAny.inc _ _ h
    exact ⟨h1, fun y hy => by rw [fromSlice_append]; exact h2 y hy⟩

example : parseBerAny (Input.fromSlice [0x30, 0x80, 0x04, 0x05, 0x01])
    = .error (.incomplete 4) := by decide +kernel

/-- **C07** A truncated encoding is never accepted: if parsing `x` consumes all of `x`, then no
proper prefix of `x` is accepted (in either mode). -/
theorem C07_no_truncation (x y : Bytes) (hy : y ≠ []) (r : Input) (a : Any) :
    (parseBerAny (Input.fromSlice (x ++ y)) = .ok (r, a) → r.data = [] →
      ∀ v, parseBerAny (Input.fromSlice x) ≠ .ok v) ∧
    (parseDerAny (Input.fromSlice (x ++ y)) = .ok (r, a) → r.data = [] →
      ∀ v, parseDerAny (Input.fromSlice x) ≠ .ok v) := by
  rw [fromSlice_append]
  constructor
  · rintro h hr ⟨r', a'⟩ h'
    have := good_parseBerAny.ext _ _ _ y h'
    rw [h] at this
    simp at this
    rw [this.1] at hr
    simp [hy] at hr
  · rintro h hr ⟨r', a'⟩ h'
    have := good_parseDerAny.ext _ _ _ y h'
    rw [h] at this
    simp at this
    rw [this.1] at hr
    simp [hy] at hr

/-- A case: no proper prefix of this SEQUENCE is accepted. -/
example : ∀ v, parseBerAny (Input.fromSlice [0x30, 3, 2]) ≠ .ok v :=
  (C07_no_truncation [0x30, 3, 2] [1, 5] (by simp) ⟨[], 5, 5⟩ ⟨⟨.universal, true, 16, .definite 3, some [0x30],
    some ⟨[0x30, 3], 0, 2⟩⟩, ⟨[2, 1, 5], 2, 5⟩⟩).1 (by decide +kernel) rfl

/-- **C08** Header and generic object parsing never panics and always terminates, on any input
(BER and DER, any span). -/
theorem C08_no_panic (i : Input) :
    parseHeader i ≠ .error .panic ∧ parseHeader i ≠ .error .diverge ∧
    parseHeaderDer i ≠ .error .panic ∧ parseHeaderDer i ≠ .error .diverge ∧
    parseBerAny i ≠ .error .panic ∧ parseBerAny i ≠ .error .diverge ∧
    parseDerAny i ≠ .error .panic ∧ parseDerAny i ≠ .error .diverge :=
  ⟨good_parseHeader.noPanic i, good_parseHeader.noDiverge i,
   good_parseHeaderDer.noPanic i, good_parseHeaderDer.noDiverge i,
   good_parseBerAny.noPanic i, good_parseBerAny.noDiverge i,
   good_parseDerAny.noPanic i, good_parseDerAny.noDiverge i⟩

/-- A case: a length of eight octets, all ones, on the edge of what the length parser accepts. -/
example : parseBerAny (Input.fromSlice [4, 0x88, 255, 255, 255, 255, 255, 255, 255, 255]) =
    .error (.incomplete 18446744073709551615) := by decide +kernel

/-- Header `30 80` in front of anything. -/
theorem parseHeader_3080 (i : Input) (rest : Bytes) (hd : i.data = [0x30, 0x80] ++ rest) :
    parseHeader i = .ok (after i 2, ⟨.universal, true, 16, .indefinite, some [0x30],
      some (first i 2)⟩) :=
  have h1 : Ident .universal true 16 [0x30] := .low _ (by decide) (by decide)
  have h2 : Len true .indefinite [0x80] := .indefinite _ (by decide) rfl rfl
  parseHeader_ok.mpr ⟨[0x30], [0x80], h1, h2, by simp [hd], rfl, rfl, rfl⟩

/-- Header `00 00` in front of anything. -/
theorem parseHeader_0000 (i : Input) (rest : Bytes) (hd : i.data = [0x00, 0x00] ++ rest) :
    parseHeader i = .ok (after i 2, ⟨.universal, false, 0, .definite 0, some [0x00],
      some (first i 2)⟩) :=
  have h1 : Ident .universal false 0 [0x00] := .low _ (by decide) (by decide)
  have h2 : Len false (.definite 0) [0x00] := .short _ (by decide) (by decide)
  parseHeader_ok.mpr ⟨[0x00], [0x00], h1, h2, by simp [hd], rfl, rfl, rfl⟩

/-- Skipping the content of `k + 1` nested sequences with a recursion budget of `d`. -/
theorem skip_nest (d k : Nat) (i : Input) (rest : Bytes) (h : Header)
    (hh : h.length = .indefinite) (hc : h.constructed = true)
    (hd : i.data = nest k ++ [0, 0] ++ rest) :
    if k + 1 < d then skipContent d i h = .ok (after i ((nest k).length + 2), false)
    else ∃ j, skipContent d i h = .error (.error j .berMaxDepth) := by
  induction d generalizing k i rest h with
  | zero => rw [if_neg (by omega)]; exact ⟨i, rfl⟩
  | succ d ih =>
    have hg := good_skipContent d
    rw [skipContent_indef hh, hc]
    simp only [if_true]
    rw [skipLoopL_eq hg]
    cases k with
    | zero =>
      have hd' : i.data = [0x00, 0x00] ++ rest := by simpa [nest] using hd
      rw [parseHeader_0000 i rest hd']
      simp only [bind_ok]
      cases d with
      | zero => rw [if_neg (by omega)]; exact ⟨after i 2, rfl⟩
      | succ d =>
        rw [if_pos (by omega), skipContent_def (n := 0) rfl]
        simp [tagEndOfContent, nest]
    | succ k =>
      have hd' : i.data = [0x30, 0x80] ++ (nest k ++ [0, 0] ++ ([0, 0] ++ rest)) := by
        rw [hd]; simp [nest]
      rw [parseHeader_3080 i _ hd']
      simp only [bind_ok]
      have hi2 : (after i 2).data = nest k ++ [0, 0] ++ ([0, 0] ++ rest) := by
        simp [hd']
      have := ih k (after i 2) ([0, 0] ++ rest) ⟨.universal, true, 16, .indefinite, some [0x30],
        some (first i 2)⟩ rfl rfl hi2
      by_cases hlt : k + 1 < d
      · rw [if_pos hlt] at this
        rw [if_pos (by omega), this]
        simp only [bind_ok, Bool.false_eq_true, if_false]
        rw [skipLoopL_eq hg]
        have hi3 : (after (after i 2) ((nest k).length + 2)).data = [0x00, 0x00] ++ rest := by
          have : List.drop ((nest k).length + 2) (nest k ++ ([0, 0] ++ ([0, 0] ++ rest)))
              = [0, 0] ++ rest := by
            rw [← List.append_assoc]; exact List.drop_left' (by simp)
          simp only [after_data] at hi2 ⊢
          rw [hi2, List.append_assoc, this]
        rw [parseHeader_0000 _ rest hi3]
        simp only [bind_ok]
        cases d with
        | zero => omega
        | succ d =>
          rw [skipContent_def (n := 0) rfl]
          simp [tagEndOfContent, nest]
          congr 1; omega
      · rw [if_neg hlt] at this
        obtain ⟨j, hj⟩ := this
        rw [if_neg (by omega), hj]
        exact ⟨j, rfl⟩

/-- **C09** The nesting limit is exact: `k + 1` nested indefinite-length sequences followed by
anything are accepted, with the inner sequences as content and what follows as remainder, when
`k + 1 < 50`, and rejected with `BerMaxDepth` otherwise. -/
theorem C09_nesting_limit (k : Nat) (i : Input) (rest : Bytes)
    (hd : i.data = nest (k + 1) ++ rest) :
    if k + 1 < 50 then
      ∃ r a, parseBerAny i = .ok (r, a) ∧ r.data = rest ∧ a.data.data = nest k ∧
        a.header.tag = 16 ∧ a.header.length = .indefinite
    else ∃ j, parseBerAny i = .error (.error j .berMaxDepth) := by
  have hd' : i.data = [0x30, 0x80] ++ (nest k ++ [0, 0] ++ rest) := by rw [hd]; simp [nest]
  have hp := parseHeader_3080 i _ hd'
  have hs := skip_nest 50 k (after i 2) rest ⟨.universal, true, 16, .indefinite, some [0x30],
    some (first i 2)⟩ rfl rfl (by simp [hd'])
  split
  · rename_i hlt
    rw [if_pos hlt] at hs
    refine ⟨after (after i 2) ((nest k).length + 2), ⟨⟨.universal, true, 16, .indefinite,
      some [0x30], some (first i 2)⟩, first (after i 2) (nest k).length⟩, ?_, ?_, ?_, rfl, rfl⟩
    · refine parseBerAny_ok.mpr ⟨_, hp, ?_⟩
      rw [berContent_eq]
      simp only [MAX_RECURSION, hs, bind_ok]
      simp [Length.isDefinite]
      congr 1; omega
    · rw [after_after, after_data, hd]
      simp [nest]
      rw [show 2 + ((nest k).length + 2) = (nest k).length + 4 by omega]
      simp
    · simp [hd']
  · rename_i hlt
    rw [if_neg hlt] at hs
    obtain ⟨j, hj⟩ := hs
    refine ⟨j, ?_⟩
    unfold parseBerAny
    rw [hp]
    simp only [bind_ok]
    rw [berContent_eq]
    simp only [MAX_RECURSION, hj, bind_err]

example : ∃ rest, (Input.fromSlice (nest 3 ++ [1, 2])).data = nest (2 + 1) ++ rest :=
  ⟨[1, 2], rfl⟩

/-- **C10** DER: an accepted object has a definite length and exactly that many content bytes; an
indefinite-length header is answered with the `IndefiniteLength` constraint error. -/
theorem C10_der_definite (i : Input) :
    (∀ r a, parseDerAny i = .ok (r, a) → a.header.length = .definite a.data.data.length) ∧
    (∀ r h, parseHeader i = .ok (r, h) → h.length = .indefinite →
      parseDerAny i = .error (.error i (.derConstraintFailed .indefiniteLength)) ∧
      parseHeaderDer i = .error (.error i (.derConstraintFailed .indefiniteLength))) := by
  constructor
  · intro r a h
    obtain ⟨r1, n, hp, hl, hle, hr, hd⟩ := parseDerAny_ok.mp h
    rw [hl, hd]; simp; omega
  · intro r h hp hl
    have : parseHeaderDer i = .error (.error i (.derConstraintFailed .indefiniteLength)) := by
      unfold parseHeaderDer
      rw [hp]; simp [hl, Length.isDefinite, nomErr]
    exact ⟨by rw [parseDerAny_eq, this]; rfl, this⟩

example : ∃ r h, parseHeader (Input.fromSlice [0x30, 0x80, 0x00, 0x00]) = .ok (r, h) ∧
    h.length = .indefinite := ⟨_, _, parseHeader_3080 _ [0, 0] rfl, rfl⟩

/-- **C11** (generic objects) DER is a subset of BER: whatever the DER parser accepts the BER parser
accepts with the same header, content and remainder. -/
theorem C11_der_subset_ber_any (i r : Input) (a : Any) (h : parseDerAny i = .ok (r, a)) :
    parseBerAny i = .ok (r, a) := by
  obtain ⟨r1, n, hp, hl, hle, hr, hd⟩ := parseDerAny_ok.mp h
  refine parseBerAny_ok.mpr ⟨r1, hp, ?_⟩
  rw [show MAX_RECURSION = 49 + 1 from rfl]
  refine berContent_ok.mpr ?_
  rw [hl]
  exact ⟨hle, hr, hd⟩

example : ∃ v, parseDerAny (Input.fromSlice [0x04, 0x02, 0x01, 0x02, 0x03]) = .ok v :=
  ⟨_, rfl⟩

end Asn1

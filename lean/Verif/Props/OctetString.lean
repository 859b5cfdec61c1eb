import Verif.Proofs.Segmented
/-!
# OCTET STRING and segmented encodings (C22, C23)
-/
namespace Asn1
open Spec Wr

theorem octet_encodes (v : Bytes) : Encodes octetToBer v v :=
  ⟨((writes_writeAll v).bind (f := fun _ => (pure v.length : Wr Nat)) (writes_pure _)).congr
    (by simp) rfl, rfl, (by decide : (4 : Nat) < 2 ^ 32), rfl⟩

theorem octetLeaf_ok (h : Header) (i : Input) :
    octetLeaf h i = .ok (after i i.data.length, i.data) := by
  unfold octetLeaf
  rw [takeSplit_eq, if_pos (by simp [Input.len])]
  simp [Input.len]

theorem foldl_append_eq (vs : List Bytes) : vs.foldl (· ++ ·) [] = vs.flatten := by
  have : ∀ (vs : List Bytes) (s : Bytes), vs.foldl (· ++ ·) s = s ++ vs.flatten := by
    intro vs
    induction vs with
    | nil => simp
    | cons v vs ih => intro s; rw [List.foldl_cons, ih]; simp
  simpa using this vs []

/-- Value of a constructed OCTET STRING (at most five levels). -/
def OctetSegs (bs v : Bytes) : Prop := Segs 4 (fun bs v => v = bs) List.flatten 5 true bs v

theorem octetContent_prim {h : Header} {i r : Input} {v : Bytes} (hc : h.constructed = false) :
    octetContent h i = .ok (r, v) ↔ r = after i i.data.length ∧ v = i.data := by
  unfold octetContent
  rw [if_pos (by simp [hc]), octetLeaf_ok]
  simp [eq_comm]

theorem octetContent_constr {h : Header} {i : Input} {v : Bytes} (hc : h.constructed = true)
    (hcons : Consistent h i) :
    (∃ r, octetContent h i = .ok (r, v)) ↔ OctetSegs i.data v := by
  unfold octetContent
  rw [if_neg (by simp [hc])]
  have := parseSegmented_ok (acceptTag := tagIs tagOctetString) (empty := ([] : Bytes))
    (append := (· ++ ·)) (leaf := octetLeaf) (tag := 4) (Leaf := fun bs v => v = bs)
    (join := List.flatten) (fun t => by simp only [tagIs, tagOctetString]; exact decide_eq_true_iff) foldl_append_eq
    (fun h i w _ _ => by simp [octetLeaf_ok, eq_comm]) 5 h i v hcons
  rw [hc] at this
  exact this

theorem safe_octet : octetBer.Safe ∧ octetDer.Safe := by
  have h : octetBer.Safe := by
    intro h i
    show NoPanic (octetContent h i)
    unfold octetContent
    split
    · rw [octetLeaf_ok]; exact noPanic_ok _
    · exact parseSegmented_safe (fun h i => by rw [octetLeaf_ok]; exact noPanic_ok _) _ h i
  exact ⟨h, fun hd i => NoPanic.bind (safe_assertPrimitive hd i) fun _ _ => h hd i⟩

theorem octetDer_content {h : Header} {i r : Input} {v : Bytes} :
    octetDer.content h i = .ok (r, v) ↔
      h.constructed = false ∧ r = after i i.data.length ∧ v = i.data := by
  show (h.assertPrimitive i >>= fun _ => octetContent h i) = _ ↔ _
  rw [bind_eq_ok]
  constructor
  · rintro ⟨_, h1, h2⟩
    have hc := assertPrimitive_ok.mp h1
    exact ⟨hc, (octetContent_prim hc).mp h2⟩
  · rintro ⟨h1, h2⟩
    exact ⟨(), assertPrimitive_ok.mpr h1, (octetContent_prim h1).mpr h2⟩

/-- **C22** Every byte string shorter than `2^64` encodes as an OCTET STRING that decodes, through
the four APIs, to the same bytes, leaving what follows. -/
theorem C22_octetstring_roundtrip (v : Bytes) (hv : v.length < 2 ^ 64) :
    ParseBerBack octetToBer octetBer v v ∧ FromBerBack octetToBer octetBer v v ∧
    ParseDerBack octetToBer octetDer v v ∧ FromDerBack octetToBer octetBer octetCheck v v := by
  have hd : Decodes octetBer false v v := fun h d h1 _ h3 =>
    ⟨_, (octetContent_prim h1).mpr ⟨rfl, h3.symm⟩⟩
  have hdD : Decodes octetDer false v v := fun h d h1 _ h3 =>
    ⟨_, octetDer_content.mpr ⟨h1, rfl, h3.symm⟩⟩
  have h1 := back_ber (p := octetBer) (octet_encodes v) hv rfl hd
  refine ⟨h1.1, h1.2, back_der (octet_encodes v) hv rfl hdD,
    back_fromDer (octet_encodes v) hv rfl hd ?_⟩
  intro a h _ _
  unfold octetCheck assertPrimitiveS
  rw [h]; rfl

/-- A non-trivial case: 200 bytes take a long-form length. -/
example : octetToBer.toVec (List.replicate 200 7) =
    .ok ([0x04, 0x81, 0xc8] ++ List.replicate 200 7) := by decide +kernel

/-- **C22** (`&[u8]`) Slices are read back from the same encodings; they accept exactly the
primitive ones. -/
theorem C22_slices (i r : Input) (v : Bytes) :
    (sliceBer.parseBer i = .ok (r, v) ↔ ∃ a, parseBerAny i = .ok (r, a) ∧ a.header.tag = 4 ∧
      a.header.constructed = false ∧ v = a.data.data) ∧
    (sliceDer.parseDer i = .ok (r, v) ↔ octetDer.parseDer i = .ok (r, v)) ∧
    (octetDer.parseDer i = .ok (r, v) ↔ ∃ a, parseDerAny i = .ok (r, a) ∧ a.header.tag = 4 ∧
      a.header.constructed = false ∧ v = a.data.data) := by
  have hs : ∀ h i r v, sliceContent h i = .ok (r, v) ↔
      h.constructed = false ∧ r = after i i.data.length ∧ v = i.data := by
    intro h i r v
    unfold sliceContent
    cases h.constructed with
    | true => simp [nomErr]
    | false =>
      simp only [Bool.false_eq_true, if_false, true_and]
      rw [takeSplit_eq, if_pos (by simp [Input.len])]
      simp [Input.len, eq_comm]
  have hsd : ∀ h i r v, sliceDer.content h i = .ok (r, v) ↔
      h.constructed = false ∧ r = after i i.data.length ∧ v = i.data := by
    intro h i r v
    show (h.assertPrimitive i >>= fun _ => sliceContent h i) = _ ↔ _
    rw [bind_eq_ok]
    constructor
    · rintro ⟨_, _, h2⟩; exact (hs _ _ _ _).mp h2
    · intro h1; exact ⟨(), assertPrimitive_ok.mpr h1.1, (hs _ _ _ _).mpr h1⟩
  refine ⟨?_, ?_, ?_⟩
  · rw [parseBer_ok]
    constructor
    · rintro ⟨a, x, h1, h2, h3⟩
      obtain ⟨h4, _, h5⟩ := (hs _ _ _ _).mp h3
      exact ⟨a, h1, by simpa [sliceBer, tagIs, tagOctetString] using h2, h4, h5⟩
    · rintro ⟨a, h1, h2, h3, h4⟩
      exact ⟨a, _, h1, by simpa [sliceBer, tagIs, tagOctetString] using h2,
        (hs _ _ _ _).mpr ⟨h3, rfl, h4⟩⟩
  · rw [parseDer_ok, parseDer_ok]
    constructor
    · rintro ⟨a, x, h1, h2, h3⟩
      exact ⟨a, x, h1, h2, octetDer_content.mpr ((hsd _ _ _ _).mp h3)⟩
    · rintro ⟨a, x, h1, h2, h3⟩
      exact ⟨a, x, h1, h2, (hsd _ _ _ _).mpr (octetDer_content.mp h3)⟩
  · rw [parseDer_ok]
    constructor
    · rintro ⟨a, x, h1, h2, h3⟩
      obtain ⟨h4, _, h5⟩ := octetDer_content.mp h3
      exact ⟨a, h1, by simpa [octetDer, tagIs, tagOctetString] using h2, h4, h5⟩
    · rintro ⟨a, h1, h2, h3, h4⟩
      exact ⟨a, _, h1, by simpa [octetDer, tagIs, tagOctetString] using h2,
        octetDer_content.mpr ⟨h3, rfl, h4⟩⟩

/-- **C23** What BER accepts as OCTET STRING, and the value: primitive contents are the value;
constructed contents must be made of objects with tag number 4 only, up to the end (or to an
object with tag number 0), within five levels, and their contents are concatenated in order.
In particular an object with another tag among the segments makes the parse fail. -/
theorem C23_segmented_strings (i r : Input) (v : Bytes) :
    octetBer.parseBer i = .ok (r, v) ↔ ∃ a, parseBerAny i = .ok (r, a) ∧ a.header.tag = 4 ∧
      ((a.header.constructed = false ∧ v = a.data.data) ∨
       (a.header.constructed = true ∧
        Segs 4 (fun bs v => v = bs) List.flatten 5 true a.data.data v)) := by
  rw [parseBer_ok]
  constructor
  · rintro ⟨a, x, h1, h2, h3⟩
    refine ⟨a, h1, by simpa [octetBer, tagIs, tagOctetString] using h2, ?_⟩
    cases hc : a.header.constructed with
    | false => exact .inl ⟨rfl, ((octetContent_prim hc).mp h3).2⟩
    | true => exact .inr ⟨rfl, (octetContent_constr hc (consistent_ber h1)).mp ⟨x, h3⟩⟩
  · rintro ⟨a, h1, h2, h3⟩
    have h2' : octetBer.acceptTag a.header.tag = true := by
      simpa [octetBer, tagIs, tagOctetString] using h2
    rcases h3 with ⟨hc, rfl⟩ | ⟨hc, h3⟩
    · exact ⟨a, _, h1, h2', (octetContent_prim hc).mpr ⟨rfl, rfl⟩⟩
    · obtain ⟨x, hx⟩ := (octetContent_constr hc (consistent_ber h1)).mpr h3
      exact ⟨a, x, h1, h2', hx⟩

/-! ### Every tree of segments -/

theorem ident_ne_nil {c : Class} {p : Bool} {t : Nat} {id : Bytes} (h : Ident c p t id) :
    1 ≤ id.length := by cases h <;> simp

theorem len_ne_nil {p : Bool} {l : Length} {len : Bytes} (h : Len p l len) : 1 ≤ len.length := by
  cases h <;> simp

/-- An encoding with segments is an element, and is not taken for end-of-contents octets. -/
theorem segEnc_elem (d : Nat) : ∀ e v, SegEnc d e v → Elem LaxEoc d e ∧ ¬ LaxEoc e := by
  have prim : ∀ d e v, (∃ id len, Ident .universal false 4 id ∧
      Len false (.definite v.length) len ∧ e = id ++ len ++ v) → Elem LaxEoc d e ∧ ¬ LaxEoc e := by
    rintro d e v ⟨id, len, h1, h2, rfl⟩
    have hE : DefElem (id ++ len ++ v) := ⟨_, _, _, id, len, v, h1, h2, rfl⟩
    refine ⟨by cases d; exact hE; exact .inl hE, fun h => ?_⟩
    exact absurd ((laxEoc_def h1 h2 rfl).mp h).2 (by decide)
  induction d with
  | zero =>
    intro e v h
    unfold SegEnc at h
    rcases h with h | h
    · exact prim _ _ _ h
    · exact h.elim
  | succ d ih =>
    intro e v h
    unfold SegEnc at h
    rcases h with h | ⟨kids, _, h2, _, id, len, h4, h5⟩
    · exact prim _ _ _ h
    · rcases h5 with ⟨h5, rfl⟩ | ⟨h5, rfl⟩
      · refine ⟨.inl ⟨_, _, _, id, len, _, h4, h5, rfl⟩, fun h => ?_⟩
        exact absurd ((laxEoc_def h4 h5 rfl).mp h).2 (by decide)
      · refine ⟨.inr ⟨_, _, id, len, kids.map (·.1), [0, 0], h4, h5, ⟨?_, ?_⟩, rfl⟩, ?_⟩
        · intro it hit
          obtain ⟨k, hk, rfl⟩ := List.mem_map.mp hit
          exact ih _ _ (h2 k hk)
        · exact strict_is_lax rfl
        · intro h
          rw [List.append_assoc] at h
          exact laxEoc_indef h4 h5 h

theorem parseBerAny_of {i : Input} {c : Class} {p : Bool} {t : Nat} {l : Length}
    {id len content marker rest : Bytes} (h1 : Ident c p t id) (h2 : Len p l len)
    (hd : i.data = id ++ len ++ content ++ marker ++ rest)
    (hb : match l with
      | .definite n => content.length = n ∧ marker = []
      | .indefinite => p = true ∧ ∃ items, Items LaxEoc (Elem LaxEoc 48) items marker ∧
          content = items.flatten ∧ marker.length = 2) :
    ∃ a, parseBerAny i = .ok (after i (id ++ len ++ content ++ marker).length, a) ∧
      a.header.cls = c ∧ a.header.constructed = p ∧ a.header.tag = t ∧ a.header.length = l ∧
      a.data.data = content := by
  let r1 := after i (id.length + len.length)
  let hdr : Header := ⟨c, p, t, l, some id, some (first i (id.length + len.length))⟩
  have hr1 : r1.data = content ++ marker ++ rest := by
    show i.data.drop _ = _
    rw [hd, List.append_assoc, List.append_assoc, List.drop_left' (by simp)]
    simp
  have hp : parseHeader i = .ok (r1, hdr) :=
    parseHeader_ok.mpr ⟨id, len, h1, h2, by rw [hr1, hd]; simp, rfl, rfl, rfl⟩
  have hdat : (first r1 content.length).data = content := by
    rw [first_data, hr1, List.append_assoc, List.take_left' rfl]
  refine ⟨⟨hdr, first r1 content.length⟩, parseBerAny_ok.mpr ⟨r1, hp, ?_⟩, rfl, rfl, rfl, rfl, hdat⟩
  rw [show MAX_RECURSION = 49 + 1 from rfl, berContent_ok]
  show match l with | _ => _
  cases l with
  | definite n =>
    obtain ⟨hb1, rfl⟩ := hb
    refine ⟨?_, ?_, ?_⟩
    · rw [hr1]; simp; omega
    · show _ = after (after i _) n
      rw [after_after]; congr 1; simp; omega
    · show first r1 content.length = first r1 n
      rw [hb1]
  | indefinite =>
    obtain ⟨hp1, items, hb1, hb2, hb3⟩ := hb
    refine ⟨hp1, by omega, items, marker, hb1, ?_, ?_, ?_⟩
    · rw [hr1, hb2, after_data, hd, List.drop_left' (by simp [hb2])]
    · show _ = after (after i _) _
      rw [after_after]; congr 1; rw [← hb2]; simp; omega
    · show first r1 content.length = first r1 _
      rw [← hb2]; congr 1; omega

theorem elem_mono {E : Bytes → Prop} {d d' : Nat} (h : d ≤ d') : ∀ {e}, Elem E d e → Elem E d' e := by
  induction d' generalizing d with
  | zero => obtain rfl : d = 0 := by omega
            exact id
  | succ d' ih =>
    intro e he
    match d, h with
    | 0, _ => exact .inl he
    | d + 1, h =>
      rcases he with he | ⟨c, tag, id, len, items, eoc, h1, h2, ⟨h3, h4⟩, h5⟩
      · exact .inl he
      · exact .inr ⟨c, tag, id, len, items, eoc, h1, h2,
          ⟨fun it hit => ⟨ih (by omega) (h3 it hit).1, (h3 it hit).2⟩, h4⟩, h5⟩

/-- One encoding with segments, read as an object. -/
theorem segEnc_obj (d : Nat) (hd : d ≤ 48) (e v rest : Bytes) (h : SegEnc d e v) (i : Input)
    (hi : i.data = e ++ rest) :
    ∃ a, parseBerAny i = .ok (after i e.length, a) ∧ a.header.tag = 4 ∧
      ((a.header.constructed = false ∧ a.data.data = v) ∨
       ∃ (d' : Nat) (kids : List (Bytes × Bytes)), d = d' + 1 ∧
        a.header.constructed = true ∧ kids ≠ [] ∧ (∀ k ∈ kids, SegEnc d' k.1 k.2) ∧ v = (kids.map (·.2)).flatten ∧
        a.data.data = (kids.map (·.1)).flatten) := by
  unfold SegEnc at h
  rcases h with ⟨id, len, h1, h2, rfl⟩ | h
  · obtain ⟨a, g1, _, g3, g4, _, g6⟩ := parseBerAny_of (i := i) (content := v) (marker := [])
      (rest := rest) h1 h2 (by simp [hi]) ⟨rfl, rfl⟩
    exact ⟨a, by simpa using g1, g4, .inl ⟨g3, g6⟩⟩
  · match d with
    | 0 => exact h.elim
    | d + 1 =>
      obtain ⟨kids, hk, h2, h3, id, len, h4, h5⟩ := h
      rcases h5 with ⟨h5, rfl⟩ | ⟨h5, rfl⟩
      · obtain ⟨a, g1, _, g3, g4, _, g6⟩ := parseBerAny_of (i := i)
          (content := (kids.map (·.1)).flatten) (marker := []) (rest := rest) h4 h5
          (by simp [hi]) ⟨rfl, rfl⟩
        exact ⟨a, by simpa using g1, g4, .inr ⟨d, kids, rfl, g3, hk, h2, h3, g6⟩⟩
      · have hit : ∀ it ∈ kids.map (·.1), Elem LaxEoc 48 it ∧ ¬ LaxEoc it := by
          intro it hit
          obtain ⟨k, hk, rfl⟩ := List.mem_map.mp hit
          obtain ⟨q1, q2⟩ := segEnc_elem d _ _ (h2 k hk)
          exact ⟨elem_mono (by omega) q1, q2⟩
        obtain ⟨a, g1, _, g3, g4, _, g6⟩ := parseBerAny_of (i := i)
          (content := (kids.map (·.1)).flatten) (marker := [0, 0]) (rest := rest) h4 h5
          (by simp [hi]) ⟨rfl, kids.map (·.1), ⟨hit, strict_is_lax rfl⟩, rfl, rfl⟩
        exact ⟨a, g1, g4, .inr ⟨d, kids, rfl, g3, hk, h2, h3, g6⟩⟩

theorem segEnc_kids (d : Nat) (hd : d ≤ 48) : ∀ kids : List (Bytes × Bytes),
    (∀ k ∈ kids, SegEnc d k.1 k.2) → ∃ os vs, Objects (kids.map (·.1)).flatten os ∧
      (∀ o ∈ os, o.tag = 4) ∧
      Pointwise (fun o w => Segs 4 (fun bs v => v = bs) List.flatten (d + 1) o.constructed
        o.content w) (os.filter (fun o => o.content ≠ [])) vs ∧
      vs.flatten = (kids.map (·.2)).flatten := by
  induction d with
  | zero =>
    intro kids
    induction kids with
    | nil => intro _; exact ⟨[], [], .nil, by simp, .nil, rfl⟩
    | cons k kids ih =>
      intro h
      obtain ⟨os, vs, h1, h2, h3, h4⟩ := ih (fun k hk => h k (List.mem_cons_of_mem _ hk))
      obtain ⟨a, g1, g2, g3⟩ := segEnc_obj 0 hd k.1 k.2 (kids.map (·.1)).flatten
        (h k List.mem_cons_self) (Input.fromSlice _) rfl
      obtain ⟨g3, g4⟩ | ⟨_, _, g3, _⟩ := g3
      · have hO : Objects (((k :: kids).map (·.1)).flatten) (Obj.of a :: os) := by
          rw [List.map_cons, List.flatten_cons]
          refine .cons g1 (by omega) ?_
          rw [after_data]; simp only [Input.fromSlice]; rw [List.drop_left' rfl]; exact h1
        have hT : ∀ o ∈ Obj.of a :: os, o.tag = 4 := by
          intro o ho
          rcases List.mem_cons.mp ho with rfl | ho
          · exact g2
          · exact h2 o ho
        by_cases he : k.2 = []
        · refine ⟨_, vs, hO, hT, ?_, by simp [he, h4]⟩
          rw [List.filter_cons_of_neg (by simp [Obj.of, g4, he])]; exact h3
        · refine ⟨_, k.2 :: vs, hO, hT, ?_, by simp [h4]⟩
          rw [List.filter_cons_of_pos (by simp [Obj.of, g4, he])]
          refine .cons ?_ h3
          show Segs _ _ _ _ a.header.constructed a.data.data _
          rw [g3, g4]; exact ⟨he, rfl⟩
      · omega
  | succ d ihd =>
    intro kids
    induction kids with
    | nil => intro _; exact ⟨[], [], .nil, by simp, .nil, rfl⟩
    | cons k kids ih =>
      intro h
      obtain ⟨os, vs, h1, h2, h3, h4⟩ := ih (fun k hk => h k (List.mem_cons_of_mem _ hk))
      obtain ⟨a, g1, g2, g3⟩ := segEnc_obj (d + 1) hd k.1 k.2 (kids.map (·.1)).flatten
        (h k List.mem_cons_self) (Input.fromSlice _) rfl
      have hO : Objects (((k :: kids).map (·.1)).flatten) (Obj.of a :: os) := by
        rw [List.map_cons, List.flatten_cons]
        refine .cons g1 (by omega) ?_
        rw [after_data]; simp only [Input.fromSlice]; rw [List.drop_left' rfl]; exact h1
      have hT : ∀ o ∈ Obj.of a :: os, o.tag = 4 := by
        intro o ho
        rcases List.mem_cons.mp ho with rfl | ho
        · exact g2
        · exact h2 o ho
      obtain ⟨g3, g4⟩ | ⟨d', ks, g3, g4, g5, g6, g7, g8⟩ := g3
      · by_cases he : k.2 = []
        · refine ⟨_, vs, hO, hT, ?_, by simp [he, h4]⟩
          rw [List.filter_cons_of_neg (by simp [Obj.of, g4, he])]; exact h3
        · refine ⟨_, k.2 :: vs, hO, hT, ?_, by simp [h4]⟩
          rw [List.filter_cons_of_pos (by simp [Obj.of, g4, he])]
          refine .cons ?_ h3
          show Segs _ _ _ _ a.header.constructed a.data.data _
          rw [g3, g4]; exact ⟨he, rfl⟩
      · obtain rfl : d' = d := by omega
        obtain ⟨os', vs', q1, q2, q3, q4⟩ := ihd (by omega) ks g6
        have hne : a.data.data ≠ [] := by
          rw [g8]
          obtain ⟨k', hk'⟩ := List.exists_mem_of_ne_nil ks g5
          intro hf
          have := List.flatten_eq_nil_iff.mp hf k'.1 (List.mem_map.mpr ⟨k', hk', rfl⟩)
          have hE := (segEnc_obj d' (by omega) k'.1 k'.2 [] (g6 k' hk')
            (Input.fromSlice k'.1) (by simp [Input.fromSlice]))
          obtain ⟨a', hE, _⟩ := hE
          exact parse_nil_fails (Input.fromSlice k'.1) this _ hE
        refine ⟨_, k.2 :: vs, hO, hT, ?_, by simp [h4]⟩
        rw [List.filter_cons_of_pos (by simp [Obj.of, hne])]
        refine .cons ?_ h3
        show Segs _ _ _ _ a.header.constructed a.data.data _
        rw [g4]
        exact ⟨hne, os', vs', by rw [g8]; exact q1, q2, q3, by rw [q4, g7]⟩

/-- **C23** Every constructed encoding of X.690 (segments of definite or indefinite length, nested
up to four levels, with any number of segments on each level) decodes to the concatenation of
the segments in order, whatever follows it. -/
theorem C23_segment_trees (e v rest : Bytes) (h : SegEnc 4 e v) :
    ∃ r, octetBer.parseBer (Input.fromSlice (e ++ rest)) = .ok (r, v) ∧ r.data = rest := by
  obtain ⟨a, g1, g2, g3⟩ := segEnc_obj 4 (by decide) e v rest h (Input.fromSlice (e ++ rest)) rfl
  refine ⟨_, (C23_segmented_strings _ _ _).mpr ⟨a, g1, g2, ?_⟩, ?_⟩
  · rcases g3 with ⟨g3, g4⟩ | ⟨d', ks, g3, g4, g5, g6, g7, g8⟩
    · exact .inl ⟨g3, g4.symm⟩
    · obtain rfl : d' = 3 := by omega
      obtain ⟨os', vs', q1, q2, q3, q4⟩ := segEnc_kids 3 (by decide) ks g6
      refine .inr ⟨g4, ?_, os', vs', by rw [g8]; exact q1, q2, q3, by rw [q4, g7]⟩
      rw [g8]
      obtain ⟨k', hk'⟩ := List.exists_mem_of_ne_nil ks g5
      intro hf
      have := List.flatten_eq_nil_iff.mp hf k'.1 (List.mem_map.mpr ⟨k', hk', rfl⟩)
      obtain ⟨a', hE, _⟩ := segEnc_obj 3 (by omega) k'.1 k'.2 [] (g6 k' hk')
        (Input.fromSlice k'.1) (by simp [Input.fromSlice])
      exact parse_nil_fails (Input.fromSlice k'.1) this _ hE
  · rw [after_data]; simp only [Input.fromSlice]; rw [List.drop_left' rfl]

/-- Two segments, the second one nested in an indefinite-length one. -/
example : octetBer.parseBer (Input.fromSlice
    [0x24, 0x80, 0x04, 0x02, 1, 2, 0x24, 0x80, 0x04, 0x01, 3, 0x00, 0x00, 0x00, 0x00, 9]) =
    .ok (⟨[9], 15, 16⟩, [1, 2, 3]) := by decide +kernel

/-- **C23** Deviations. Five nested constructed levels are refused, the empty constructed string
`24 00` is refused although X.690 allows it, bytes after an object with tag number 0 inside a
definite-length string are ignored, and an INTEGER among the segments is an error. -/
theorem C23_deviations :
    (∃ e, octetBer.parseBer (Input.fromSlice
      [0x24, 10, 0x24, 8, 0x24, 6, 0x24, 4, 0x24, 2, 0x04, 0]) = .error e) = False ∧
    octetBer.parseBer (Input.fromSlice
      [0x24, 11, 0x24, 9, 0x24, 7, 0x24, 5, 0x24, 3, 0x04, 1, 7]) =
      nomErr ⟨[7], 12, 13⟩ .berMaxDepth ∧
    octetBer.parseBer (Input.fromSlice [0x24, 0]) = nomErr ⟨[], 2, 2⟩ .invalidLength ∧
    octetBer.parseBer (Input.fromSlice [0x24, 7, 0x04, 1, 7, 0, 0, 0xff, 0xff]) =
      .ok (⟨[], 9, 9⟩, [7]) ∧
    octetBer.parseBer (Input.fromSlice [0x24, 6, 0x04, 1, 7, 0x02, 1, 7]) =
      nomErr ⟨[7], 7, 8⟩ .invalidTag := by
  refine ⟨?_, by decide +kernel, by decide +kernel, by decide +kernel, by decide +kernel⟩
  have : octetBer.parseBer (Input.fromSlice
      [0x24, 10, 0x24, 8, 0x24, 6, 0x24, 4, 0x24, 2, 0x04, 0]) = .ok (⟨[], 12, 12⟩, []) := by
    decide +kernel
  rw [this]; simp

/-- **C11** What DER accepts as OCTET STRING, BER accepts with the same value and remainder. -/
theorem C11_der_subset_ber_octet (i r : Input) (v : Bytes)
    (h : octetDer.parseDer i = .ok (r, v)) : octetBer.parseBer i = .ok (r, v) := by
  obtain ⟨a, h1, h2, h3, h4⟩ := (C22_slices i r v).2.2.mp h
  exact (C23_segmented_strings i r v).mpr ⟨a, C11_der_subset_ber_any _ _ _ h1, h2, .inl ⟨h3, h4⟩⟩

/-- A case. -/
example : octetBer.parseBer (Input.fromSlice [4, 2, 1, 2, 9]) = .ok (⟨[9], 4, 5⟩, [1, 2]) :=
  C11_der_subset_ber_octet _ _ _ (by decide +kernel)

/-- **C38** `parse_der` and `from_der` agree on OCTET STRING. -/
theorem C38_octet_apis_agree (bs rem : Bytes) (v : Bytes) :
    fromDer octetBer octetCheck bs = .ok (rem, v) ↔
      ∃ r, octetDer.parseDer (Input.fromSlice bs) = .ok (r, v) ∧ r.data = rem := by
  rw [fromDer_ok]
  constructor
  · rintro ⟨r, a, x, h1, h2, h3, h4, h5⟩
    refine ⟨r, (C22_slices _ _ _).2.2.mpr ⟨a, h1, ?_⟩, h2⟩
    have hc : a.header.constructed = false := by
      unfold octetCheck assertPrimitiveS at h3
      cases hcc : a.header.constructed with
      | false => rfl
      | true => rw [hcc] at h3; simp at h3
    exact ⟨by simpa [octetBer, tagIs, tagOctetString] using h4, hc,
      ((octetContent_prim hc).mp h5).2⟩
  · rintro ⟨r, h1, h2⟩
    obtain ⟨a, h3, h4, h5, h6⟩ := (C22_slices _ _ _).2.2.mp h1
    refine ⟨r, a, _, h3, h2, ?_, by simpa [octetBer, tagIs, tagOctetString] using h4,
      (octetContent_prim h5).mpr ⟨rfl, h6⟩⟩
    unfold octetCheck assertPrimitiveS; rw [h5]; rfl

end Asn1

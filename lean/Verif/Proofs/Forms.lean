import Verif.Spec.Forms
import Verif.Proofs.Built
import Verif.Props.Form
/-!
# Parsing objects with other length octets
-/
namespace Asn1
open Spec

variable {α β : Type}

/-! ### The relation -/

mutual

theorem likeObject_symm : ∀ {d : Nat} {b b' : Bytes}, LikeObject d b b' → LikeObject d b' b
  | _, _, _, .primitive hi hl hl' he => .primitive hi hl' hl he
  | _, _, _, .constructed hi hc ht ht' he hd =>
    .constructed hi (likeObjects_symm hc) ht' ht
      (he.imp_right fun h h' => h (likeObjects_empty (likeObjects_symm hc) h')) (by rw [Bool.or_comm]; exact hd)

theorem likeObjects_symm : ∀ {d : Nat} {b b' : Bytes}, LikeObjects d b b' → LikeObjects d b' b
  | _, _, _, .nil => .nil
  | _, _, _, .cons h ht => .cons (likeObject_symm h) (likeObjects_symm ht)

theorem likeObjects_empty : ∀ {d : Nat} {b b' : Bytes}, LikeObjects d b b' → b = [] → b' = []
  | _, _, _, .nil, _ => rfl
  | _, _, _, .cons (.primitive hi _ _ _) _, h => by
    have := ident_ne_nil hi
    have h := congrArg List.length h
    simp only [List.length_append, List.length_nil] at h
    omega
  | _, _, _, .cons (.constructed hi _ _ _ _ _) _, h => by
    have := ident_ne_nil hi
    have h := congrArg List.length h
    simp only [List.length_append, List.length_nil] at h
    omega

end

mutual

theorem likeObject_mono : ∀ {d e : Nat} {b b' : Bytes}, d ≤ e → LikeObject d b b' → LikeObject e b b'
  | _, _, _, _, _, .primitive hi hl hl' he => .primitive hi hl hl' he
  | _, _, _, _, h, .constructed hi hc ht ht' he hd => .constructed hi hc ht ht' he (Nat.le_trans hd h)

theorem likeObjects_mono : ∀ {d e : Nat} {b b' : Bytes}, d ≤ e → LikeObjects d b b' → LikeObjects e b b'
  | _, _, _, _, _, .nil => .nil
  | _, _, _, _, h, .cons h1 ht => .cons (likeObject_mono h h1) (likeObjects_mono h ht)

end

theorem elem_def {d : Nat} {e : Bytes} (h : DefElem e) : Elem LaxEoc d e := by
  cases d
  · exact h
  · exact .inl h

mutual

theorem likeObject_elem : ∀ {d : Nat} {b b' : Bytes}, LikeObject d b b' → Elem LaxEoc d b ∧ ¬ LaxEoc b
  | d, _, _, .primitive hi hl hl' he => by
    refine ⟨elem_def ⟨_, _, _, _, _, _, hi, hl, rfl⟩, fun h => ?_⟩
    obtain ⟨h1, h2⟩ := (laxEoc_def hi hl rfl).mp h
    exact he.elim (absurd h2) fun h => h (List.eq_nil_of_length_eq_zero h1)
  | e, _, _, .constructed (cs := cs) hi hc ht ht' he hd => by
    obtain ⟨items, h1, h2⟩ := likeObjects_items hc
    cases ht with
    | definite hl =>
      rw [← List.append_assoc]
      refine ⟨elem_def ⟨_, _, _, _, _, _, hi, hl, rfl⟩, fun h => ?_⟩
      obtain ⟨h3, h4⟩ := (laxEoc_def hi hl rfl).mp h
      exact he.elim (absurd h4) fun h => h (List.eq_nil_of_length_eq_zero h3)
    | indefinite hl =>
      simp only [Bool.true_or, Bool.toNat_true] at hd
      obtain ⟨e', rfl⟩ : ∃ e', e = e' + 1 := ⟨e - 1, by omega⟩
      rw [← List.append_assoc, ← List.append_assoc]
      constructor
      · refine .inr ⟨_, _, _, _, items, [0, 0], hi, hl, ⟨fun it hit => ?_, strict_is_lax rfl⟩, by rw [h1]⟩
        exact ⟨elem_mono (by omega) (h2 it hit).1, (h2 it hit).2⟩
      · rw [List.append_assoc]
        exact laxEoc_indef hi hl

theorem likeObjects_items : ∀ {d : Nat} {b b' : Bytes}, LikeObjects d b b' →
    ∃ items : List Bytes, b = items.flatten ∧ ∀ it ∈ items, Elem LaxEoc d it ∧ ¬ LaxEoc it
  | _, _, _, .nil => ⟨[], rfl, by simp⟩
  | _, _, _, .cons h ht => by
    obtain ⟨items, h1, h2⟩ := likeObjects_items ht
    have h3 := likeObject_elem h
    refine ⟨_ :: items, by rw [List.flatten_cons, h1], fun it hit => ?_⟩
    rcases List.mem_cons.mp hit with rfl | hit
    · exact h3
    · exact h2 it hit

end

/-- The same object but for the form of the lengths. -/
def Alike (d : Nat) (a a' : Any) : Prop :=
  a.header.cls = a'.header.cls ∧ a.header.tag = a'.header.tag ∧
  a.header.constructed = a'.header.constructed ∧
  if a.header.constructed = true then LikeObjects d a.data.data a'.data.data
  else SameHdr a.header a'.header ∧ a.data.data = a'.data.data

/-- A constructed object is read as its content. -/
theorem wrapped_parse {d : Nat} {c : Class} {tag : Nat} {id cs cs' t rest : Bytes} {k : Bool} {i : Input}
    (hi : Ident c true tag id) (hc : LikeObjects d cs cs') (ht : Wrapped cs k t) (hd : d + k.toNat ≤ 49)
    (hdat : i.data = id ++ t ++ rest) :
    ∃ a, parseBerAny i = .ok (after i (id ++ t).length, a) ∧ a.header.cls = c ∧ a.header.constructed = true ∧
      a.header.tag = tag ∧ a.data.data = cs := by
  cases ht with
  | definite hl =>
    obtain ⟨a, g1, g2, g3, g4, _, g6⟩ := parseBerAny_of (i := i) (content := cs) (marker := [])
      (rest := rest) hi hl (by simp [hdat]) ⟨rfl, rfl⟩
    exact ⟨a, by simpa using g1, g2, g3, g4, g6⟩
  | indefinite hl =>
    obtain ⟨items, h1, h2⟩ := likeObjects_items hc
    simp only [Bool.toNat_true] at hd
    obtain ⟨a, g1, g2, g3, g4, _, g6⟩ := parseBerAny_of (i := i) (content := cs) (marker := [0, 0])
      (rest := rest) hi hl (by simp [hdat]) ⟨rfl, items, ⟨fun it hit => ⟨elem_mono (by omega) (h2 it hit).1,
        (h2 it hit).2⟩, strict_is_lax rfl⟩, h1, rfl⟩
    exact ⟨a, by simpa using g1, g2, g3, g4, g6⟩

/-- Both encodings are read, entirely, as the same object. -/
theorem same_parse {d : Nat} {b b' r r' : Bytes} {i j : Input} (h : LikeObject d b b') (hd : d ≤ 49)
    (hi : i.data = b ++ r) (hj : j.data = b' ++ r') :
    ∃ a a', parseBerAny i = .ok (after i b.length, a) ∧ parseBerAny j = .ok (after j b'.length, a') ∧
      Alike d a a' := by
  cases h with
  | @primitive _ c tag id len len' cs h1 h2 h3 he =>
    have key : ∀ {i : Input} {len rest : Bytes}, Len false (.definite cs.length) len →
        i.data = id ++ len ++ cs ++ rest → ∃ a, parseBerAny i = .ok (after i (id ++ len ++ cs).length, a) ∧
          a.header.cls = c ∧ a.header.constructed = false ∧ a.header.tag = tag ∧
          a.header.length = .definite cs.length ∧ a.header.rawTag = some id ∧ a.data.data = cs := by
      intro i len rest hl hd
      obtain ⟨a, g1, g2, g3, g4, g5, g6⟩ := parseBerAny_of (i := i) (content := cs) (marker := [])
        (rest := rest) h1 hl (by simp [hd]) ⟨rfl, rfl⟩
      refine ⟨a, by simpa using g1, g2, g3, g4, g5, ?_, g6⟩
      obtain ⟨r1, g7, _⟩ := parseBerAny_ok.mp g1
      obtain ⟨id', len'', q1, q2, q3, _, q5, _⟩ := parseHeader_ok.mp g7
      have := header_unique (x := cs ++ rest) (x' := r1.data) h1 hl q1 q2
        (by rw [← q3, hd]; simp)
      rw [q5, this.2.2.2.2.1]
    obtain ⟨a, g1, g2, g3, g4, g5, g6, g7⟩ := key h2 hi
    obtain ⟨a', f1, f2, f3, f4, f5, f6, f7⟩ := key h3 hj
    refine ⟨a, a', g1, f1, by rw [g2, f2], by rw [g4, f4], by rw [g3, f3], ?_⟩
    rw [g3, if_neg (by decide)]
    exact ⟨⟨by rw [g2, f2], by rw [g3, f3], by rw [g4, f4], by rw [g5, f5], by rw [g6, f6]⟩, by rw [g7, f7]⟩
  | @constructed d' e c tag id cs cs' t t' k k' h1 hc ht ht' he hd' =>
    have hk : d' + k.toNat ≤ 49 ∧ d' + k'.toNat ≤ 49 := by
      revert hd'; cases k <;> cases k' <;> simp <;> omega
    obtain ⟨a, g1, g2, g3, g4, g5⟩ := wrapped_parse h1 hc ht hk.1 hi
    obtain ⟨a', f1, f2, f3, f4, f5⟩ := wrapped_parse h1 (likeObjects_symm hc) ht' hk.2 hj
    refine ⟨a, a', g1, f1, by rw [g2, f2], by rw [g4, f4], by rw [g3, f3], ?_⟩
    rw [g3, if_pos rfl, g5, f5]
    exact likeObjects_mono (Nat.le_trans (Nat.le_add_right _ _) hd') hc

/-! ### Typed parsers -/

/-- A content parser that gives the same value for the same content in other forms. -/
def Parser.Blind (p : Parser α) : Prop := ∀ (d : Nat) (h h' : Header) (i j : Input), d ≤ 49 → h.cls = h'.cls →
  h.tag = h'.tag → h.constructed = true → h'.constructed = true → Consistent h i → Consistent h' j →
  LikeObjects d i.data j.data → Sim (fun a b => a.2 = b.2) (p.content h i) (p.content h' j)

/-- A parser that gives the same value for the same objects in other forms. -/
def Agree (f : Input → PRes α) : Prop := ∀ (d : Nat) (i j : Input), d ≤ 49 → LikeObjects d i.data j.data →
  Sim (fun a b => LikeObjects d a.1.data b.1.data ∧ a.2 = b.2) (f i) (f j)

theorem after_left {i : Input} {b r : Bytes} (h : i.data = b ++ r) : (after i b.length).data = r := by
  rw [after_data, h, List.drop_left' rfl]

/-- The content of alike objects. -/
theorem alike_content {p : Parser α} (hs : p.Strong) (hb : p.Blind) {d : Nat} {a a' : Any} (hd : d ≤ 49)
    (h : Alike d a a') (hc : Consistent a.header a.data) (hc' : Consistent a'.header a'.data) :
    Sim (fun a b => a.2 = b.2) (p.content a.header a.data) (p.content a'.header a'.data) := by
  obtain ⟨h1, h2, h3, h4⟩ := h
  by_cases hk : a.header.constructed = true
  · rw [if_pos hk] at h4
    exact hb d _ _ _ _ hd h1 h2 hk (h3 ▸ hk) hc hc' h4
  · rw [if_neg hk] at h4
    intro x hx
    obtain ⟨y, h5, h6⟩ := hs _ _ _ _ h4.1 h4.2 x hx
    exact ⟨y, h5, h6.2⟩

theorem agree_ber {p : Parser α} (hs : p.Strong) (hb : p.Blind) : Agree p.parseBer := by
  rintro d i j hd h ⟨r, v⟩ hv
  obtain ⟨a, x, h1, h2, h3⟩ := parseBer_ok.mp hv
  generalize hi : i.data = bi at h
  generalize hj : j.data = bj at h
  cases h with
  | nil => exact absurd h1 (parse_nil_fails _ hi _)
  | @cons _ b b' t t' hb1 ht =>
    obtain ⟨a1, a', g1, g2, g3⟩ := same_parse hb1 hd hi hj
    rw [g1] at h1
    injection h1 with h1
    injection h1 with h1 h4
    subst h1 h4
    obtain ⟨⟨y, w⟩, h5, h6⟩ := alike_content hs hb hd g3 (consistent_ber g1) (consistent_ber g2) _ h3
    simp only at h6
    refine ⟨(after j b'.length, w), parseBer_ok.mpr ⟨a', y, g2, g3.2.1 ▸ h2, h5⟩, ?_, h6⟩
    simp only
    rw [after_left hi, after_left hj]
    exact ht

theorem blind_primitive {p : Parser α} {e : InnerError} (h : PrimitiveOnly .ber p e) : p.Blind := by
  intro d hd hd' i j _ _ _ hc _ _ _ _
  rw [primitiveOnly_content h hc]
  exact sim_err

theorem blind_contents {p : Parser α} {P : Bool → Bytes → α → Prop} (hp : Contents p P)
    (h : ∀ d cs cs' v, d ≤ 49 → LikeObjects d cs cs' → P true cs v → P true cs' v) : p.Blind := by
  rintro d hd hd' i j hle _ _ hc hc' hcons hcons' hs ⟨r, v⟩ hv
  have h1 := (hp _ _ _ hcons).mp ⟨r, hv⟩
  rw [hc] at h1
  have h2 := h _ _ _ _ hle hs h1
  rw [← hc'] at h2
  obtain ⟨r', h3⟩ := (hp _ _ _ hcons').mpr h2
  exact ⟨(r', v), h3, rfl⟩

/-! ### Strings in segments -/

/-- The objects found in the same contents. -/
theorem same_objects {c : Bytes} {os : List Obj} (h : Objects c os) : ∀ {d : Nat} {c' : Bytes}, d ≤ 49 →
    LikeObjects d c c' → ∃ os', Objects c' os' ∧ Pointwise (fun o o' => o.tag = o'.tag ∧
      o.constructed = o'.constructed ∧ if o.constructed = true then LikeObjects d o.content o'.content
        else o.content = o'.content) os os' := by
  have split : ∀ {d : Nat} {c c' : Bytes} {r : Input} {a : Any}, d ≤ 49 → LikeObjects d c c' →
      parseBerAny (Input.fromSlice c) = .ok (r, a) → ∃ r' a', parseBerAny (Input.fromSlice c') = .ok (r', a') ∧
        LikeObjects d r.data r'.data ∧ Alike d a a' := by
    intro d c c' r a hd hs hp
    cases hs with
    | nil => exact absurd hp (parse_nil_fails _ rfl _)
    | @cons _ b b' t t' hb ht =>
      obtain ⟨a1, a', g1, g2, g3⟩ := same_parse (i := Input.fromSlice (b ++ t))
        (j := Input.fromSlice (b' ++ t')) hb hd rfl rfl
      rw [g1] at hp
      injection hp with hp
      injection hp with h1 h2
      subst h1 h2
      refine ⟨_, a', g2, ?_, g3⟩
      rw [after_left (i := Input.fromSlice (b ++ t)) rfl, after_left (i := Input.fromSlice (b' ++ t')) rfl]
      exact ht
  induction h with
  | nil =>
    intro d c' _ hs
    obtain rfl := likeObjects_empty hs rfl
    exact ⟨[], .nil, .nil⟩
  | eoc hp h0 =>
    intro d c' hd hs
    obtain ⟨r', a', h1, _, h3⟩ := split hd hs hp
    exact ⟨[], .eoc h1 (h3.2.1 ▸ h0), .nil⟩
  | @cons _ _ a _ hp h0 _ ih =>
    intro d c' hd hs
    obtain ⟨r', a', h1, h2, h3⟩ := split hd hs hp
    obtain ⟨os', h4, h5⟩ := ih hd h2
    refine ⟨_ :: os', .cons h1 (h3.2.1 ▸ h0) h4, .cons ⟨h3.2.1, h3.2.2.1, ?_⟩ h5⟩
    have := h3.2.2.2
    by_cases hk : a.header.constructed = true
    · rw [if_pos hk] at this
      exact if_pos (c := (Obj.of a).constructed = true) hk ▸ this
    · rw [if_neg hk] at this
      exact if_neg (c := (Obj.of a).constructed = true) hk ▸ this.2

theorem same_segs {tag : Nat} {leaf : Bytes → α → Prop} {join : List α → α} (n : Nat) :
    ∀ {d : Nat} {c c' : Bytes} {v : α}, d ≤ 49 → LikeObjects d c c' → Segs tag leaf join n true c v →
      Segs tag leaf join n true c' v := by
  induction n with
  | zero => intro d c c' v _ _ h; exact h.elim
  | succ n ih =>
    rintro d c c' v hd hs ⟨h1, os, vs, h2, h3, h4, h5⟩
    refine ⟨fun h => h1 (likeObjects_empty (likeObjects_symm hs) h), ?_⟩
    obtain ⟨os', g1, g2⟩ := same_objects h2 hd hs
    refine ⟨os', vs, g1, ?_, ?_, h5⟩
    · clear h4 h2 g1
      induction g2 with
      | nil => simp
      | cons h _ ihp =>
        intro o ho
        rcases List.mem_cons.mp ho with rfl | ho
        · rw [← h.1]; exact h3 _ List.mem_cons_self
        · exact ihp (fun o ho => h3 o (List.mem_cons_of_mem _ ho)) o ho
    · clear h3 h2 g1 h5
      induction g2 generalizing vs with
      | nil => exact h4
      | @cons o o' os os' h _ ihp =>
        obtain ⟨q1, q2, q3⟩ := h
        have hne : o.content = [] ↔ o'.content = [] := by
          by_cases hk : o.constructed = true
          · rw [if_pos hk] at q3
            exact ⟨likeObjects_empty q3, likeObjects_empty (likeObjects_symm q3)⟩
          · rw [if_neg hk] at q3; rw [q3]
        by_cases he : o.content = []
        · rw [List.filter_cons_of_neg (by simp [he])] at h4
          rw [List.filter_cons_of_neg (by simp [hne.mp he])]
          exact ihp _ h4
        · rw [List.filter_cons_of_pos (by simp [he])] at h4
          rw [List.filter_cons_of_pos (by simpa using fun h => he (hne.mpr h))]
          cases h4 with
          | cons hw h4 =>
            refine .cons ?_ (ihp _ h4)
            rw [← q2]
            by_cases hk : o.constructed = true
            · rw [if_pos hk] at q3
              rw [hk] at hw ⊢
              exact ih hd q3 hw
            · rw [if_neg hk] at q3
              rw [← q3]; exact hw

theorem blind_octet : octetBer.Blind := by
  rintro d h h' i j hd _ _ hc hc' hcons hcons' hs ⟨r, v⟩ hv
  obtain ⟨r', h1⟩ := (octetContent_constr hc' hcons').mpr
    (same_segs 5 hd hs ((octetContent_constr hc hcons).mp ⟨r, hv⟩))
  exact ⟨(r', v), h1, rfl⟩

theorem blind_bit : bitBer.Blind := by
  rintro d h h' i j hd _ _ hc hc' hcons hcons' hs ⟨r, v⟩ hv
  obtain ⟨r', h1⟩ := (bitContent_constr hc' hcons').mpr
    (same_segs 5 hd hs ((bitContent_constr hc hcons).mp ⟨r, hv⟩))
  exact ⟨(r', v), h1, rfl⟩

theorem same_stringBytes {d : Nat} {cs cs' bs : Bytes} (hd : d ≤ 49) (hs : LikeObjects d cs cs')
    (h : StringBytes true cs bs) : StringBytes true cs' bs := by
  rcases h with ⟨h, _⟩ | ⟨_, h⟩
  · cases h
  · exact .inr ⟨rfl, same_segs 5 hd hs h⟩

theorem blind_str {k : StrKind} {tag : Nat} {A : Char → Bool} (hk : StringType k tag A) : (strBer k).Blind :=
  blind_contents (str_contents hk) fun _ _ _ _ hd hs h => ⟨same_stringBytes hd hs h.1, h.2⟩

theorem blind_string : stringBer.Blind :=
  blind_contents string_contents fun _ _ _ _ hd hs h => same_stringBytes hd hs h

/-! ### Containers -/

theorem blind_map {p : Parser α} (hp : p.Blind) (f : α → β) : (p.map f).Blind := by
  rintro d h h' i j hd h1 h2 hc hc' hcons hcons' hs ⟨r, v⟩ hv
  obtain ⟨a, g1, g2⟩ := map_content.mp hv
  obtain ⟨⟨r', a'⟩, g3, g4⟩ := hp d h h' i j hd h1 h2 hc hc' hcons hcons' hs _ g1
  simp only at g4
  exact ⟨(r', v), map_content.mpr ⟨a', g3, g4 ▸ g2⟩, rfl⟩

theorem agree_repeats {f : Input → PRes α} (hf : Agree f) {i e : Input} {vs : List α} (h : Repeats f i vs e) :
    ∀ {d : Nat} {j : Input}, d ≤ 49 → LikeObjects d i.data j.data → ∃ e', Repeats f j vs e' := by
  induction h with
  | nil h =>
    intro d j _ hs
    exact ⟨j, .nil (likeObjects_empty hs h)⟩
  | cons hne hp _ ih =>
    intro d j hd hs
    obtain ⟨⟨r', v'⟩, h1, h2, h3⟩ := hf d _ j hd hs _ hp
    simp only at h2 h3
    subst h3
    obtain ⟨e', h4⟩ := ih hd h2
    exact ⟨e', .cons (fun h => hne (likeObjects_empty (likeObjects_symm hs) h)) h1 h4⟩

theorem blind_vec {p : Parser α} (hp : Agree p.parseBer) : (vecBer p).Blind := by
  rintro d h h' i j hd _ _ _ hc' _ _ hs ⟨r, v⟩ hv
  obtain ⟨e', h1⟩ := agree_repeats hp (vecBer_content.mp hv).2 hd hs
  exact ⟨(e', v), vecBer_content.mpr ⟨hc', h1⟩, rfl⟩

theorem blind_setItems {p : Parser α} (hp : Agree p.parseBer) : (setItemsP anyBer.parseBer p).Blind := by
  rintro d h h' i j hd _ _ _ hc' _ _ hs ⟨r, v⟩ hv
  obtain ⟨e', h1⟩ := agree_repeats hp (setItemsBer_content.mp hv).2 hd hs
  exact ⟨(e', v), setItemsBer_content.mpr ⟨hc', h1⟩, rfl⟩

theorem blind_array {p : Parser α} (N : Nat) (hp : Agree p.parseBer) : (arrayP N anyBer.parseBer p).Blind := by
  rintro d h h' i j hd h1 h2 hc hc' hcons hcons' hs ⟨r, v⟩ hv
  obtain ⟨⟨r', v'⟩, g1, g2⟩ := blind_vec hp d h h' i j hd h1 h2 hc hc' hcons hcons' hs _ (arrayP_content.mp hv)
  simp only at g2
  subst g2
  exact ⟨(r', v), arrayP_content.mpr g1, rfl⟩

/-- The components of a tuple. -/
inductive AgreeAll : {Ts : List Type} → TupFns Ts → Prop
  | nil : AgreeAll .nil
  | cons {T : Type} {Ts : List Type} {f : Input → PRes T} {fs : TupFns Ts} (h : Agree f)
      (ht : AgreeAll fs) : AgreeAll (.cons f fs)

theorem agree_run {Ts : List Type} {fs : TupFns Ts} (h : AgreeAll fs) : Agree fs.run := by
  induction h with
  | nil => exact fun d i j _ hs => sim_ok ⟨hs, rfl⟩
  | cons h _ ih =>
    intro d i j hd hs
    refine sim_bind (h d i j hd hs) fun a b hab => ?_
    refine sim_bind (ih d _ _ hd hab.1) fun c e hcd => sim_ok ⟨hcd.1, ?_⟩
    rw [hab.2, hcd.2]

theorem blind_run {Ts : List Type} {fs : TupFns Ts} (h : AgreeAll fs) : (tupleP fs).Blind := by
  intro d _ _ i j hd _ _ _ _ _ _ hs a ha
  obtain ⟨b, h1, h2⟩ := agree_run h d i j hd hs a ha
  exact ⟨b, h1, h2.2⟩

theorem blind_explicit {f : Input → PRes α} (cls : Class) (tag : Nat) (hf : Agree f) :
    (explicitP cls tag f).Blind := by
  rintro d h h' i j hd h1 h2 _ hc' _ _ hs ⟨r, v⟩ hv
  obtain ⟨_, g2, g3, g4⟩ := explicitP_content.mp hv
  obtain ⟨⟨r', v'⟩, g5, _, g6⟩ := hf d i j hd hs _ g4
  simp only at g6
  exact ⟨(r', v), explicitP_content.mpr ⟨hc', h1 ▸ g2, h2 ▸ g3, g6 ▸ g5⟩, rfl⟩

theorem blind_implicit {p : Parser α} (cls : Class) (tag : Nat) (hp : p.Blind) :
    (implicitP cls tag p).Blind := by
  rintro d h h' i j hd h1 h2 hc hc' hcons hcons' hs ⟨r, v⟩ hv
  obtain ⟨g2, g3⟩ := implicitP_content.mp hv
  obtain ⟨⟨r', v'⟩, g5, g6⟩ := hp d h h' i j hd h1 h2 hc hc' hcons hcons' hs _ g3
  simp only at g6
  exact ⟨(r', v), implicitP_content.mpr ⟨h1 ▸ g2, g6 ▸ g5⟩, rfl⟩

/-! ### Fields -/

/-- Strong and blind. -/
def Tree (p : Parser α) : Prop := p.Strong ∧ p.Blind

theorem Tree.agree {p : Parser α} (h : Tree p) : Agree p.parseBer := agree_ber h.1 h.2

theorem tree_explicit {p : Parser α} (cls : Class) (tag : Nat) (h : Tree p) :
    Tree (explicitP cls tag p.parseBer) :=
  ⟨strong_explicit (free_ber h.1), blind_explicit cls tag h.agree⟩

theorem tree_implicit {p : Parser α} (cls : Class) (tag : Nat) (h : Tree p) : Tree (implicitP cls tag p) :=
  ⟨strong_implicit h.1, blind_implicit cls tag h.2⟩

theorem agree_tagged {p : Parser (TaggedValue α)} (h : Tree p) : Agree (taggedField .ber p) :=
  fun d i j hd hs => sim_bind (h.agree d i j hd hs) fun a b hab => sim_ok ⟨hab.1, by rw [hab.2]⟩

theorem agree_required {p : Parser α} (h : Tree p) (tag : FieldTag) : Agree (requiredField .ber tag p) := by
  cases tag with
  | untagged => exact h.agree
  | explicit cls n => exact agree_tagged (tree_explicit cls n h)
  | implicit cls n => exact agree_tagged (tree_implicit cls n h)

/-- The next headers. -/
theorem same_header {d : Nat} {i j : Input} (hd : d ≤ 49) (hs : LikeObjects d i.data j.data)
    (hne : i.data ≠ []) : ∃ r h r' h', parseHeader i = .ok (r, h) ∧ parseHeader j = .ok (r', h') ∧
      h.tag = h'.tag ∧ (h.constructed = false → SameHdr h h' ∧ h.length ≠ .indefinite) := by
  generalize hi : i.data = bi at hs
  generalize hj : j.data = bj at hs
  cases hs with
  | nil => exact absurd hi hne
  | cons hb ht =>
    obtain ⟨a, a', g1, g2, g3⟩ := same_parse hb hd hi hj
    obtain ⟨r, g4, _⟩ := parseBerAny_ok.mp g1
    obtain ⟨r', g5, _⟩ := parseBerAny_ok.mp g2
    refine ⟨r, _, r', _, g4, g5, g3.2.1, fun hc => ?_⟩
    have := g3.2.2.2
    rw [if_neg (by simp [hc])] at this
    refine ⟨this.1, ?_⟩
    rw [(consistent_ber g1).2 hc]
    simp

theorem agree_optTagged {p : Parser (TaggedValue α)} (h : Tree p) (n : Nat) :
    Agree (optTaggedField .ber n p) := by
  intro d i j hd hs
  unfold optTaggedField
  by_cases he : i.data = []
  · rw [if_pos (by simp [Input.isEmpty, he]), if_pos (by simp [Input.isEmpty, likeObjects_empty hs he])]
    exact sim_ok ⟨hs, rfl⟩
  · rw [if_neg (by simp [Input.isEmpty, he]), if_neg (by
      simpa [Input.isEmpty] using fun h => he (likeObjects_empty (likeObjects_symm hs) h))]
    obtain ⟨r, hh, r', hh', g1, g2, g3, _⟩ := same_header hd hs he
    show Sim _ (parseHeader i >>= _) (parseHeader j >>= _)
    rw [g1, g2, bind_ok, bind_ok]
    simp only [g3]
    exact sim_ite (sim_bind (h.agree d i j hd hs) fun a b hab => sim_ok ⟨hab.1, by rw [hab.2]⟩)
      (sim_ok ⟨hs, rfl⟩)

theorem agree_option {p : Parser α} {e : InnerError} (h : Tree p) (hp : PrimitiveOnly .ber p e) :
    Agree (optionParse parseHeader p) := by
  rintro d i j hd hs ⟨r, v⟩ hv
  rcases (optionParse_ok (m := .ber)).mp hv with ⟨x, rfl, h1, h2⟩ | ⟨rfl, hri, h1⟩
  · obtain ⟨⟨r', x'⟩, g1, g2, g3⟩ := h.agree d i j hd hs _ h1
    simp only at g2 g3
    subst g3
    refine ⟨(r', some x), (optionParse_ok (m := .ber)).mpr (.inl ⟨x, rfl, g1, ?_⟩), g2, rfl⟩
    intro q hq hpq
    obtain ⟨a, y, q1, q2, q3⟩ := parseBer_ok.mp g1
    have hc : a.header.constructed = false := by
      cases hc : a.header.constructed with
      | false => rfl
      | true => rw [primitiveOnly_content hp hc] at q3; cases q3
    obtain ⟨r1, q4, _⟩ := parseBerAny_ok.mp q1
    rw [hpq] at q4
    injection q4 with q4
    injection q4 with _ q4
    rw [q4, (consistent_ber q1).2 hc]
    simp
  · refine ⟨(j, none), (optionParse_ok (m := .ber)).mpr (.inr ⟨rfl, rfl, ?_⟩), hri ▸ hs, rfl⟩
    by_cases he : i.data = []
    · exact .inl (likeObjects_empty hs he)
    · obtain ⟨r, hh, r', hh', g1, g2, g3, _⟩ := same_header hd hs he
      rcases h1 with h1 | ⟨r1, h, h2, h3⟩
      · exact absurd h1 he
      · refine .inr ⟨r', hh', g2, ?_⟩
        replace h2 : parseHeader i = .ok (r1, h) := h2
        rw [g1] at h2
        injection h2 with h2
        injection h2 with _ h2
        rw [← g3, h2]; exact h3

theorem agree_optional {p : Parser α} (h : Tree p) (tag : FieldTag)
    (hu : tag = .untagged → ∃ e, PrimitiveOnly .ber p e) : Agree (optionalField .ber tag p) := by
  cases tag with
  | untagged =>
    obtain ⟨e, he⟩ := hu rfl
    exact agree_option h he
  | explicit cls n => exact agree_optTagged (tree_explicit cls n h) n
  | implicit cls n => exact agree_optTagged (tree_implicit cls n h) n

theorem agree_default {p : Parser α} (h : Tree p) (tag : FieldTag)
    (hu : tag = .untagged → ∃ e, PrimitiveOnly .ber p e) (x : α) : Agree ((Field.default tag p x).parse .ber) :=
  fun d i j hd hs => sim_bind (agree_optional h tag hu d i j hd hs) fun a b hab =>
    sim_ok ⟨hab.1, by rw [hab.2]⟩

/-! ### CHOICE -/

/-- The variants. -/
def VariantsTree {Ts : List Type} (vs : Variants Ts) : Prop :=
  (∀ k h h' i j, SameHdr h h' → i.data = j.data → Sim SameR (vs.content .ber k h i) (vs.content .ber k h' j)) ∧
  ∀ (k : ChoiceKind) (d : Nat) (h h' : Header) (i j : Input), d ≤ 49 → h.cls = h'.cls →
    h.tag = h'.tag → h.constructed = true → h'.constructed = true → Consistent h i → Consistent h' j →
    LikeObjects d i.data j.data → Sim (fun a b => a.2 = b.2) (vs.content .ber k h i) (vs.content .ber k h' j)

theorem tree_variants_nil : VariantsTree .nil := ⟨fun _ _ _ _ _ _ _ => sim_nomErr, fun _ _ _ _ _ _ _ _ _ _ _ _ _ _ => sim_nomErr⟩

theorem tree_variants_cons {T : Type} {Ts : List Type} {p : Parser T} {vs : Variants Ts} (tag : Nat) (h : Tree p)
    (ht : VariantsTree vs) : VariantsTree (.cons tag p vs) := by
  refine ⟨fun k hd hd' i j hh hij => ?_, fun k d hd hd' i j hle h1 h2 hc hc' hcons hcons' hs => ?_⟩
  · unfold Variants.content
    simp only [hh.2.2.1]
    exact sim_ite (sim_bind (sim_variant h.1 k hh hij) fun a b hab => sim_ok ⟨hab.1, by rw [hab.2]⟩)
      (sim_bind (ht.1 k _ _ _ _ hh hij) fun a b hab => sim_ok ⟨hab.1, by rw [hab.2]⟩)
  · unfold Variants.content
    simp only [h2]
    refine sim_ite (sim_bind (R := fun a b => a.2 = b.2) ?_ fun a b hab => sim_ok (by rw [hab]))
      (sim_bind (ht.2 k d hd hd' i j hle h1 h2 hc hc' hcons hcons' hs) fun a b hab => sim_ok (by rw [hab]))
    cases k
    · intro a ha
      obtain ⟨b, g1, g2⟩ := h.agree d i j hle hs a ha
      exact ⟨b, g1, g2.2⟩
    · exact h.2 d hd hd' i j hle h1 h2 hc hc' hcons hcons' hs
    · exact h.2 d hd hd' i j hle h1 h2 hc hc' hcons hcons' hs

theorem tree_choice {Ts : List Type} {vs : Variants Ts} (k : ChoiceKind) (h : VariantsTree vs) :
    Tree (choiceP .ber k vs) := by
  refine ⟨fun hd hd' i j hh hij => ?_, fun d hd hd' i j hle h1 h2 hc hc' hcons hcons' hs => ?_⟩
  · cases k
    · exact sim_bind (sim_assertConstructed hh) fun _ _ _ => h.1 _ _ _ _ _ hh hij
    · exact h.1 _ _ _ _ _ hh hij
    · exact h.1 _ _ _ _ _ hh hij
  · have := fun k => h.2 k d hd hd' i j hle h1 h2 hc hc' hcons hcons' hs
    cases k
    · refine sim_bind (R := fun _ _ => True) ?_ fun _ _ _ => this _
      intro a _
      exact ⟨(), assertConstructed_ok.mpr hc', trivial⟩
    · exact this _
    · exact this _

/-! ### All of them -/

theorem tree_primitive {p : Parser α} {e : InnerError} (hs : p.Strong) (h : PrimitiveOnly .ber p e) : Tree p :=
  ⟨hs, blind_primitive h⟩

theorem tree_map {p : Parser α} (h : Tree p) (f : α → β) : Tree (p.map f) := ⟨strong_map h.1 f, blind_map h.2 f⟩

/-- The fields of a struct. -/
def FnsTree {Ts : List Type} (fs : TupFns Ts) : Prop := FreeAll fs ∧ AgreeAll fs

theorem tree_struct {Ts : List Type} {fs : Fields Ts} (tag : Nat) (h : FnsTree (fs.fns .ber)) :
    Tree (structP .ber tag fs) := by
  refine ⟨fun hd hd' i j hh hij => sim_bind (sim_assertConstructed hh) fun _ _ _ =>
    strong_tuple h.1 hd hd' i j hh hij, fun d hd hd' i j hle h1 h2 hc hc' hcons hcons' hs => ?_⟩
  refine sim_bind (R := fun _ _ => True) ?_ fun _ _ _ =>
    blind_run h.2 d hd hd' i j hle h1 h2 hc hc' hcons hcons' hs
  intro a _
  exact ⟨(), assertConstructed_ok.mpr hc', trivial⟩

theorem tree_type {p : Parser α} (h : TreeType p) : Tree p := by
  refine TreeType.rec (motive_1 := fun {_} p _ => Tree p) (motive_2 := fun {_} fs _ => FnsTree fs)
    (motive_3 := fun {_} fs _ => FnsTree (fs.fns .ber)) (motive_4 := fun {_} vs _ => VariantsTree vs)
    ?_ ?_ ?_ ?_ ?_ ?_ ?_ ?_ ?_ ?_ ?_ ?_ ?_ ?_ ?_ ?_ ?_ ?_ ?_ ?_ ?_ ?_ ?_ ?_ ?_ ?_ ?_ ?_ ?_ ?_ ?_ ?_ ?_ ?_ ?_ ?_
    ?_ ?_ ?_ h
  · exact fun N => tree_primitive (strong_uint N).1 (.uint N)
  · exact fun N => tree_primitive (strong_int N).1 (.int N)
  · exact tree_primitive strong_integer.1 .integer
  · exact tree_primitive strong_boolean.1 .boolean
  · exact tree_primitive strong_bool.1 .bool
  · exact tree_primitive strong_null (.null _)
  · exact tree_primitive strong_enum.1 .enumerated
  · exact fun ds => tree_primitive (fine_enum (real := true) ds).strong.1 (.enum _ _ ds)
  · exact tree_primitive strong_oid (.oid _)
  · exact fun lib => tree_primitive (strong_real lib) (.real _ lib)
  · exact fun lib => tree_primitive (strong_map (strong_real lib) _) (.f64 _ lib)
  · exact fun lib => tree_primitive (strong_map (strong_real lib) _) (.f32 _ lib)
  · exact tree_primitive strong_utc.1 .utcTime
  · exact tree_primitive strong_gen.1 .generalizedTime
  · exact ⟨strong_octet.1, blind_octet⟩
  · exact ⟨strong_bit.1, blind_bit⟩
  · exact fun hk => ⟨(strong_str _).1, blind_str hk⟩
  · exact ⟨strong_string, blind_string⟩
  · exact tree_primitive strong_refStr.1 .refStr
  · exact tree_primitive strong_slice.1 .slice
  · exact fun _ ih => ⟨strong_vec objSim_ber ih.1, blind_vec ih.agree⟩
  · intro _ _ _ ih
    rw [sequenceOf_map]
    exact tree_map ⟨strong_vec objSim_ber ih.1, blind_vec ih.agree⟩ _
  · exact fun _ ih => tree_map ⟨strong_setItems objSim_ber ih.1, blind_setItems ih.agree⟩ _
  · exact fun S _ ih => tree_map ⟨strong_setItems objSim_ber ih.1, blind_setItems ih.agree⟩ _
  · exact fun N _ ih => ⟨strong_array objSim_ber ih.1, blind_array N ih.agree⟩
  · exact fun _ ih => ⟨strong_tuple ih.1, blind_run ih.2⟩
  · exact fun cls tag _ ih => tree_explicit cls tag ih
  · exact fun cls tag _ ih => tree_implicit cls tag ih
  · exact fun tag _ ih => tree_struct tag ih
  · exact fun k _ ih => tree_choice k ih
  · intro _ _ _ ih
    rw [alias_map]
    exact tree_map ih _
  · exact ⟨.nil, .nil⟩
  · exact fun _ _ ih iht => ⟨.cons (free_ber ih.1) iht.1, .cons ih.agree iht.2⟩
  · exact ⟨.nil, .nil⟩
  · exact fun tag _ _ ih iht => ⟨.cons (free_required ih.1 tag) iht.1, .cons (agree_required ih tag) iht.2⟩
  · exact fun tag _ hu _ ih iht => ⟨.cons (free_optional ih.1 tag) iht.1,
      .cons (agree_optional ih tag hu) iht.2⟩
  · exact fun tag x _ hu _ ih iht => ⟨.cons (fun i j hd => sim_bind (free_optional ih.1 tag i j hd) fun a b hab =>
      sim_ok ⟨hab.1, by rw [hab.2]⟩) iht.1, .cons (agree_default ih tag hu x) iht.2⟩
  · exact tree_variants_nil
  · exact fun tag _ _ ih iht => tree_variants_cons tag ih iht

end Asn1

import Verif.Spec.Language
import Verif.Proofs.Twins
import Verif.Props.Twins
/-!
# The octets that a type accepts: proofs
-/
namespace Asn1
open Spec

variable {α β : Type} {m : Rules}

/-! ### The universal types -/

theorem twos_neg_iff (bs : Bytes) : twos bs < 0 ↔ isHighestBitSet bs = true := by
  cases h : isHighestBitSet bs with
  | false => rw [twos_low h]; simp
  | true =>
    rw [twos_high h]
    have := beNat_lt bs
    constructor
    · exact fun _ => rfl
    · intro _; omega

theorem leafLang_contents {c : Codec α} {P : α → Bool → Bytes → Prop} (hc : LeafLang m c P) :
    Contents (Codec.parser c m) fun p cs v => P v p cs := by
  intro h i v hh
  cases hc with
  | uint _ N hN =>
    cases m with
    | ber =>
      show (∃ r, uintContent N h i = .ok (r, v)) ↔ _
      simp only [uintContent_ok hN]
      exact ⟨fun ⟨r, h1, h2, h3, _⟩ => ⟨h1, nofun, h2, h3⟩, fun ⟨h1, _, h2, h3⟩ => ⟨_, h1, h2, h3, rfl⟩⟩
    | der =>
      show (∃ r, (uintDer N).content h i = .ok (r, v)) ↔ _
      simp only [uintDer_content hN]
      exact ⟨fun ⟨r, h0, h1, h2, h3, _⟩ => ⟨h1, fun _ => h0, h2, h3⟩, fun ⟨h1, h0, h2, h3⟩ => ⟨_, h0 trivial, h1, h2, h3, rfl⟩⟩
  | int N hN =>
    show (∃ r, (intDer N).content h i = .ok (r, v)) ↔ _
    simp only [intDer_content hN]
    exact ⟨fun ⟨r, h0, h1, h2, h3, _⟩ => ⟨h1, h0, h2, h3⟩, fun ⟨h1, h0, h2, h3⟩ => ⟨_, h0, h1, h2, h3, rfl⟩⟩
  | intBer N hN =>
    show (∃ r, intContent N h i = .ok (r, v)) ↔ _
    simp only [intContent_ok hN, ← twos_neg_iff]
    exact ⟨fun ⟨r, h1, h2, h3, _, h4⟩ => ⟨h1, h2, h3, h3 ▸ h4⟩, fun ⟨h1, h2, h3, h4⟩ => ⟨_, h1, h2, h3, rfl, h3 ▸ h4⟩⟩
  | integer _ =>
    have key : (∃ r, integerContent h i = .ok (r, v)) ↔ h.constructed = false ∧ i.data ≠ [] ∧ v = ⟨i.data⟩ := by
      obtain ⟨d⟩ := v
      constructor
      · rintro ⟨r, hp⟩
        have hc : h.constructed = false := by
          obtain ⟨_, h1, _⟩ := bind_eq_ok.mp hp
          exact assertPrimitive_ok.mp h1
        obtain ⟨h1, rfl, h3, _⟩ := (integerContent_ok (hh.2 hc)).mp hp
        exact ⟨h1, h3, rfl⟩
      · rintro ⟨h1, h2, h3⟩
        injection h3 with h3
        subst h3
        exact ⟨_, (integerContent_ok (hh.2 h1)).mpr ⟨h1, rfl, h2, rfl⟩⟩
    cases m with
    | ber => exact key.trans ⟨fun ⟨h1, h2⟩ => ⟨h1, nofun, h2⟩, fun ⟨h1, _, h2⟩ => ⟨h1, h2⟩⟩
    | der =>
      show (∃ r, (checkDerIntInput i >>= fun _ => integerContent h i) = .ok (r, v)) ↔ _
      simp only [bind_eq_ok, checkDerIntInput_ok]
      constructor
      · rintro ⟨r, _, h0, hp⟩
        obtain ⟨h1, h2⟩ := key.mp ⟨r, hp⟩
        exact ⟨h1, fun _ => h0, h2⟩
      · rintro ⟨h1, h0, h2⟩
        obtain ⟨r, hp⟩ := key.mpr ⟨h1, h2⟩
        exact ⟨r, (), h0 trivial, hp⟩
  | bool =>
    show (∃ r, (booleanDer.map booleanBool).content h i = .ok (r, v)) ↔ _
    simp only [map_content]
    constructor
    · rintro ⟨r, b, hp, rfl⟩
      obtain ⟨h0, hb⟩ := booleanDerContent_ok.mp hp
      obtain ⟨h1, h2, h3, rfl⟩ := booleanContent_ok.mp h0
      have hl := hh.1 _ h2
      have hn : (after i 1).data = [] := by
        rw [h3, List.length_cons] at hl
        exact List.length_eq_zero_iff.mp (by omega)
      refine ⟨h1, ?_⟩
      rw [h3, hn]
      rcases hb with rfl | rfl <;> simp [booleanBool]
    · rintro ⟨h1, h2⟩
      refine ⟨after i 1, if v then 0xff else 0, booleanDerContent_ok.mpr ⟨booleanContent_ok.mpr ⟨h1, ?_, ?_, rfl⟩, ?_⟩, ?_⟩
      · rw [hh.2 h1, h2]; rfl
      · rw [after_data, h2]; rfl
      · cases v <;> simp
      · cases v <;> simp [booleanBool]
  | boolBer =>
    show (∃ r, (booleanBer.map booleanBool).content h i = .ok (r, v)) ↔ _
    simp only [map_content]
    constructor
    · rintro ⟨r, b, hp, rfl⟩
      obtain ⟨h1, h2, h3, rfl⟩ := booleanContent_ok.mp hp
      have hl := hh.1 _ h2
      have hn : (after i 1).data = [] := by
        rw [h3, List.length_cons] at hl
        exact List.length_eq_zero_iff.mp (by omega)
      exact ⟨h1, b, by rw [h3, hn], by simp [booleanBool]⟩
    · rintro ⟨h1, b, h2, h3⟩
      refine ⟨after i 1, b, booleanContent_ok.mpr ⟨h1, ?_, ?_, rfl⟩, ?_⟩
      · rw [hh.2 h1, h2]; rfl
      · rw [after_data, h2]; rfl
      · rw [Bool.eq_iff_iff, h3]; simp [booleanBool]
  | null _ =>
    have key : (∃ r, nullContent h i = .ok (r, v)) ↔ h.constructed = false ∧ i.data = [] := by
      constructor
      · rintro ⟨r, hp⟩
        obtain ⟨h1, h2, _⟩ := nullContent_ok.mp hp
        exact ⟨h1, List.length_eq_zero_iff.mp (hh.1 _ h2).symm⟩
      · rintro ⟨h1, h2⟩
        exact ⟨i, nullContent_ok.mpr ⟨h1, by rw [hh.2 h1, h2]; rfl, rfl⟩⟩
    cases m <;> exact key
  | enumerated _ =>
    cases m with
    | ber =>
      show (∃ r, enumeratedBer.content h i = .ok (r, v)) ↔ _
      simp only [enumBer_content]
      show (∃ r, uintContent 4 h i = .ok (r, v)) ↔ _
      simp only [uintContent_ok (N := 4) (by decide)]
      exact ⟨fun ⟨r, h1, h2, h3, _⟩ => ⟨h1, nofun, h2, h3⟩, fun ⟨h1, _, h2, h3⟩ => ⟨_, h1, h2, h3, rfl⟩⟩
    | der =>
      show (∃ r, enumeratedDer.content h i = .ok (r, v)) ↔ _
      simp only [enumDer_content, uintDer_content (N := 4) (by decide)]
      exact ⟨fun ⟨r, h0, h1, h2, h3, _⟩ => ⟨h1, fun _ => h0, h2, h3⟩, fun ⟨h1, h0, h2, h3⟩ => ⟨_, h0 trivial, h1, h2, h3, rfl⟩⟩
  | octetString =>
    show (∃ r, octetDer.content h i = .ok (r, v)) ↔ _
    simp only [octetDer_content]
    exact ⟨fun ⟨r, h1, _, h2⟩ => ⟨h1, h2⟩, fun ⟨h1, h2⟩ => ⟨_, h1, rfl, h2⟩⟩
  | octetStringBer =>
    show (∃ r, octetContent h i = .ok (r, v)) ↔ _
    cases hc : h.constructed with
    | false =>
      simp only [octetContent_prim hc, StringBytes]
      exact ⟨fun ⟨r, _, h2⟩ => (.inl ⟨trivial, h2⟩), fun h2 => ⟨_, rfl, by simpa using h2⟩⟩
    | true =>
      rw [octetContent_constr hc hh]
      simp [StringBytes, OctetSegs]
  | bitString =>
    show (∃ r, (h.assertPrimitive i >>= fun _ => bitContent h i) = .ok (r, v)) ↔ _
    simp only [bind_eq_ok, assertPrimitive_ok]
    constructor
    · rintro ⟨r, _, h1, hp⟩
      exact ⟨h1, ((bitContent_prim h1 (hh.2 h1)).mp hp).2⟩
    · rintro ⟨h1, h2⟩
      exact ⟨_, (), h1, (bitContent_prim h1 (hh.2 h1)).mpr ⟨rfl, h2⟩⟩
  | bitStringBer =>
    show (∃ r, bitContent h i = .ok (r, v)) ↔ _
    cases hc : h.constructed with
    | false =>
      simp only [bitContent_prim hc (hh.2 hc)]
      exact ⟨fun ⟨r, _, h2⟩ => .inl ⟨trivial, h2⟩, fun h2 => ⟨_, rfl, h2.elim (·.2) fun h => by cases h.1⟩⟩
    | true =>
      rw [bitContent_constr hc hh]
      exact ⟨fun h => .inr ⟨rfl, h⟩, fun h => h.elim (fun h => by cases h.1) (·.2)⟩
  | oid _ =>
    have key : (∃ r, oidContent h i = .ok (r, v)) ↔ h.constructed = false ∧ i.data ≠ [] ∧ v = ⟨i.data, false⟩ := by
      simp only [oidContent_ok]
      exact ⟨fun ⟨r, h1, h2, h3, _⟩ => ⟨h1, h2, h3⟩, fun ⟨h1, h2, h3⟩ => ⟨_, h1, h2, h3, rfl⟩⟩
    cases m <;> exact key
  | utcTime _ =>
    cases m with
    | ber =>
      show (∃ r, utcBer.content h i = .ok (r, v)) ↔ _
      simp only [utcBer_content]
      exact ⟨fun ⟨r, h1, _, h2⟩ => ⟨h1, h2⟩, fun ⟨h1, h2⟩ => ⟨_, h1, rfl, h2⟩⟩
    | der =>
      show (∃ r, utcDer.content h i = .ok (r, v)) ↔ _
      simp only [utcDer_content]
      exact ⟨fun ⟨r, h1, _, h2⟩ => ⟨h1, h2⟩, fun ⟨h1, h2⟩ => ⟨_, h1, rfl, h2⟩⟩
  | generalizedTime =>
    show (∃ r, genDer.content h i = .ok (r, v)) ↔ _
    simp only [genDer_content]
    exact ⟨fun ⟨r, h1, _, h2⟩ => ⟨h1, h2⟩, fun ⟨h1, h2⟩ => ⟨_, h1, rfl, h2⟩⟩
  | generalizedTimeBer =>
    show (∃ r, genBer.content h i = .ok (r, v)) ↔ _
    simp only [genBer_content]
    exact ⟨fun ⟨r, h1, _, h2⟩ => ⟨h1, h2⟩, fun ⟨h1, h2⟩ => ⟨_, h1, rfl, h2⟩⟩
  | text hk => exact strDer_contents hk h i v hh
  | textBer hk => exact str_contents hk h i v hh
  | refStr _ =>
    cases m with
    | ber => exact refStr_contents h i v hh
    | der => exact refStrDer_contents h i v hh
  | string => exact refStrDer_contents h i v hh
  | stringBer => exact string_contents h i v hh
  | bmpString _ =>
    cases m with
    | ber => exact (bmp_contents h i v hh).trans ⟨fun h => ⟨nofun, h⟩, fun h => h.2⟩
    | der =>
      refine (bmpDer_contents h i v hh).trans ?_
      exact ⟨fun ⟨h1, h2, h3⟩ => ⟨fun _ => h1, fun _ => h2, h3⟩, fun ⟨h1, h2, h3⟩ => ⟨h1 rfl, h2 (h1 rfl), h3⟩⟩
  | universalString _ =>
    cases m with
    | ber => exact (univ_contents h i v hh).trans ⟨fun h => ⟨nofun, h⟩, fun h => h.2⟩
    | der =>
      refine (univDer_contents h i v hh).trans ?_
      exact ⟨fun ⟨h1, h2, h3⟩ => ⟨fun _ => h1, fun _ => h2, h3⟩, fun ⟨h1, h2, h3⟩ => ⟨h1 rfl, h2 (h1 rfl), h3⟩⟩
  | real _ lib => cases m <;> exact real_contents lib h i v hh

theorem leafLang_tag {c : Codec α} {P : α → Bool → Bytes → Prop} (hc : LeafLang m c P) (t : Nat) :
    (Codec.parser c m).acceptTag t = true ↔ LeafTag c t := by
  have key : ∀ {n : Nat}, n ≠ 6 → (tagIs n t = true ↔ (t = n ∨ n = 6 ∧ t = 13)) := fun hn =>
    tagIs_iff.trans ⟨.inl, fun h => h.elim id fun h => absurd h.1 hn⟩
  cases hc with
  | oid _ =>
    have : (tagIs 6 t || tagIs 13 t) = true ↔ (t = 6 ∨ (6 : Nat) = 6 ∧ t = 13) := by
      rw [Bool.or_eq_true, tagIs_iff, tagIs_iff]; simp
    cases m <;> exact this
  | @text k tag A hk => cases hk <;> exact key (by decide)
  | @textBer k tag A hk => cases hk <;> exact key (by decide)
  | uint _ _ _ => cases m <;> exact key (by decide)
  | integer _ => cases m <;> exact key (by decide)
  | null _ => cases m <;> exact key (by decide)
  | enumerated _ => cases m <;> exact key (by decide)
  | utcTime _ => cases m <;> exact key (by decide)
  | refStr _ => cases m <;> exact key (by decide)
  | bmpString _ => cases m <;> exact key (by decide)
  | universalString _ => cases m <;> exact key (by decide)
  | real _ _ => cases m <;> exact key (by decide)
  | _ => exact key (by decide)

/-! ### Objects -/

theorem laxEoc_two {eoc : Bytes} (h : LaxEoc eoc) : 2 ≤ eoc.length := by
  obtain ⟨c, p, id, len, h1, h2, rfl⟩ := h
  have := ident_ne_nil h1
  have := len_ne_nil h2
  rw [List.length_append]; omega

/-- What the generic parser returns. -/
theorem any_holds {i r : Input} {a : Any} (h : m.any i = .ok (r, a)) :
    ∃ o, i.data = o ++ r.data ∧ Holds m (says a.header) a.data.data o ∧
      (DefiniteAt i → Written (says a.header) a.data.data o) := by
  cases m with
  | der =>
    obtain ⟨o, h1, h2⟩ := written_any h
    exact ⟨o, h1, .inl h2, fun _ => h2⟩
  | ber =>
    obtain ⟨r1, h1, h2⟩ := parseBerAny_ok.mp h
    rw [show MAX_RECURSION = 49 + 1 from rfl] at h2
    have h2 := berContent_ok.mp h2
    cases hl : a.header.length with
    | definite n =>
      rw [hl] at h2
      obtain ⟨g1, g2, g3⟩ := h2
      obtain ⟨o, k1, k2⟩ := written_any (parseDerAny_ok.mpr ⟨r1, n, h1, hl, g1, g2, g3⟩)
      exact ⟨o, k1, .inl k2, fun _ => k2⟩
    | indefinite =>
      rw [hl] at h2
      obtain ⟨g1, _, items, eoc, g2, g3, g4, g5⟩ := h2
      obtain ⟨id, len, k1, k2, k3, _⟩ := parseHeader_ok.mp h1
      have hd : a.data.data = (items.flatten ++ eoc).take (items.flatten.length + eoc.length - 2) := by
        rw [g5, first_data, g3, List.take_append_of_le_length (by rw [List.length_append]; omega)]
      have h2 := laxEoc_two g2.2
      refine ⟨id ++ len ++ (items.flatten ++ eoc), by rw [k3, g3]; simp [List.append_assoc], .inr ⟨rfl, g1, id, len, items,
        eoc, (items.flatten ++ eoc).drop (items.flatten.length + eoc.length - 2), k1, hl ▸ k2, g2, ?_, ?_, ?_⟩, fun hx =>
          absurd hl (hx _ _ h1)⟩
      · rw [List.length_drop, List.length_append]; omega
      · rw [hd, List.take_append_drop]
      · rw [hd, List.take_append_drop]

theorem holds_any {i : Input} {x : Identity} {cs o rest : Bytes} (hi : i.data = o ++ rest) (ho : Holds m x cs o) :
    ∃ r a, m.any i = .ok (r, a) ∧ r.data = rest ∧ says a.header = x ∧ a.data.data = cs := by
  rcases ho with ho | ⟨rfl, hx, id, len, items, eoc, two, h1, h2, h3, h4, h5, rfl⟩
  · obtain ⟨r, a, h1, h2, h3, h4⟩ := any_written i x cs o rest hi ho
    cases m with
    | der => exact ⟨r, a, h1, h2, h3, h4⟩
    | ber => exact ⟨r, a, C11_der_subset_ber_any _ _ _ h1, h2, h3, h4⟩
  · obtain ⟨c, p, t⟩ := x
    let r1 := after i (id.length + len.length)
    have e1 : r1.data = items.flatten ++ eoc ++ rest := by
      show i.data.drop (id.length + len.length) = _
      rw [hi, h5, ← List.length_append, List.append_assoc (id ++ len), List.drop_left]
    let hd : Header := ⟨c, p, t, .indefinite, some id, some (first i (id.length + len.length))⟩
    have hh : parseHeader i = .ok (r1, hd) :=
      parseHeader_ok.mpr ⟨id, len, h1, h2, by rw [hi, e1, h5, List.append_assoc (id ++ len)], rfl, rfl, rfl⟩
    have hlen := congrArg List.length h5
    rw [List.length_append, List.length_append, h4] at hlen
    have e2 : (after r1 (items.flatten.length + eoc.length)).data = rest := by
      rw [after_data, e1, ← List.length_append, List.drop_left]
    refine ⟨after r1 (items.flatten.length + eoc.length), ⟨hd, first r1 (items.flatten.length + eoc.length - 2)⟩,
      parseBerAny_ok.mpr ⟨r1, hh, ?_⟩, e2, rfl, ?_⟩
    · rw [show MAX_RECURSION = 49 + 1 from rfl]
      exact berContent_ok.mpr ⟨hx, by decide, items, eoc, h3, by rw [e1, e2], rfl, rfl⟩
    · show (first r1 _).data = cs
      rw [first_data, e1, h5, List.append_assoc, hlen, Nat.add_sub_cancel, List.take_left]

theorem definite_written {i : Input} {x : Identity} {cs o rest : Bytes} (hi : i.data = o ++ rest)
    (ho : Written x cs o) : DefiniteAt i := by
  obtain ⟨r, a, h1, _, _, _⟩ := any_written i x cs o rest hi ho
  obtain ⟨r1, n, g1, g2, _⟩ := parseDerAny_ok.mp h1
  intro r' h' hp
  rw [g1] at hp
  injection hp with hp
  injection hp with _ hp
  rw [← hp, g2]
  nofun

theorem any_nonempty {i r : Input} {a : Any} (h : m.any i = .ok (r, a)) : i.data ≠ [] := by
  intro hn
  cases m with
  | ber => exact parse_nil_fails i hn _ h
  | der => exact parse_nil_fails i hn _ (C11_der_subset_ber_any _ _ _ h)

theorem any_consistent {i r : Input} {a : Any} (h : m.any i = .ok (r, a)) : Consistent a.header a.data := by
  cases m with
  | ber => exact consistent_ber h
  | der => exact consistent_der h

/-- What holds of a type. -/
structure Denoted (m : Rules) (p : Parser β) (T : Nat → Prop) (L : β → Identity → Bytes → Prop) : Prop where
  accepts : ∀ t, p.acceptTag t = true ↔ T t
  value : ∀ h i w, Consistent h i → ((∃ x, p.content h i = .ok (x, w)) ↔ L w (says h) i.data)

section
variable {p : Parser β} {T : Nat → Prop} {L : β → Identity → Bytes → Prop}

/-- An object with a content in which something is read. -/
theorem object_lang {i : Input} {rest : Bytes} {Q : Any → Prop} {T : Nat → Prop} {F : Identity → Bytes → Prop}
    (hQ : ∀ a, Consistent a.header a.data → (Q a ↔ T a.header.tag ∧ F (says a.header) a.data.data)) :
    (∃ r a, m.any i = .ok (r, a) ∧ Q a ∧ r.data = rest) ↔ ∃ o, i.data = o ++ rest ∧ LangObject m T F o := by
  constructor
  · rintro ⟨r, a, h1, h2, rfl⟩
    obtain ⟨o, g1, g2, _⟩ := any_holds h1
    obtain ⟨k1, k2⟩ := (hQ a (any_consistent h1)).mp h2
    exact ⟨o, g1, _, _, g2, k1, k2⟩
  · rintro ⟨o, h1, x, cs, h2, h3, h4⟩
    obtain ⟨r, a, g1, g2, rfl, rfl⟩ := holds_any h1 h2
    exact ⟨r, a, g1, (hQ a (any_consistent g1)).mpr ⟨h3, h4⟩, g2⟩

/-- The same where a definite length is demanded. -/
theorem definite_lang {i : Input} {rest : Bytes} {Q : Any → Prop} {T : Nat → Prop} {F : Identity → Bytes → Prop}
    (hQ : ∀ a, Consistent a.header a.data → (Q a ↔ T a.header.tag ∧ F (says a.header) a.data.data)) :
    (∃ r a, m.any i = .ok (r, a) ∧ Q a ∧ DefiniteAt i ∧ r.data = rest) ↔
      ∃ o, i.data = o ++ rest ∧ LangObject .der T F o := by
  constructor
  · rintro ⟨r, a, h1, h2, h3, rfl⟩
    obtain ⟨o, g1, _, g2⟩ := any_holds h1
    obtain ⟨k1, k2⟩ := (hQ a (any_consistent h1)).mp h2
    exact ⟨o, g1, _, _, .inl (g2 h3), k1, k2⟩
  · rintro ⟨o, h1, x, cs, h2, h3, h4⟩
    have h2 : Written x cs o := h2.elim id fun h => by cases h.1
    obtain ⟨r, a, g1, g2, rfl, rfl⟩ := holds_any (m := m) h1 (.inl h2)
    exact ⟨r, a, g1, (hQ a (any_consistent g1)).mpr ⟨h3, h4⟩, definite_written h1 h2, g2⟩

theorem Denoted.any (ih : Denoted m p T L) (w : β) (a : Any) (hh : Consistent a.header a.data) :
    (p.acceptTag a.header.tag = true ∧ ∃ x, p.content a.header a.data = .ok (x, w)) ↔
      T a.header.tag ∧ L w (says a.header) a.data.data := by
  rw [ih.accepts, ih.value _ _ _ hh]

theorem Denoted.parse (ih : Denoted m p T L) {i : Input} {w : β} {rest : Bytes} :
    (∃ r, m.parse p i = .ok (r, w) ∧ r.data = rest) ↔ ∃ o, i.data = o ++ rest ∧ LangObject m T (L w) o := by
  rw [← object_lang (ih.any w)]
  constructor
  · rintro ⟨r, h, e⟩
    obtain ⟨a, x, h1, h2, h3⟩ := rules_parse_ok.mp h
    exact ⟨r, a, h1, ⟨h2, x, h3⟩, e⟩
  · rintro ⟨r, a, h1, ⟨h2, x, h3⟩, e⟩
    exact ⟨r, rules_parse_ok.mpr ⟨a, x, h1, h2, h3⟩, e⟩

theorem Denoted.first (ih : Denoted m p T L) {i : Input} {w : β} :
    (∃ r, m.parse p i = .ok (r, w)) ↔ ∃ o rest, i.data = o ++ rest ∧ LangObject m T (L w) o := by
  constructor
  · rintro ⟨r, h⟩
    obtain ⟨o, h1, h2⟩ := ih.parse.mp ⟨r, h, rfl⟩
    exact ⟨o, _, h1, h2⟩
  · rintro ⟨o, rest, h1, h2⟩
    obtain ⟨r, h, _⟩ := ih.parse.mpr ⟨o, h1, h2⟩
    exact ⟨r, h⟩

theorem Denoted.repeats (ih : Denoted m p T L) (ws : List β) (i : Input) :
    (∃ e, Repeats (m.parse p) i ws e) ↔ LangEach m T L ws i.data := by
  induction ws generalizing i with
  | nil =>
    constructor
    · rintro ⟨e, h⟩
      cases h with
      | nil h => exact h
    · intro h
      exact ⟨i, .nil h⟩
  | cons w ws iht =>
    constructor
    · rintro ⟨e, h⟩
      cases h with
      | @cons _ r _ _ _ hn hp ht =>
        obtain ⟨o, h1, h2⟩ := ih.parse.mp ⟨r, hp, rfl⟩
        exact ⟨o, _, h1, h2, (iht r).mp ⟨e, ht⟩⟩
    · rintro ⟨o, rest, h1, h2, h3⟩
      obtain ⟨r, hp, rfl⟩ := ih.parse.mpr ⟨o, h1, h2⟩
      obtain ⟨e, ht⟩ := (iht r).mpr h3
      exact ⟨e, .cons (let ⟨_, _, h, _⟩ := rules_parse_ok.mp hp; any_nonempty h) hp ht⟩

theorem denoted_leaf {c : Codec α} {P : α → Bool → Bytes → Prop} (hc : LeafLang m c P) :
    Denoted m (Codec.parser c m) (LeafTag c) fun w x cs => P w x.2.1 cs :=
  ⟨leafLang_tag hc, fun h i w hh => leafLang_contents hc h i w hh⟩

theorem items_content {h : Header} {i : Input} {ws : List β} : (∃ e, (vecP (anyParse m) p).content h i = .ok (e, ws)) ↔
    h.constructed = true ∧ ∃ e, Repeats (m.parse p) i ws e := by
  cases m with
  | ber => exact ⟨fun ⟨e, h⟩ => let ⟨a, b⟩ := vecBer_content.mp h; ⟨a, e, b⟩, fun ⟨a, e, b⟩ => ⟨e, vecBer_content.mpr ⟨a, b⟩⟩⟩
  | der => exact ⟨fun ⟨e, h⟩ => let ⟨a, b⟩ := vecDer_content.mp h; ⟨a, e, b⟩, fun ⟨a, e, b⟩ => ⟨e, vecDer_content.mpr ⟨a, b⟩⟩⟩

theorem setItems_content {h : Header} {i : Input} {ws : List β} :
    (∃ e, (setItemsP (anyParse m) p).content h i = .ok (e, ws)) ↔
      h.constructed = true ∧ ∃ e, Repeats (m.parse p) i ws e := by
  cases m with
  | ber => exact ⟨fun ⟨e, h⟩ => let ⟨a, b⟩ := setItemsBer_content.mp h; ⟨a, e, b⟩,
      fun ⟨a, e, b⟩ => ⟨e, setItemsBer_content.mpr ⟨a, b⟩⟩⟩
  | der => exact ⟨fun ⟨e, h⟩ => let ⟨a, b⟩ := setItemsDer_content.mp h; ⟨a, e, b⟩,
      fun ⟨a, e, b⟩ => ⟨e, setItemsDer_content.mpr ⟨a, b⟩⟩⟩

theorem denoted_vec (ih : Denoted m p T L) : Denoted m (vecP (anyParse m) p) (· = 16) fun ws x cs =>
    x.2.1 = true ∧ LangEach m T L ws cs := by
  refine ⟨fun _ => tagIs_iff, fun h i w _ => ?_⟩
  rw [items_content, ih.repeats]
  rfl

theorem denoted_sequenceOf (ih : Denoted m p T L) : Denoted m (sequenceOfP (anyParse m) p) (· = 16) fun s x cs =>
    x.2.1 = true ∧ LangEach m T L s.items cs := by
  refine ⟨fun _ => tagIs_iff, fun h i w hh => ?_⟩
  rw [sequenceOf_map]
  simp only [map_content]
  rw [← (denoted_vec ih).value h i w.items hh]
  exact ⟨fun ⟨x, a, h1, h2⟩ => ⟨x, by rw [h2]; exact h1⟩, fun ⟨x, h1⟩ => ⟨x, _, h1, rfl⟩⟩

theorem denoted_setItems (ih : Denoted m p T L) : Denoted m (setItemsP (anyParse m) p) (· = 17) fun ws x cs =>
    x.2.1 = true ∧ LangEach m T L ws cs := by
  refine ⟨fun _ => tagIs_iff, fun h i w _ => ?_⟩
  rw [setItems_content, ih.repeats]
  rfl

theorem denoted_setOf (ih : Denoted m p T L) : Denoted m (setOfP (anyParse m) p) (· = 17) fun s x cs =>
    x.2.1 = true ∧ LangEach m T L s.items cs := by
  refine ⟨fun _ => tagIs_iff, fun h i w hh => ?_⟩
  show (∃ x, ((setItemsP (anyParse m) p).map SetOf.mk).content h i = .ok (x, w)) ↔ _
  simp only [map_content]
  rw [← (denoted_setItems ih).value h i w.items hh]
  exact ⟨fun ⟨x, a, h1, h2⟩ => ⟨x, by rw [h2]; exact h1⟩, fun ⟨x, h1⟩ => ⟨x, _, h1, rfl⟩⟩

theorem denoted_set {σ : Type} (S : SetImpl β σ) (ih : Denoted m p T L) :
    Denoted m (setP S (anyParse m) p) (· = 17) fun s x cs =>
      x.2.1 = true ∧ ∃ ws, s = S.ofList ws ∧ LangEach m T L ws cs := by
  refine ⟨fun _ => tagIs_iff, fun h i w hh => ?_⟩
  show (∃ x, ((setItemsP (anyParse m) p).map S.ofList).content h i = .ok (x, w)) ↔ _
  simp only [map_content]
  constructor
  · rintro ⟨x, a, h1, h2⟩
    obtain ⟨g1, g2⟩ := ((denoted_setItems ih).value h i a hh).mp ⟨x, h1⟩
    exact ⟨g1, a, h2, g2⟩
  · rintro ⟨g1, a, h2, g2⟩
    obtain ⟨x, h1⟩ := ((denoted_setItems ih).value h i a hh).mpr ⟨g1, g2⟩
    exact ⟨x, a, h1, h2⟩

theorem denoted_array (N : Nat) (ih : Denoted m p T L) : Denoted m (arrayP N (anyParse m) p) (· = 16) fun w x cs =>
    x.2.1 = true ∧ LangEach m T L w.val cs := by
  refine ⟨fun _ => tagIs_iff, fun h i w hh => ?_⟩
  simp only [arrayP_content]
  exact (denoted_vec ih).value h i w.val hh

theorem denoted_raw (tag : Nat) : Denoted m (rawP tag) (· = tag) fun w x cs => x.2.1 = true ∧ w = ⟨cs, false⟩ := by
  refine ⟨fun _ => tagIs_iff, fun h i w _ => ?_⟩
  simp only [raw_content]
  exact ⟨fun ⟨_, h1, h2, _⟩ => ⟨h1, h2⟩, fun ⟨h1, h2⟩ => ⟨_, h1, h2, rfl⟩⟩

theorem says_eq {h : Header} {c : Class} {b : Bool} {n : Nat} :
    says h = (c, b, n) ↔ h.cls = c ∧ h.constructed = b ∧ h.tag = n := by
  simp [says]

theorem denoted_explicit (cls : Class) (tag : Nat) (ih : Denoted m p T L) :
    Denoted m (explicitP cls tag (m.parse p)) (· = tag) fun w => LangExplicit m cls tag T (L w.inner) := by
  refine ⟨fun _ => tagIs_iff, fun h i w _ => ?_⟩
  simp only [explicitP_content, LangExplicit, says_eq]
  rw [← ih.first]
  exact ⟨fun ⟨r, h1, h2, h3, h4⟩ => ⟨⟨h2, h1, h3⟩, r, h4⟩, fun ⟨⟨h2, h1, h3⟩, r, h4⟩ => ⟨r, h1, h2, h3, h4⟩⟩

theorem denoted_implicit (cls : Class) (tag : Nat) (ih : Denoted m p T L) :
    Denoted m (implicitP cls tag p) (· = tag) fun w => LangImplicit cls (L w.inner) := by
  refine ⟨fun _ => tagIs_iff, fun h i w hh => ?_⟩
  simp only [implicitP_content, LangImplicit]
  rw [← ih.value _ _ _ hh]
  exact ⟨fun ⟨r, h1, h2⟩ => ⟨h1, r, h2⟩, fun ⟨h1, r, h2⟩ => ⟨r, h1, h2⟩⟩

theorem denoted_alias (ih : Denoted m p T L) : Denoted m (aliasP p) T fun w => L w.inner := by
  refine ⟨ih.accepts, fun h i w hh => ?_⟩
  rw [← ih.value _ _ _ hh]
  constructor
  · rintro ⟨x, hp⟩
    obtain ⟨⟨y, v⟩, h1, h2⟩ := bind_eq_ok.mp hp
    injection h2 with h2
    injection h2 with h2 h3
    subst h2; subst h3; exact ⟨_, h1⟩
  · rintro ⟨x, hp⟩
    exact ⟨x, bind_eq_ok.mpr ⟨_, hp, rfl⟩⟩

theorem denoted_named {γ : Type} (f : β → γ) (ih : Denoted m p T L) :
    Denoted m (p.map f) T fun w x cs => ∃ v, w = f v ∧ L v x cs := by
  refine ⟨ih.accepts, fun h i w hh => ?_⟩
  simp only [map_content, ← ih.value _ _ _ hh]
  exact ⟨fun ⟨x, v, h1, h2⟩ => ⟨v, h2, x, h1⟩, fun ⟨v, h2, x, h1⟩ => ⟨x, v, h1, h2⟩⟩

theorem denoted_enum (ds : List Nat) (hn : ds.Nodup) :
    Denoted m (enumP (Codec.parser enumC m) ds) (· = 10) fun k x cs =>
      x.2.1 = false ∧ (m = .der → MinimalInt cs) ∧ InUint 4 (twos cs) ∧ ((ds[k] : Nat) : Int) = twos cs := by
  refine ⟨fun _ => tagIs_iff, fun h i k hh => ?_⟩
  have key := leafLang_contents (.enumerated m) h i ds[k] hh
  refine Iff.trans ?_ key
  constructor
  · rintro ⟨x, hp⟩
    obtain ⟨_, _, hp⟩ := bind_eq_ok.mp hp
    obtain ⟨⟨y, n⟩, h1, hp⟩ := bind_eq_ok.mp hp
    have h2 : ds[k] = n := by
      cases e : ds.finIdxOf? n with
      | none => simp [e, nomErr] at hp
      | some j =>
        simp only [e, Except.ok.injEq, Prod.mk.injEq] at hp
        rw [← hp.2]
        exact (finIdxOf_ok hn).mp e
    exact ⟨y, h2 ▸ h1⟩
  · rintro ⟨y, h1⟩
    have hc := (key.mp ⟨y, h1⟩).1
    refine ⟨y, bind_eq_ok.mpr ⟨(), assertPrimitive_ok.mpr hc, bind_eq_ok.mpr ⟨_, h1, ?_⟩⟩⟩
    have : ds.finIdxOf? ds[k] = some k := (finIdxOf_ok hn).mpr rfl
    simp only [this]

end
/-! ### Tuples, structs and CHOICEs -/

/-- What holds of the components of a tuple. -/
def DenotedTuple {Us : List Type} (fs : TupFns Us) (Ls : Tup Us → Bytes → Prop) : Prop :=
  ∀ i ws, (∃ e, InOrder fs i ws e) ↔ Ls ws i.data

/-- What holds of the fields. -/
def DenotedFields (m : Rules) {Us : List Type} (fd : Fields Us) (Ls : Tup Us → Bytes → Prop) : Prop :=
  ∀ i ws, (∃ e, ReadsFields m fd i ws e) ↔ Ls ws i.data

/-- What holds of the variants. -/
def DenotedChoice (m : Rules) (k : ChoiceKind) {Us : List Type} (vd : Variants Us) (T : Nat → Prop)
    (Ls : HSum Us → Identity → Bytes → Prop) : Prop :=
  (∀ t, vd.accept k t = true ↔ T t) ∧
  ∀ a y, Consistent a.header a.data → (ReadsChoice m k vd a y ↔ Ls y (says a.header) a.data.data)

section
variable {U : Type} {Us : List Type} {p : Parser U} {T : Nat → Prop} {L : U → Identity → Bytes → Prop}

theorem denoted_component {fs : TupFns Us} {Ls : Tup Us → Bytes → Prop} (ih : Denoted m p T L)
    (iht : DenotedTuple fs Ls) :
    DenotedTuple (.cons (m.parse p) fs) fun w bs => ∃ o rest, bs = o ++ rest ∧ LangObject m T (L w.1) o ∧
      Ls w.2 rest := by
  rintro i ⟨w, ws⟩
  constructor
  · rintro ⟨e, h⟩
    cases h with
    | @cons _ _ _ _ _ r _ _ _ h ht =>
      obtain ⟨o, h1, h2⟩ := ih.parse.mp ⟨r, h, rfl⟩
      exact ⟨o, _, h1, h2, (iht r ws).mp ⟨e, ht⟩⟩
  · rintro ⟨o, rest, h1, h2, h3⟩
    obtain ⟨r, h, rfl⟩ := ih.parse.mpr ⟨o, h1, h2⟩
    obtain ⟨e, ht⟩ := (iht r ws).mpr h3
    exact ⟨e, .cons h ht⟩

theorem denoted_tuple {fs : TupFns Us} {Ls : Tup Us → Bytes → Prop} (ih : DenotedTuple fs Ls) :
    Denoted m (tupleP fs) (· = 16) fun ws _ cs => Ls ws cs := by
  refine ⟨fun _ => tagIs_iff, fun h i w _ => ?_⟩
  rw [← ih i w]
  exact exists_congr fun _ => run_ok

/-- A field. -/
theorem denoted_field (ih : Denoted m p T L) {tag : FieldTag} {i : Input} {w : U} {rest : Bytes} :
    (∃ r, ReadsAs m p tag i w r ∧ r.data = rest) ↔ ∃ o, i.data = o ++ rest ∧ LangField m tag T (L w) o := by
  cases tag with
  | untagged =>
    show _ ↔ ∃ o, i.data = o ++ rest ∧ LangObject m T (L w) o
    rw [← ih.parse]
    exact ⟨fun ⟨r, h, e⟩ => by cases h with | untagged h => exact ⟨r, h, e⟩, fun ⟨r, h, e⟩ => ⟨r, .untagged h, e⟩⟩
  | explicit cls n =>
    show _ ↔ ∃ o, i.data = o ++ rest ∧ LangObject m (· = n) (LangExplicit m cls n T (L w)) o
    rw [← object_lang (Q := fun a => (a.header.cls = cls ∧ a.header.constructed = true ∧ a.header.tag = n) ∧
      ∃ x, m.parse p a.data = .ok (x, w)) (fun a _ => by
        rw [ih.first, LangExplicit, says_eq]
        exact ⟨fun h => ⟨h.1.2.2, h⟩, fun h => h.2⟩)]
    constructor
    · rintro ⟨r, h, e⟩
      cases h with
      | explicit h hcls htag hc hi => exact ⟨r, _, h, ⟨⟨hcls, hc, htag⟩, _, hi⟩, e⟩
    · rintro ⟨r, a, h, ⟨⟨hcls, hc, htag⟩, x, hi⟩, e⟩
      exact ⟨r, .explicit h hcls htag hc hi, e⟩
  | implicit cls n =>
    show _ ↔ ∃ o, i.data = o ++ rest ∧ LangObject m (· = n) (LangImplicit cls (L w)) o
    rw [← object_lang (Q := fun a => a.header.tag = n ∧ a.header.cls = cls ∧
      ∃ x, p.content a.header a.data = .ok (x, w)) (fun a hh => by
        rw [ih.value _ _ _ hh]; rfl)]
    constructor
    · rintro ⟨r, h, e⟩
      cases h with
      | implicit h hcls htag hi => exact ⟨r, _, h, ⟨htag, hcls, _, hi⟩, e⟩
    · rintro ⟨r, a, h, ⟨htag, hcls, x, hi⟩, e⟩
      exact ⟨r, .implicit h hcls htag hi, e⟩

/-- A field that may be missing, and is not. -/
theorem denoted_present (ih : Denoted m p T L) {tag : FieldTag} {i : Input} {w : U} {rest : Bytes} :
    (∃ r, (ReadsAs m p tag i w r ∧ (tag = .untagged → DefiniteAt i)) ∧ r.data = rest) ↔
      ∃ o, i.data = o ++ rest ∧ LangPresent m tag T (L w) o := by
  cases tag with
  | untagged =>
    show _ ↔ ∃ o, i.data = o ++ rest ∧ LangObject .der T (L w) o
    rw [← definite_lang (m := m) (ih.any w)]
    constructor
    · rintro ⟨r, ⟨h, hd⟩, e⟩
      cases h with
      | untagged h =>
        obtain ⟨a, x, h1, h2, h3⟩ := rules_parse_ok.mp h
        exact ⟨r, a, h1, ⟨h2, x, h3⟩, hd rfl, e⟩
    · rintro ⟨r, a, h1, ⟨h2, x, h3⟩, hd, e⟩
      exact ⟨r, ⟨.untagged (rules_parse_ok.mpr ⟨a, x, h1, h2, h3⟩), fun _ => hd⟩, e⟩
  | explicit cls n =>
    refine Iff.trans ?_ (denoted_field ih (tag := .explicit cls n))
    exact ⟨fun ⟨r, h, e⟩ => ⟨r, h.1, e⟩, fun ⟨r, h, e⟩ => ⟨r, ⟨h, nofun⟩, e⟩⟩
  | implicit cls n =>
    refine Iff.trans ?_ (denoted_field ih (tag := .implicit cls n))
    exact ⟨fun ⟨r, h, e⟩ => ⟨r, h.1, e⟩, fun ⟨r, h, e⟩ => ⟨r, ⟨h, nofun⟩, e⟩⟩

theorem rules_header {i r : Input} {h : Header} :
    m.header i = .ok (r, h) ↔ parseHeader i = .ok (r, h) ∧ (m = .der → h.length ≠ .indefinite) := by
  cases m with
  | ber => exact ⟨fun h => ⟨h, nofun⟩, fun h => h.1⟩
  | der =>
    refine parseHeaderDer_ok.trans (and_congr_right fun _ => ?_)
    cases h.length <;> simp [Length.isDefinite]

/-- A field that is missing. -/
theorem denoted_absent (ih : Denoted m p T L) {tag : FieldTag} {i : Input} :
    Missing m p tag i ↔ LangAbsent m tag T i.data := by
  constructor
  · rintro (h | ⟨hh, ht⟩)
    · exact .inl h
    · rename_i r h
      obtain ⟨h1, h2⟩ := rules_header.mp hh
      obtain ⟨id, len, g1, g2, g3, _⟩ := parseHeader_ok.mp h1
      refine .inr ⟨_, _, _, _, id, len, _, g1, g2, g3, h2, ?_⟩
      cases tag with
      | untagged => exact fun h => ht ((ih.accepts _).mpr h)
      | explicit => exact ht
      | implicit => exact ht
  · rintro (h | ⟨c, q, t, l, id, len, rest, g1, g2, g3, h2, h3⟩)
    · exact .done h
    · have e1 : (after i (id.length + len.length)).data = rest := by
        rw [after_data, g3, ← List.length_append, List.drop_left]
      refine .other (r := after i (id.length + len.length))
        (h := ⟨c, q, t, l, some id, some (first i (id.length + len.length))⟩)
        (rules_header.mpr ⟨parseHeader_ok.mpr ⟨id, len, g1, g2, by rw [g3, e1], rfl, rfl, rfl⟩, h2⟩) ?_
      cases tag with
      | untagged => exact fun h => h3 ((ih.accepts _).mp h)
      | explicit => exact h3
      | implicit => exact h3

variable {fd : Fields Us} {Ls : Tup Us → Bytes → Prop}

theorem denoted_cons {f : Field U} {i : Input} {w : U} {ws : Tup Us} (iht : DenotedFields m fd Ls) :
    (∃ e, ReadsFields m (.cons f fd) i (w, ws) e) ↔ ∃ r, ReadsField m f i w r ∧ Ls ws r.data := by
  constructor
  · rintro ⟨e, h⟩
    cases h with
    | cons h ht => exact ⟨_, h, (iht _ _).mp ⟨e, ht⟩⟩
  · rintro ⟨r, h, ht⟩
    obtain ⟨e, ht⟩ := (iht _ _).mpr ht
    exact ⟨e, .cons h ht⟩

theorem split_rest {Q : Input → Prop} {i : Input} {K : Bytes → Prop} {M : Bytes → Prop}
    (h : ∀ rest, (∃ r, Q r ∧ r.data = rest) ↔ ∃ o, i.data = o ++ rest ∧ K o) :
    (∃ r, Q r ∧ M r.data) ↔ ∃ o rest, i.data = o ++ rest ∧ K o ∧ M rest := by
  constructor
  · rintro ⟨r, h1, h2⟩
    obtain ⟨o, g1, g2⟩ := (h r.data).mp ⟨r, h1, rfl⟩
    exact ⟨o, _, g1, g2, h2⟩
  · rintro ⟨o, rest, g1, g2, h2⟩
    obtain ⟨r, h1, rfl⟩ := (h rest).mpr ⟨o, g1, g2⟩
    exact ⟨r, h1, h2⟩

theorem denoted_required {tag : FieldTag} (ih : Denoted m p T L) (iht : DenotedFields m fd Ls) :
    DenotedFields m (.cons (.required tag p) fd) fun w bs => ∃ o rest, bs = o ++ rest ∧
      LangField m tag T (L w.1) o ∧ Ls w.2 rest := by
  rintro i ⟨w, ws⟩
  rw [denoted_cons iht]
  exact split_rest fun rest => denoted_field ih

theorem denoted_optional {tag : FieldTag} (ih : Denoted m p T L) (iht : DenotedFields m fd Ls) :
    DenotedFields m (.cons (.optional tag p) fd) fun w bs =>
      (∃ v o rest, w.1 = some v ∧ bs = o ++ rest ∧ LangPresent m tag T (L v) o ∧ Ls w.2 rest) ∨
      (w.1 = none ∧ LangAbsent m tag T bs ∧ Ls w.2 bs) := by
  rintro i ⟨w, ws⟩
  rw [denoted_cons iht]
  constructor
  · rintro ⟨r, ⟨v, h1, h2, h3⟩ | ⟨h1, rfl, h2⟩, ht⟩
    · obtain ⟨o, rest, g1, g2, g3⟩ := (split_rest (M := Ls ws) fun rest => denoted_present ih).mp ⟨r, ⟨h2, h3⟩, ht⟩
      exact .inl ⟨v, o, rest, h1, g1, g2, g3⟩
    · exact .inr ⟨h1, (denoted_absent ih).mp h2, ht⟩
  · rintro (⟨v, o, rest, h1, g1, g2, g3⟩ | ⟨h1, h2, ht⟩)
    · obtain ⟨r, ⟨h2, h3⟩, ht⟩ := (split_rest (M := Ls ws) fun rest => denoted_present ih).mpr ⟨o, rest, g1, g2, g3⟩
      exact ⟨r, .inl ⟨v, h1, h2, h3⟩, ht⟩
    · exact ⟨i, .inr ⟨h1, rfl, (denoted_absent ih).mpr h2⟩, ht⟩

theorem denoted_default {tag : FieldTag} {x : U} (ih : Denoted m p T L) (iht : DenotedFields m fd Ls) :
    DenotedFields m (.cons (.default tag p x) fd) fun w bs =>
      (∃ o rest, bs = o ++ rest ∧ LangPresent m tag T (L w.1) o ∧ Ls w.2 rest) ∨
      (w.1 = x ∧ LangAbsent m tag T bs ∧ Ls w.2 bs) := by
  rintro i ⟨w, ws⟩
  rw [denoted_cons iht]
  constructor
  · rintro ⟨r, h | ⟨h1, rfl, h2⟩, ht⟩
    · exact .inl ((split_rest (M := Ls ws) fun rest => denoted_present ih).mp ⟨r, h, ht⟩)
    · exact .inr ⟨h1, (denoted_absent ih).mp h2, ht⟩
  · rintro (h | ⟨h1, h2, ht⟩)
    · obtain ⟨r, h, ht⟩ := (split_rest (M := Ls ws) fun rest => denoted_present ih).mpr h
      exact ⟨r, .inl h, ht⟩
    · exact ⟨i, .inr ⟨h1, rfl, (denoted_absent ih).mpr h2⟩, ht⟩

theorem denoted_custom {f : Input → PRes U} {C : U → Bytes → Prop}
    (h : ∀ i w rest, (∃ r, f i = .ok (r, w) ∧ r.data = rest) ↔ ∃ o, i.data = o ++ rest ∧ C w o)
    (iht : DenotedFields m fd Ls) :
    DenotedFields m (.cons (.custom f) fd) fun w bs => ∃ o rest, bs = o ++ rest ∧ C w.1 o ∧ Ls w.2 rest := by
  rintro i ⟨w, ws⟩
  rw [denoted_cons iht]
  exact split_rest fun rest => h i w rest

theorem denoted_struct (tag : Nat) (ih : DenotedFields m fd Ls) :
    Denoted m (structP m tag fd) (· = tag) fun ws x cs => x.2.1 = true ∧ Ls ws cs := by
  refine ⟨fun _ => tagIs_iff, fun h i w _ => ?_⟩
  rw [← ih i w]
  constructor
  · rintro ⟨x, hp⟩
    obtain ⟨_, h1, h2⟩ := bind_eq_ok.mp hp
    exact ⟨assertConstructed_ok.mp h1, x, fields_run_ok.mp h2⟩
  · rintro ⟨h1, x, h2⟩
    exact ⟨x, bind_eq_ok.mpr ⟨(), assertConstructed_ok.mpr h1, fields_run_ok.mpr h2⟩⟩

theorem selects_lang (ih : Denoted m p T L) (k : ChoiceKind) (n t : Nat) :
    Selects k n p t ↔ LangSelects k n T t := by
  cases k with
  | untagged => exact ih.accepts t
  | explicit => exact .rfl
  | implicit => exact .rfl

theorem payload_lang (ih : Denoted m p T L) (k : ChoiceKind) (a : Any) (w : U) (hh : Consistent a.header a.data) :
    ReadsPayload m k p a w ↔ LangPayload m k T (L w) (says a.header) a.data.data := by
  cases k with
  | untagged => exact ih.value _ _ _ hh
  | implicit => exact ih.value _ _ _ hh
  | explicit => exact and_congr_right fun _ => ih.first

theorem denoted_variant {k : ChoiceKind} {n : Nat} {vd : Variants Us} {Ts : Nat → Prop}
    {Ls : HSum Us → Identity → Bytes → Prop} (ih : Denoted m p T L) (iht : DenotedChoice m k vd Ts Ls) :
    DenotedChoice m k (.cons n p vd) (fun t => LangSelects k n T t ∨ Ts t)
      (Sum.elim (fun w x cs => LangSelects k n T x.2.2 ∧ LangPayload m k T (L w) x cs)
        (fun y x cs => ¬ LangSelects k n T x.2.2 ∧ Ls y x cs) : U ⊕ HSum Us → Identity → Bytes → Prop) := by
  refine ⟨fun t => ?_, ?_⟩
  · show _ ↔ LangSelects k n T t ∨ Ts t
    rw [Variants.accept, Bool.or_eq_true, iht.1, ← selects_lang ih]
    cases k <;> simp [variantAccept, Selects]
  · rintro a (w | y) hh
    · show Selects k n p a.header.tag ∧ ReadsPayload m k p a w ↔ _
      rw [selects_lang ih, payload_lang ih k a w hh]
      rfl
    · show ¬ Selects k n p a.header.tag ∧ ReadsChoice m k vd a y ↔ _
      rw [selects_lang ih, iht.2 a y hh]
      rfl

theorem denoted_choice {k : ChoiceKind} {vd : Variants Us} {Ts : Nat → Prop}
    {Ls : HSum Us → Identity → Bytes → Prop} (ih : DenotedChoice m k vd Ts Ls) :
    Denoted m (choiceP m k vd) Ts Ls :=
  ⟨ih.1, fun h i y hh => (choice_content_ok (a := ⟨h, i⟩)).trans (ih.2 ⟨h, i⟩ y hh)⟩

end

theorem denoted {p : Parser β} {T : Nat → Prop} {L : β → Identity → Bytes → Prop} (h : Lang m p T L) :
    Denoted m p T L := by
  refine Lang.rec
    (motive_1 := fun {_} p T L _ => Denoted m p T L)
    (motive_2 := fun {_} fs Ls _ => DenotedTuple fs Ls)
    (motive_3 := fun {_} fd Ls _ => DenotedFields m fd Ls)
    (motive_4 := fun k {_} vd T Ls _ => DenotedChoice m k vd T Ls)
    ?_ ?_ ?_ ?_ ?_ ?_ ?_ ?_ ?_ ?_ ?_ ?_ ?_ ?_ ?_ ?_ ?_ ?_ ?_ ?_ ?_ ?_ ?_ ?_ ?_ h
  · intro _ _ _ h; exact denoted_leaf h
  · intros; exact denoted_vec ‹_›
  · intros; exact denoted_sequenceOf ‹_›
  · intros; exact denoted_setOf ‹_›
  · intro _ _ S _ _ _ _ ih; exact denoted_set S ih
  · intro _ _ _ _ N _ ih; exact denoted_array N ih
  · exact denoted_raw
  · intro _ _ _ _ cls tag _ ih; exact denoted_explicit cls tag ih
  · intro _ _ _ _ cls tag _ ih; exact denoted_implicit cls tag ih
  · intro _ _ _ _ ih; exact denoted_tuple ih
  · intro _ _ _ tag _ ih; exact denoted_struct tag ih
  · intro _ _ _ _ k _ ih; exact denoted_choice ih
  · intro ds hn; exact denoted_enum ds hn
  · intro _ _ _ _ _ ih; exact denoted_alias ih
  · intro _ _ _ _ _ f _ ih; exact denoted_named f ih
  · intro _ _ _ _ ht hl; exact ⟨ht, fun h i w hh => hl h i w hh.1 hh.2⟩
  · intro i ws; exact ⟨fun _ => trivial, fun _ => ⟨i, .nil⟩⟩
  · intro _ _ _ _ _ _ _ _ _ ih iht; exact denoted_component ih iht
  · intro i ws; exact ⟨fun _ => trivial, fun _ => ⟨i, .nil⟩⟩
  · intro _ _ _ _ _ _ _ tag _ _ ih iht; exact denoted_required ih iht
  · intro _ _ _ _ _ _ _ tag _ _ ih iht; exact denoted_optional ih iht
  · intro _ _ _ _ _ _ _ tag x _ _ ih iht; exact denoted_default ih iht
  · intro _ _ _ _ _ _ h _ iht; exact denoted_custom h iht
  · intro _ _; exact ⟨fun t => by simp [Variants.accept], fun a y => nomatch y⟩
  · intro _ _ _ _ _ _ _ _ _ n _ _ ih iht; exact denoted_variant ih iht

end Asn1

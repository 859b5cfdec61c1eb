import Verif.Spec.Equality
import Verif.Props.Builders
import Verif.Props.BigInt
import Verif.Props.Oid
import Verif.Props.AnySet
import Verif.Props.RealNearest
import Verif.Props.Sets
/-!
# Equality of values (C125)
-/
namespace Asn1
open Spec

variable {α : Type}

/-- The two values cannot be told apart by an encoder. -/
def EncodedAlike (t : ToBer α) (a b : α) : Prop :=
  t.contentLen a = t.contentLen b ∧ t.tagInfo a = t.tagInfo b ∧ t.writeContent a = t.writeContent b

theorem EncodedAlike.total {t : ToBer α} {a b : α} (h : EncodedAlike t a b) : t.totalLen a = t.totalLen b := by
  unfold ToBer.totalLen; rw [h.1, h.2.1]

theorem EncodedAlike.encode {t : ToBer α} {a b : α} (h : EncodedAlike t a b) : t.encode a = t.encode b := by
  unfold ToBer.encode ToBer.writeHeader
  rw [h.1, h.2.1, h.2.2]

theorem listEq_items {eq : α → α → Bool} {t : ToBer α} (ih : ∀ a b, eq a b = true → EncodedAlike t a b) :
    ∀ as bs, listEq eq as bs = true → as.map t.totalLen = bs.map t.totalLen ∧
      ∀ n, t.writeItems as n = t.writeItems bs n
  | [], [], _ => ⟨rfl, fun _ => rfl⟩
  | [], _ :: _, h => by simp [listEq] at h
  | _ :: _, [], h => by simp [listEq] at h
  | a :: as, b :: bs, h => by
    simp only [listEq, Bool.and_eq_true] at h
    have h1 := ih _ _ h.1
    obtain ⟨h2, h3⟩ := listEq_items ih as bs h.2
    refine ⟨by simp [h1.total, h2], fun n => ?_⟩
    unfold ToBer.writeItems
    rw [h1.encode]
    simp only [h3]

theorem listEq_refl {eq : α → α → Bool} (h : ∀ a, eq a a = true) : ∀ as, listEq eq as as = true
  | [] => rfl
  | a :: as => by simp [listEq, h, listEq_refl h as]

theorem listEq_symm {eq : α → α → Bool} (h : ∀ a b, eq a b = true → eq b a = true) :
    ∀ as bs, listEq eq as bs = true → listEq eq bs as = true
  | [], [], _ => rfl
  | [], _ :: _, h => by simp [listEq] at h
  | _ :: _, [], h => by simp [listEq] at h
  | a :: as, b :: bs, hh => by
    simp only [listEq, Bool.and_eq_true] at hh ⊢
    exact ⟨h _ _ hh.1, listEq_symm h as bs hh.2⟩

/-- What holds of every equality. -/
structure GoodEq (t : ToBer α) (eq : α → α → Bool) : Prop where
  alike : ∀ a b, eq a b = true → EncodedAlike t a b
  refl : ∀ a, eq a a = true
  symm : ∀ a b, eq a b = true → eq b a = true

theorem any_alike {a b : Any} (h : Any.eq a b = true) : EncodedAlike anyToBer a b := by
  unfold Any.eq at h
  simp only [Bool.and_eq_true, decide_eq_true_eq] at h
  obtain ⟨h1, h2, h3, _⟩ := (headerEq_iff _ _).mp h.1
  refine ⟨?_, ?_, ?_⟩ <;> simp [anyToBer, h1, h2, h3, h.2]

theorem any_eq_refl (a : Any) : Any.eq a a = true := by
  simp [Any.eq, (C48_header_equality_partial a.header a.header a.header).1]

theorem any_eq_symm (a b : Any) (h : Any.eq a b = true) : Any.eq b a = true := by
  unfold Any.eq at h ⊢
  simp only [Bool.and_eq_true, decide_eq_true_eq] at h ⊢
  exact ⟨(C48_header_equality_partial a.header b.header a.header).2.1 h.1, h.2.symm⟩

theorem comparable_good {t : ToBer α} {eq : α → α → Bool} (h : Comparable t eq) : GoodEq t eq := by
  refine Comparable.rec (motive_1 := fun {α} t eq _ => GoodEq (α := α) t eq)
    (motive_2 := fun {Ts} es eq _ => (∀ a b, eq a b = true →
      (∀ acc, es.len a acc = es.len b acc) ∧ ∀ n, es.write a n = es.write b n) ∧
      (∀ a, eq a a = true) ∧ ∀ a b, eq a b = true → eq b a = true)
    (motive_3 := fun {Ts} es eq _ => (∀ a b, eq a b = true →
      ∀ k, es.len k a = es.len k b ∧ es.info k a = es.info k b ∧ es.write k a = es.write k b) ∧
      (∀ a, eq a a = true) ∧ ∀ a b, eq a b = true → eq b a = true)
    ?_ ?_ ?_ ?_ ?_ ?_ ?_ ?_ ?_ ?_ ?_ ?_ ?_ ?_ ?_ h
  · intro α t eq h
    refine ⟨fun a b hab => ?_, fun a => (h a a).mpr rfl, fun a b hab => (h b a).mpr ((h a b).mp hab).symm⟩
    cases (h a b).mp hab
    exact ⟨rfl, rfl, rfl⟩
  · exact ⟨fun a b => any_alike, any_eq_refl, any_eq_symm⟩
  · intro α t eq tag _ ih
    refine ⟨fun a b hab => ?_, listEq_refl ih.refl, listEq_symm ih.symm⟩
    obtain ⟨h1, h2⟩ := listEq_items ih.alike a b hab
    exact ⟨by show t.lengthItems a = t.lengthItems b; unfold ToBer.lengthItems; rw [h1], rfl, h2 0⟩
  · intro α t eq _ ih
    refine ⟨fun a b hab => ?_, listEq_refl ih.refl, listEq_symm ih.symm⟩
    obtain ⟨h1, h2⟩ := listEq_items ih.alike a b hab
    refine ⟨rfl, rfl, ?_⟩
    simp only [indefToBer, h2]
  · intro α t eq N _ ih
    refine ⟨fun a b hab => ?_, fun a => listEq_refl ih.refl _, fun a b => listEq_symm ih.symm _ _⟩
    obtain ⟨h1, h2⟩ := listEq_items ih.alike a.val b.val hab
    exact ⟨by show t.lengthItems a.val = t.lengthItems b.val; unfold ToBer.lengthItems; rw [h1], rfl, h2 0⟩
  · intro α σ t S eq h hS
    have he : ∀ a b, S.eqv a b → S.eqv b a := fun a b hab =>
      (S.eqv_iff b a).mpr fun x => ((S.eqv_iff a b).mp hab x).symm
    refine ⟨fun a b hab => ?_, fun a => (h a a).mpr ((S.eqv_iff a a).mpr fun _ => .rfl),
      fun a b hab => (h b a).mpr (he _ _ ((h a b).mp hab))⟩
    have e := hS a b ((h a b).mp hab)
    refine ⟨?_, rfl, ?_⟩ <;> simp only [setToBer, e]
  · intro α t eq cls tag dynTag hdyn _ ih
    refine ⟨fun a b hab => ?_, fun a => ih.refl _, fun a b => ih.symm _ _⟩
    have h := ih.alike _ _ hab
    refine ⟨?_, rfl, h.encode⟩
    simp only [explicitToBer, hdyn, h.1, h.2.1]
  · intro α t eq cls tag dynC hdyn _ ih
    refine ⟨fun a b hab => ?_, fun a => ih.refl _, fun a b => ih.symm _ _⟩
    have h := ih.alike _ _ hab
    refine ⟨h.1, ?_, h.2.2⟩
    simp only [implicitToBer, hdyn, h.2.1]
  · intro α t eq _ ih
    exact ⟨fun a b hab => ih.alike _ _ hab, fun a => ih.refl _, fun a b => ih.symm _ _⟩
  · intro Ts es eq tag _ ih
    exact ⟨fun a b hab => ⟨(ih.1 a b hab).1 _, rfl, (ih.1 a b hab).2 0⟩, ih.2.1, ih.2.2⟩
  · intro Ts es eq k _ ih
    exact ⟨fun a b hab => ih.1 a b hab k, ih.2.1, ih.2.2⟩
  · exact ⟨fun _ _ _ => ⟨fun _ => rfl, fun _ => rfl⟩, fun _ => rfl, fun _ _ _ => rfl⟩
  · intro T Ts t es eq eqs tag _ _ ih iht
    refine ⟨?_, fun a => by simp [ih.refl, iht.2.1], fun a b hab => ?_⟩
    · rintro ⟨a, as⟩ ⟨b, bs⟩ hab
      simp only [Bool.and_eq_true] at hab
      have h1 := ih.alike _ _ hab.1
      have h2 := iht.1 _ _ hab.2
      refine ⟨fun acc => ?_, fun n => ?_⟩
      · simp only [EncFields.len, h1.total, h1.1, h2.1]
      · have : tag.write t a = tag.write t b := by
          unfold FieldTag.write
          cases tag with
          | untagged => exact h1.encode
          | explicit cls n =>
            simp only [ToBer.encodeTaggedExplicit, ToBer.writeHeader, h1.total, h1.1, h1.2.1, h1.2.2]
          | implicit cls n =>
            simp only [ToBer.encodeTaggedImplicit, h1.1, h1.2.1, h1.2.2]
        simp only [EncFields.write, this, h2.2]
    · simp only [Bool.and_eq_true] at hab ⊢
      exact ⟨ih.symm _ _ hab.1, iht.2.2 _ _ hab.2⟩
  · intro eq
    exact ⟨fun a => (nomatch a), fun a => (nomatch a), fun a => (nomatch a)⟩
  · intro T Ts t es eq eqs n dyn hdyn _ _ ih iht
    refine ⟨?_, ?_, ?_⟩
    · rintro (a | a) (b | b) hab k
      · have h := ih.alike _ _ hab
        refine ⟨?_, ?_, ?_⟩
        · cases k <;> simp only [EncVariants.len, h.total, h.1]
        · cases k <;> simp only [EncVariants.info, hdyn, h.2.1]
        · cases k <;> simp only [EncVariants.write, h.encode, h.2.2]
      · cases hab
      · cases hab
      · exact iht.1 _ _ hab k
    · rintro (a | a)
      · exact ih.refl a
      · exact iht.2.1 a
    · rintro (a | a) (b | b) hab
      · exact ih.symm _ _ hab
      · cases hab
      · cases hab
      · exact iht.2.2 _ _ hab

/-- **C125** Equal values are encoded as the same bytes, announce the same length, and fail alike; every value
is equal to itself, and equality is symmetric. For every type nested in any way. -/
theorem C125_encoded_alike {t : ToBer α} {eq : α → α → Bool} (h : Comparable t eq) :
    (∀ a b, eq a b = true → t.toVec a = t.toVec b ∧ t.totalLen a = t.totalLen b) ∧
    (∀ a, eq a a = true) ∧ ∀ a b, eq a b = true → eq b a = true := by
  have g := comparable_good h
  refine ⟨fun a b hab => ⟨?_, (g.alike a b hab).total⟩, g.refl, g.symm⟩
  unfold ToBer.toVec
  rw [(g.alike a b hab).encode]

/-- **C125** `Integer`: values read by `parse_der` are equal exactly if they are the same number; of values read
by `parse_ber`, equal ones are the same number. -/
theorem C125_integer_partial (i j r s : Input) (a b : Integer) :
    (integerDer.parseDer i = .ok (r, a) → integerDer.parseDer j = .ok (s, b) →
      (a = b ↔ a.asBigint = b.asBigint)) ∧
    (a = b → a.asBigint = b.asBigint) := by
  refine ⟨fun ha hb => ⟨fun h => h ▸ rfl, fun h => ?_⟩, fun h => h ▸ rfl⟩
  have key : ∀ {i r : Input} {a : Integer}, integerDer.parseDer i = .ok (r, a) → MinimalInt a.data := by
    intro i r a ha
    obtain ⟨x, y, h1, _, h3⟩ := parseDer_ok.mp ha
    obtain ⟨_, h4, h5⟩ := bind_eq_ok.mp
      (show (checkDerIntInput x.data >>= fun _ => integerContent x.header x.data) = _ from h3)
    have hc : x.header.constructed = false := by
      obtain ⟨_, h6, _⟩ := bind_eq_ok.mp h5
      exact assertPrimitive_ok.mp h6
    obtain ⟨d⟩ := a
    have := (integerContent_ok ((consistent_der h1).2 hc)).mp h5
    rw [this.2.1]
    exact checkDerIntInput_ok.mp h4
  obtain ⟨d⟩ := a
  obtain ⟨e⟩ := b
  rw [(C95_bigint d).1, (C95_bigint e).1] at h
  exact congrArg Integer.mk (minimal_unique (key ha) (key hb) h)

/-- **C125** `Boolean`: values read by `parse_der` are equal exactly if they are the same truth value. -/
theorem C125_boolean_partial (i j r s : Input) (a b : UInt8) (ha : booleanDer.parseDer i = .ok (r, a))
    (hb : booleanDer.parseDer j = .ok (s, b)) : a = b ↔ booleanBool a = booleanBool b := by
  have key : ∀ {i r : Input} {a : UInt8}, booleanDer.parseDer i = .ok (r, a) → a = 0 ∨ a = 0xff := by
    intro i r a ha
    obtain ⟨x, y, h1, _, h3⟩ := parseDer_ok.mp ha
    exact (booleanDerContent_ok.mp h3).2
  rcases key ha with rfl | rfl <;> rcases key hb with rfl | rfl <;> decide

/-- **C125** `Oid`: values read from contents as X.690 prescribes them are equal exactly if they are the same arcs. -/
theorem C125_oid_partial (i j r s : Input) (a b : Oid) (arcs arcs' : List Nat)
    (ha : oidP.parseBer i = .ok (r, a) ∨ oidP.parseDer i = .ok (r, a))
    (hb : oidP.parseBer j = .ok (s, b) ∨ oidP.parseDer j = .ok (s, b))
    (xa : X690Oid a.asn1 arcs) (xb : X690Oid b.asn1 arcs') : a = b ↔ arcs = arcs' := by
  have key : ∀ {i r : Input} {a : Oid}, oidP.parseBer i = .ok (r, a) ∨ oidP.parseDer i = .ok (r, a) →
      a.relative = false := by
    rintro i r a (h | h)
    · obtain ⟨x, y, h1, _, h3⟩ := parseBer_ok.mp h
      rw [(oidContent_ok.mp h3).2.2.1]
    · obtain ⟨x, y, h1, _, h3⟩ := parseDer_ok.mp h
      rw [(oidContent_ok.mp h3).2.2.1]
  obtain ⟨bs, rel⟩ := a
  obtain ⟨cs, rel'⟩ := b
  obtain rfl : rel = false := key ha
  obtain rfl : rel' = false := key hb
  obtain ⟨n, ns, x, y, h1, ⟨h2, h3, h4⟩, rfl⟩ := xa
  obtain ⟨n', ns', x', y', g1, ⟨g2, g3, g4⟩, rfl⟩ := xb
  constructor
  · intro h
    injection h with h
    subst h
    have e := subIds_inj h1 g1
    injection e with e1 e2
    have : x = x' ∧ y = y' := by omega
    rw [this.1, this.2, e2]
  · intro h
    injection h with e1 h
    injection h with e2 e3
    subst e1; subst e2; subst e3
    rw [show n' = n by omega] at g1
    exact congrArg (Oid.mk · false) (subIds_unique h1 g1)

/-- **C125** `Any`: objects read by the generic parsers are equal exactly if they have the same identifier octets,
the same content, and the content stands at the same place of the input. -/
theorem C125_any_partial (i j r s : Input) (a b : Any)
    (ha : parseBerAny i = .ok (r, a) ∨ parseDerAny i = .ok (r, a))
    (hb : parseBerAny j = .ok (s, b) ∨ parseDerAny j = .ok (s, b)) :
    Any.eq a b = true ↔ a.header.rawTag = b.header.rawTag ∧ a.data.data = b.data.data ∧
      a.data.start = b.data.start := by
  have key : ∀ {i r : Input} {a : Any}, parseBerAny i = .ok (r, a) ∨ parseDerAny i = .ok (r, a) →
      a.data.stop = a.data.start + a.data.data.length ∧
      ∃ id, Ident a.header.cls a.header.constructed a.header.tag id ∧ a.header.rawTag = some id := by
    rintro i r a (h | h)
    · obtain ⟨_, _, _, _, _, _, h1, _⟩ := C04_exact_split_ber_partial i r a h
      obtain ⟨r1, h2, _⟩ := parseBerAny_ok.mp h
      obtain ⟨id, _, h3, _, _, _, h4, _⟩ := parseHeader_ok.mp h2
      exact ⟨h1, id, h3, h4⟩
    · obtain ⟨_, _, _, _, h1, _⟩ := C04_exact_split_der i r a h
      obtain ⟨r1, _, h2, _⟩ := parseDerAny_ok.mp h
      obtain ⟨id, _, h3, _, _, _, h4, _⟩ := parseHeader_ok.mp h2
      exact ⟨h1, id, h3, h4⟩
  obtain ⟨a1, id, a2, a3⟩ := key ha
  obtain ⟨b1, id', b2, b3⟩ := key hb
  unfold Any.eq
  simp only [Bool.and_eq_true, decide_eq_true_eq]
  rw [headerEq_iff]
  constructor
  · rintro ⟨⟨_, _, _, h4⟩, h5⟩
    refine ⟨?_, by rw [h5], by rw [h5]⟩
    rw [a3, b3, h4 id id' a3 b3]
  · rintro ⟨h1, h2, h3⟩
    rw [a3, b3] at h1
    injection h1 with h1
    subst h1
    obtain ⟨e1, e2, e3⟩ := ident_determines a2 b2
    refine ⟨⟨e1, e3, e2, fun x y hx hy => ?_⟩, ?_⟩
    · rw [a3] at hx; rw [b3] at hy
      exact (Option.some.inj hx).symm.trans (Option.some.inj hy)
    · rcases ea : a.data with ⟨d, st, sp⟩
      rcases eb : b.data with ⟨d', st', sp'⟩
      rw [ea] at h2 h3 a1
      rw [eb] at h2 h3 b1
      simp only at h2 h3 a1 b1
      subst h2; subst h3
      rw [a1, b1]

/-! ### REAL -/

theorem round_nonzero {s t : Bool} {n : Nat} {e f : Int} (h0 : n ≠ 0) (he : 0 ≤ e) :
    F64.round s n e ≠ .fin t 0 f := by
  intro h
  have hv := F64.round_valid s n e
  rw [h] at hv
  have hf : f = 0 := by
    rcases hv with hv | hv
    · exact hv.2
    · omega
  subst hf
  have := (F64.round_nearest (n' := 1) (e' := 0) (c := 0) h (.inr ⟨rfl, by decide, by decide⟩) he
    (by omega) (by omega)).2.1
  have hp : 1 ≤ 2 ^ (e - 0).toNat := Nat.one_le_two_pow
  have : 1 ≤ n * 2 ^ (e - 0).toNat := Nat.le_trans (by omega) (Nat.mul_le_mul (Nat.pos_of_ne_zero h0) hp)
  generalize n * 2 ^ (e - 0).toNat = X at *
  simp at *
  omega

/-- The only zero among the mantissas that are read is the positive one, and none is a NaN. -/
theorem mantissa_plain (p : Int) {F : Nat} (hF : F < 4) :
    (F64.ofInt p).mul (F64.pow2 F) ≠ .nan ∧
    ∀ s e, (F64.ofInt p).mul (F64.pow2 F) = .fin s 0 e → s = false ∧ e = 0 := by
  have hp2 : F64.pow2 F = .fin false 1 F := by
    rw [F64.pow2, if_neg (by omega), if_neg (by omega)]
  rw [hp2, F64.ofInt]
  by_cases h0 : p.natAbs = 0
  · have : p = 0 := by omega
    subst this
    rw [show (0 : Int).natAbs = 0 from rfl, F64.round_zero, F64.mul, Nat.zero_mul, F64.round_zero]
    refine ⟨fun h => (nomatch h), fun s e h => ?_⟩
    injection h with h1 _ h2
    exact ⟨h1.symm, h2.symm⟩
  · rcases h : F64.round (decide (p < 0)) p.natAbs 0 with _ | ⟨s⟩ | ⟨s, m, x⟩
    · exact absurd h (F64.round_ne_nan _ _ _)
    · exact ⟨fun h => (nomatch h), fun _ _ h => (nomatch h)⟩
    · have hs : s = decide (p < 0) := by
        have hv := F64.round_valid (decide (p < 0)) p.natAbs 0
        rw [h] at hv
        have hx : -1074 ≤ x := by
          rcases hv with hv | hv <;> omega
        exact (F64.round_nearest (n' := 0) (e' := 0) (c := -1074) h (.inl ⟨rfl, rfl⟩) (by omega) hx (by omega)).1
      have hb : (s != false) = s := by cases s <;> rfl
      rw [F64.mul, hb, Nat.mul_one, hs, F64.round_scale h h0 (.inr ⟨by omega, by omega⟩)]
      exact ⟨F64.round_ne_nan _ _ _, fun s e h => absurd h (round_nonzero h0 (by omega))⟩

theorem realNew_plain {f : F64} {m : F64} {b e c} (hv : F64Valid f) (h : Real.new f = some (.binary m b e c)) :
    m ≠ .nan ∧ ∀ s e, m = .fin s 0 e → s = false ∧ e = 0 := by
  rcases f with _ | s | ⟨s, n, e⟩
  · cases h
  · cases s <;> cases h
  · by_cases h0 : n = 0
    · subst h0; cases h
    · obtain ⟨m', f', x, h1, _, h2, h3, _⟩ := C74_real_new hv h0
      rw [h] at h1
      injection h1 with h1
      injection h1 with h1
      subst h1
      refine ⟨fun h => (nomatch h), fun s e h => ?_⟩
      injection h with _ h4
      subst h4
      exact absurd (by simp) h3

theorem real_plain {lib : FloatLib} (hlib : LibValid lib) {cs : Bytes} {m : F64} {b e c}
    (h : RealContent lib cs (.binary m b e c)) : m ≠ .nan ∧ ∀ s e, m = .fin s 0 e → s = false ∧ e = 0 := by
  generalize hr : Real.binary m b e c = r at h
  cases h with
  | zero | infinity | negInfinity | nan => cases hr
  | binary h hb hl he hp =>
    injection hr with h1
    subst h1
    obtain ⟨_, _, _, _, hF, _⟩ := h
    exact mantissa_plain _ hF
  | nr1 h1 h2 hs hd hv hr' =>
    subst hr
    exact realNew_plain (F64.ofInt_valid _) hr'
  | nr23 h1 h2 hu hf hr' =>
    subst hr
    exact realNew_plain (hlib _ _ hf) hr'

/-- **C125** `Real`: two values that were read are equal exactly if they have the same form: the same special
value, or the same mantissa, base, exponent and base of the encoding. (Thus each is equal to itself, and no two
equal ones are encoded differently.) -/
theorem C125_real_partial {lib : FloatLib} (hlib : LibValid lib) (i j r s : Input) (a b : Real)
    (ha : (realP lib).parseBer i = .ok (r, a) ∨ (realP lib).parseDer i = .ok (r, a))
    (hb : (realP lib).parseBer j = .ok (s, b) ∨ (realP lib).parseDer j = .ok (s, b)) :
    Real.eq a b = true ↔ a = b := by
  have key : ∀ {i r : Input} {a : Real}, (realP lib).parseBer i = .ok (r, a) ∨ (realP lib).parseDer i = .ok (r, a) →
      ∃ cs, RealContent lib cs a := by
    rintro i r a (h | h)
    · obtain ⟨x, _, _, _, h⟩ := (C72_real_accepts lib i r [] [] a).1.mp h
      exact ⟨_, h⟩
    · obtain ⟨x, _, _, _, h⟩ := (C72_real_accepts lib i r [] [] a).2.1.mp h
      exact ⟨_, h⟩
  obtain ⟨cs, ha⟩ := key ha
  obtain ⟨ds, hb⟩ := key hb
  cases a <;> cases b <;> simp only [Real.eq, reduceCtorEq] <;> try decide
  obtain ⟨a1, a2⟩ := real_plain hlib ha
  obtain ⟨b1, b2⟩ := real_plain hlib hb
  simp only [Bool.and_eq_true, decide_eq_true_eq, Real.binary.injEq]
  have : ∀ {m m' : F64}, (m ≠ .nan ∧ ∀ s e, m = .fin s 0 e → s = false ∧ e = 0) →
      (m' ≠ .nan ∧ ∀ s e, m' = .fin s 0 e → s = false ∧ e = 0) → (m.eq m' = true ↔ m = m') := by
    rintro (_ | _ | ⟨s, n, e⟩) (_ | _ | ⟨s', n', e'⟩) ⟨g1, g2⟩ ⟨g3, g4⟩ <;> simp [F64.eq] at *
    constructor
    · rintro (⟨rfl, rfl⟩ | ⟨⟨rfl, rfl⟩, rfl⟩)
      · have := g2 rfl
        have := g4 rfl
        simp [*]
      · simp
    · rintro ⟨rfl, rfl, rfl⟩
      simp
  rw [this ⟨a1, a2⟩ ⟨b1, b2⟩]
  simp only [and_assoc]

/-! ### Cases -/

/-- A struct of an INTEGER and a SEQUENCE OF of objects of any type, `[0] EXPLICIT`. -/
example : Comparable (structToBer 16 (.cons .untagged integerToBer
      (.cons (.explicit .contextSpecific 0) (listToBer 16 anyToBer) .nil)))
    (fun a b => decide (a.1 = b.1) && (listEq Any.eq a.2.1 b.2.1 && true)) :=
  .struct 16 (.cons _ (.plain (eq := fun a b => decide (a = b)) _ fun _ _ => decide_eq_true_iff) (.cons _ (.list 16 .any) .nil))

/-- The same object, read and built, is equal and encoded alike, though the two values are not the same. -/
example : ∃ r a, parseBerAny (.fromSlice [4, 0x81, 1, 7]) = .ok (r, a) ∧
    Any.eq a ⟨Header.new .universal false 4 (.definite 1), a.data⟩ = true ∧
    a ≠ ⟨Header.new .universal false 4 (.definite 1), a.data⟩ ∧ anyToBer.toVec a = .ok [4, 1, 7] :=
  ⟨_, _, rfl, by decide +kernel, by decide +kernel, by decide +kernel⟩

/-- Cases of `C125_integer_partial`, `C125_boolean_partial` and `C125_oid_partial`: the same value in two inputs. -/
example : integerDer.parseDer (.fromSlice [2, 1, 5]) = .ok (⟨[], 3, 3⟩, ⟨[5]⟩) ∧
    integerDer.parseDer (.fromSlice [2, 0x81, 1, 5, 9]) = .ok (⟨[9], 4, 5⟩, ⟨[5]⟩) ∧
    booleanDer.parseDer (.fromSlice [1, 1, 0xff]) = .ok (⟨[], 3, 3⟩, 0xff) ∧
    oidP.parseDer (.fromSlice [6, 2, 0x2a, 3]) = .ok (⟨[], 4, 4⟩, ⟨[0x2a, 3], false⟩) := by
  refine ⟨?_, ?_, ?_, ?_⟩ <;> decide +kernel

/-- A case of `C125_any_partial`: the two lengths of one object do not matter if the content is at the same place. -/
example : (match parseBerAny ⟨[4, 1, 7], 1, 4⟩, parseBerAny (.fromSlice [4, 0x81, 1, 7]) with
    | .ok (_, a), .ok (_, b) => Any.eq a b
    | _, _ => false) = true := by decide +kernel

/-- A case of `C125_real_partial`. -/
example : (realP noLib).parseDer (.fromSlice [9, 3, 0x80, 0, 3]) = .ok (⟨[], 5, 5⟩, .binary (.fin false 3 0) 2 0 2) := by
  decide +kernel

/-- **C125** Deviations: values that stand for the same thing and are not equal.

* `Integer` from BER: 5 in one byte and in two.
* `Boolean` from BER: true as `01` and as `ff`.
* `Oid`: a sub-identifier with a leading `80`, accepted even in DER.
* `Any`: the same object at two places of one input.
* `Real`: 2 as `1 * 2^1` and as `2 * 2^0`; mantissa 1 with the exponent 3, to the base 2 and to the base 8.
* `Real`: the two zeros (`Zero`, and a binary content with the number 0).
* `UtcTime`: 12:00 UTC and 13:00 at the offset +0100. -/
theorem C125_deviations :
    ((integerBer.parseBer (.fromSlice [2, 2, 0, 5])).map (·.2) = .ok ⟨[0, 5]⟩ ∧
      (integerBer.parseBer (.fromSlice [2, 1, 5])).map (·.2) = .ok ⟨[5]⟩ ∧
      Integer.asBigint ⟨[0, 5]⟩ = Integer.asBigint ⟨[5]⟩ ∧ (⟨[0, 5]⟩ : Integer) ≠ ⟨[5]⟩) ∧
    ((booleanBer.parseBer (.fromSlice [1, 1, 1])).map (·.2) = .ok 1 ∧
      (booleanBer.parseBer (.fromSlice [1, 1, 0xff])).map (·.2) = .ok 0xff ∧
      booleanBool 1 = booleanBool 0xff ∧ (1 : UInt8) ≠ 0xff) ∧
    ((oidP.parseDer (.fromSlice [6, 3, 0x2a, 0x80, 1])).map (·.2) = .ok ⟨[0x2a, 0x80, 1], false⟩ ∧
      (oidP.parseDer (.fromSlice [6, 2, 0x2a, 1])).map (·.2) = .ok ⟨[0x2a, 1], false⟩ ∧
      Oid.iter ⟨[0x2a, 0x80, 1], false⟩ = some [1, 2, 1] ∧ Oid.iter ⟨[0x2a, 1], false⟩ = some [1, 2, 1]) ∧
    (∃ r s a b, parseDerAny (.fromSlice [5, 0, 5, 0]) = .ok (r, a) ∧ parseDerAny r = .ok (s, b) ∧
      Any.eq a b = false) ∧
    ((realP noLib).parseDer (.fromSlice [9, 3, 0x80, 1, 1])).map (·.2) = .ok (.binary (.fin false 1 0) 2 1 2) ∧
    ((realP noLib).parseDer (.fromSlice [9, 3, 0x80, 0, 2])).map (·.2) = .ok (.binary (.fin false 1 1) 2 0 2) ∧
    Real.eq (.binary (.fin false 1 0) 2 1 2) (.binary (.fin false 1 1) 2 0 2) = false ∧
    ((realP noLib).parseDer (.fromSlice [9, 3, 0x80, 3, 1])).map (·.2) = .ok (.binary (.fin false 1 0) 2 3 2) ∧
    ((realP noLib).parseDer (.fromSlice [9, 3, 0x90, 1, 1])).map (·.2) = .ok (.binary (.fin false 1 0) 2 3 8) ∧
    Real.eq (.binary (.fin false 1 0) 2 3 2) (.binary (.fin false 1 0) 2 3 8) = false ∧
    ((realP noLib).parseDer (.fromSlice [9, 0])).map (·.2) = .ok .zero ∧
    ((realP noLib).parseDer (.fromSlice [9, 3, 0x80, 0, 0])).map (·.2) = .ok (.binary (.fin false 0 0) 2 0 2) ∧
    Real.eq .zero (.binary (.fin false 0 0) 2 0 2) = false ∧
    (utcDer.parseDer (.fromSlice ([0x17, 13] ++ ascii "021213120000Z"))).map (·.2) =
      .ok ⟨2, 12, 13, 12, 0, 0, none, .z⟩ ∧
    (utcDer.parseDer (.fromSlice ([0x17, 17] ++ ascii "021213130000+0100"))).map (·.2) =
      .ok ⟨2, 12, 13, 13, 0, 0, none, .offset 1 0⟩ := by
  refine ⟨⟨?_, ?_, ?_, ?_⟩, ⟨?_, ?_, ?_, ?_⟩, ⟨?_, ?_, ?_, ?_⟩,
    ⟨⟨[5, 0], 2, 4⟩, ⟨[], 4, 4⟩, _, _, rfl, rfl, ?_⟩, ?_, ?_, ?_, ?_, ?_, ?_, ?_, ?_, ?_, ?_, ?_⟩ <;>
    decide +kernel

/-- A case of `C125_encoded_alike`: a set, iterated over in the order of its members. -/
example : Comparable (setToBer btreeNat (uintToBer 4)) (fun a b => decide (a = b)) :=
  .set _ btreeNat (fun _ _ => decide_eq_true_iff) fun _ _ h => congrArg _ h

/-- **C125** Deviation: equal `HashSet`s are encoded as different bytes, in DER too. -/
theorem C125_set_deviation :
    hashSet.eqv (hashSet.ofList [1, 2]) (hashSet.ofList [2, 1]) ∧
    (setToBer hashSet (uintToBer 4)).toVec (hashSet.ofList [1, 2]) = .ok [0x31, 6, 2, 1, 1, 2, 1, 2] ∧
    (setToBer hashSet (uintToBer 4)).toVec (hashSet.ofList [2, 1]) = .ok [0x31, 6, 2, 1, 2, 2, 1, 1] := by
  refine ⟨fun x => ?_, by decide +kernel, by decide +kernel⟩
  rw [show (hashSet.ofList [1, 2]).val = [1, 2] from rfl, show (hashSet.ofList [2, 1]).val = [2, 1] from rfl]
  simp only [List.mem_cons]
  exact ⟨fun h => by rcases h with h | h | h <;> simp_all, fun h => by rcases h with h | h | h <;> simp_all⟩

/-- A case of the hypothesis of `C125_oid_partial`: 1.2.3. -/
example : X690Oid [0x2a, 3] [1, 2, 3] :=
  ⟨42, [3], 1, 2, ⟨[[0x2a], [3]], .cons ⟨⟨[], 0x2a, rfl, by simp, by decide⟩, by decide, by simp⟩
    (.cons ⟨⟨[], 3, rfl, by simp, by decide⟩, by decide, by simp⟩ .nil), rfl⟩, ⟨by decide, by decide, by decide⟩, rfl⟩

end Asn1

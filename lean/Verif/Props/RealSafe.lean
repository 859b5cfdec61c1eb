import Verif.Props.RealRound
/-!
# REAL: panics (C61), `Real::new` and decimal values (C74)
-/
namespace Asn1
open Spec Wr

variable (lib : FloatLib)

/-! ### Where a decoder panics -/

theorem bind_eq_error {ε β γ : Type} {x : Except ε β} {f : β → Except ε γ} {e : ε} :
    (x >>= f) = .error e ↔ x = .error e ∨ ∃ a, x = .ok a ∧ f a = .error e := by
  cases x <;> simp [Bind.bind, Except.bind]

/-- A decoder panics (or does not end) exactly where the decoder of its content does, for an object that
the generic parser accepts. -/
theorem parseBer_stops {p : Parser α} {i : Input} {e : PErr} (he : e = .panic ∨ e = .diverge) :
    p.parseBer i = .error e ↔ ∃ r a, parseBerAny i = .ok (r, a) ∧ p.acceptTag a.header.tag = true ∧
      p.content a.header a.data = .error e := by
  have hn : ∀ (β : Type) (j : Input) (k : InnerError), (nomErr j k : Except PErr β) ≠ .error e := by
    intro β j k h; rcases he with rfl | rfl <;> simp [nomErr] at h
  have h1 : parseHeader i ≠ .error e := by
    rcases he with rfl | rfl
    · exact good_parseHeader.noPanic i
    · exact good_parseHeader.noDiverge i
  have h2 : ∀ h j, berContent h j MAX_RECURSION ≠ .error e := by
    intro h j
    rcases he with rfl | rfl
    · exact (good_berContent h MAX_RECURSION).noPanic j
    · exact (good_berContent h MAX_RECURSION).noDiverge j
  unfold Parser.parseBer
  rw [bind_eq_error, or_iff_right h1]
  constructor
  · rintro ⟨⟨i1, hd⟩, h3, h⟩
    simp only at h
    split at h
    · exact absurd h (hn _ _ _)
    · rename_i hacc
      obtain ⟨⟨i2, data⟩, h4, h⟩ := (bind_eq_error.mp h).resolve_left (h2 _ _)
      simp only at h
      rcases bind_eq_error.mp h with h | ⟨x, _, h⟩
      · exact ⟨i2, ⟨hd, data⟩, parseBerAny_ok.mpr ⟨i1, h3, h4⟩, by simpa using hacc, h⟩
      · simp at h
  · rintro ⟨r, a, h3, h4, h5⟩
    obtain ⟨i1, h6, h7⟩ := parseBerAny_ok.mp h3
    refine ⟨_, h6, ?_⟩
    simp only
    rw [if_neg (by simp [h4]), h7, Asn1.bind_ok]
    simp only
    rw [h5]; rfl

theorem parseDer_stops {p : Parser α} {i : Input} {e : PErr} (he : e = .panic ∨ e = .diverge) :
    p.parseDer i = .error e ↔ ∃ r a, parseDerAny i = .ok (r, a) ∧ p.acceptTag a.header.tag = true ∧
      p.content a.header a.data = .error e := by
  have hne : ∀ j f, e ≠ .error j f := by rcases he with rfl | rfl <;> simp
  have hn : ∀ (β : Type) (j : Input) (k : InnerError), (nomErr j k : Except PErr β) ≠ .error e := by
    intro β j k h; rcases he with rfl | rfl <;> simp [nomErr] at h
  have h1 : parseHeaderDer i ≠ .error e := by
    rcases he with rfl | rfl
    · exact good_parseHeaderDer.noPanic i
    · exact good_parseHeaderDer.noDiverge i
  have h2 : ∀ n j, takeS n j ≠ .error e := by
    intro n j; rcases he with rfl | rfl <;> exact takeS_not (by simp)
  unfold Parser.parseDer
  rw [bind_eq_error, or_iff_right h1]
  constructor
  · rintro ⟨⟨i1, hd⟩, h3, h⟩
    simp only at h
    obtain ⟨n, h4, h⟩ := (bind_eq_error.mp h).resolve_left (definiteInner_not hne)
    split at h
    · exact absurd h (hn _ _ _)
    · rename_i hacc
      obtain ⟨⟨i2, data⟩, h5, h⟩ := (bind_eq_error.mp h).resolve_left (h2 _ _)
      simp only at h
      rcases bind_eq_error.mp h with h | ⟨x, _, h⟩
      · have hl : hd.length = .definite n := by
          unfold definiteInner nomErr at h4
          split at h4
          · rename_i m hm; simp at h4; rw [hm, h4]
          · simp at h4
        rw [takeS_eq] at h5
        split at h5
        case isFalse => simp at h5
        rename_i h6
        injection h5 with h5
        injection h5 with h7 h8
        exact ⟨i2, ⟨hd, data⟩, parseDerAny_ok.mpr ⟨i1, n, (parseHeaderDer_ok.mp h3).1, hl, h6, h7.symm, h8.symm⟩,
          by simpa using hacc, h⟩
      · simp at h
  · rintro ⟨r, a, h3, h4, h5⟩
    obtain ⟨i1, n, h6, h7, h8, h9, h10⟩ := parseDerAny_ok.mp h3
    refine ⟨(i1, a.header), parseHeaderDer_ok.mpr ⟨h6, by rw [h7]; rfl⟩, ?_⟩
    simp only
    have hdi : definiteInner a.header.length i = .ok n := by rw [h7]; rfl
    rw [hdi, Asn1.bind_ok, if_neg (by simp [h4]), takeS_eq, if_pos h8, Asn1.bind_ok]
    simp only
    rw [← h10, h5]; rfl

/-- The names of the same events for the two kinds of errors. -/
def SameStop (e : PErr) (e' : SErr) : Prop :=
  (e = .panic ∧ e' = .panic) ∨ (e = .diverge ∧ e' = .diverge)

theorem tryFromAny_stops {p : Parser α} {a : Any} {e : PErr} {e' : SErr} (he : SameStop e e') :
    tryFromAny p a = .error e' ↔ p.acceptTag a.header.tag = true ∧
      p.content a.header a.data = .error e := by
  unfold tryFromAny
  cases hacc : p.acceptTag a.header.tag with
  | false => rcases he with ⟨rfl, rfl⟩ | ⟨rfl, rfl⟩ <;> simp
  | true =>
    simp only [Bool.not_true, Bool.false_eq_true, if_false, true_and]
    cases hc : p.content a.header a.data with
    | ok x => simp
    | error k => rcases he with ⟨rfl, rfl⟩ | ⟨rfl, rfl⟩ <;> cases k <;> simp [SErr.fromNomBerr]

theorem wrap_ok {f : Input → PRes α} {bytes : Bytes} {x : Bytes × α} :
    wrapBerParser f bytes = .ok x ↔ ∃ r, f (Input.fromSlice bytes) = .ok (r, x.2) ∧ r.data = x.1 := by
  obtain ⟨x1, x2⟩ := x
  unfold wrapBerParser
  cases f (Input.fromSlice bytes) with
  | error e => simp
  | ok y =>
    obtain ⟨r, v⟩ := y
    simp only [Except.ok.injEq, Prod.mk.injEq]
    constructor
    · rintro ⟨h1, h2⟩; exact ⟨r, ⟨rfl, h2⟩, h1⟩
    · rintro ⟨r', ⟨rfl, h2⟩, h1⟩; exact ⟨h1, h2⟩

theorem fromBer_stops {p : Parser α} {bytes : Bytes} {e : PErr} {e' : SErr} (he : SameStop e e') :
    fromBer p bytes = .error e' ↔ ∃ r a, parseBerAny (Input.fromSlice bytes) = .ok (r, a) ∧
      p.acceptTag a.header.tag = true ∧ p.content a.header a.data = .error e := by
  have h := safe_wrap (fun i => ⟨good_parseBerAny.noPanic i, good_parseBerAny.noDiverge i⟩) bytes
  have h1 : wrapBerParser parseBerAny bytes ≠ .error e' := by
    rcases he with ⟨_, rfl⟩ | ⟨_, rfl⟩
    · exact h.1
    · exact h.2
  unfold fromBer
  rw [bind_eq_error, or_iff_right h1]
  constructor
  · rintro ⟨⟨rem, a⟩, h2, h3⟩
    obtain ⟨r, h4, _⟩ := wrap_ok.mp h2
    simp only at h3
    rcases bind_eq_error.mp h3 with h3 | ⟨_, _, h3⟩
    · exact ⟨r, a, h4, (tryFromAny_stops he).mp h3⟩
    · simp [pure, Except.pure] at h3
  · rintro ⟨r, a, h2, h3⟩
    refine ⟨(r.data, a), wrap_ok.mpr ⟨r, h2, rfl⟩, ?_⟩
    simp only
    rw [(tryFromAny_stops he).mpr h3]; rfl

theorem fromDer_stops {p : Parser α} {check : Any → Except SErr Unit} {bytes : Bytes} {e : PErr}
    {e' : SErr} (he : SameStop e e') (hck : ∀ a, check a ≠ .error e') :
    fromDer p check bytes = .error e' ↔ ∃ r a, parseDerAny (Input.fromSlice bytes) = .ok (r, a) ∧
      check a = .ok () ∧ p.acceptTag a.header.tag = true ∧ p.content a.header a.data = .error e := by
  have h := safe_wrap (fun i => ⟨good_parseDerAny.noPanic i, good_parseDerAny.noDiverge i⟩) bytes
  have h1 : wrapBerParser parseDerAny bytes ≠ .error e' := by
    rcases he with ⟨_, rfl⟩ | ⟨_, rfl⟩
    · exact h.1
    · exact h.2
  unfold fromDer
  rw [bind_eq_error, or_iff_right h1]
  constructor
  · rintro ⟨⟨rem, a⟩, h2, h3⟩
    obtain ⟨r, h4, _⟩ := wrap_ok.mp h2
    simp only at h3
    obtain ⟨u, h5, h3⟩ := (bind_eq_error.mp h3).resolve_left (hck a)
    rcases bind_eq_error.mp h3 with h3 | ⟨_, _, h3⟩
    · exact ⟨r, a, h4, h5, (tryFromAny_stops he).mp h3⟩
    · simp [pure, Except.pure] at h3
  · rintro ⟨r, a, h2, h4, h3⟩
    refine ⟨(r.data, a), wrap_ok.mpr ⟨r, h2, rfl⟩, ?_⟩
    simp only
    rw [h4, Asn1.bind_ok, (tryFromAny_stops he).mpr h3]; rfl

/-! ### Panics of REAL -/

theorem realNew_some {f : F64} (h : F64Valid f) : ∃ r, Real.new f = some r := by
  cases f with
  | nan => exact ⟨_, rfl⟩
  | inf s => exact ⟨_, rfl⟩
  | fin s n e =>
    rcases h with ⟨rfl, rfl⟩ | ⟨h1, h2, h3, h4⟩
    · exact ⟨_, rfl⟩
    · obtain ⟨m, f, x, h5, _⟩ := realNew_ok (s := s) h1 h2 h3 h4
      exact ⟨_, h5⟩

theorem realBase_stops {tag : Nat} {f : UInt8} {e : Int} {input : Input} (hi : InInt 4 e) :
    realBase tag f e input = .error .panic ↔ ∃ k, BaseLog ((f >>> 4) &&& 3).toNat k ∧
      ¬ InInt 4 (e * k) := by
  have key : ∀ (k eb : Nat), ((mulI32 e k).map (eb, ·) : Except PErr (Nat × Int)) = .error .panic ↔
      ¬ InInt 4 (e * k) := by
    intro k eb
    rw [inInt4]
    unfold mulI32
    split
    · rename_i h; simp [Except.map]; omega
    · rename_i h; simp [Except.map]; omega
  unfold realBase
  have h0 : (f >>> 4) &&& 3 = 0 ↔ ((f >>> 4) &&& 3).toNat = 0 := byte_lit (n := 0) (by decide)
  have h1 : (f >>> 4) &&& 3 = 1 ↔ ((f >>> 4) &&& 3).toNat = 1 := byte_lit (n := 1) (by decide)
  have h2 : (f >>> 4) &&& 3 = 2 ↔ ((f >>> 4) &&& 3).toNat = 2 := byte_lit (n := 2) (by decide)
  generalize (f >>> 4) &&& 3 = c at *
  generalize c.toNat = b at *
  by_cases hc0 : c = 0
  · have hb := h0.mp hc0
    have hB : ∀ k, BaseLog b k ↔ k = 1 := by intro k; unfold BaseLog; omega
    rw [if_pos hc0]
    simp only [hB, reduceCtorEq, false_iff]
    rintro ⟨k, rfl, h⟩
    rw [Int.ofNat_one, Int.mul_one] at h
    exact h hi
  · rw [if_neg hc0]
    by_cases hc1 : c = 1
    · have hb := h1.mp hc1
      have hB : ∀ k, BaseLog b k ↔ k = 3 := by intro k; unfold BaseLog; omega
      rw [if_pos hc1]
      simp only [hB]
      rw [show (mulI32 e 3) = mulI32 e ((3 : Nat) : Int) from rfl, key]
      simp
    · rw [if_neg hc1]
      by_cases hc2 : c = 2
      · have hb := h2.mp hc2
        have hB : ∀ k, BaseLog b k ↔ k = 4 := by intro k; unfold BaseLog; omega
        rw [if_pos hc2]
        simp only [hB]
        rw [show (mulI32 e 4) = mulI32 e ((4 : Nat) : Int) from rfl, key]
        simp
      · rw [if_neg hc2]
        simp only [nomErr, Except.error.injEq, reduceCtorEq, false_iff]
        rintro ⟨k, h | h | h, _⟩
        · exact hc0 (h0.mpr h.1)
        · exact hc1 (h1.mpr h.1)
        · exact hc2 (h2.mpr h.1)

theorem realBase_ends {tag : Nat} {f : UInt8} {e : Int} {input : Input} :
    realBase tag f e input ≠ .error .diverge := by
  unfold realBase mulI32 nomErr
  repeat' split
  all_goals simp [Except.map]

theorem realMantissa_stops {tag : Nat} {f : UInt8} {rem : Bytes} {input : Input} :
    (realMantissa tag f rem input = .error .panic ↔ rem.length ≤ 8 ∧ (f &&& 0x40 ≠ 0) ∧
      beNat rem = 2 ^ 63) ∧ realMantissa tag f rem input ≠ .error .diverge := by
  unfold realMantissa
  by_cases hl : rem.length > 8
  · rw [if_pos hl]; simp [nomErr]; omega
  · rw [if_neg hl]
    have hn : beNat rem < 2 ^ 64 :=
      Nat.lt_of_lt_of_le (beNat_lt rem) (by have := pow256_le (show rem.length ≤ 8 by omega); omega)
    rw [mantissa_fold (by omega)]
    simp only
    by_cases hf : f &&& 0x40 ≠ 0
    · simp only [if_pos hf]
      split
      · rename_i hm
        have := (signed64_min hn).mp hm
        simp only [true_iff, ne_eq, Except.error.injEq, reduceCtorEq, not_false_eq_true, and_true]
        exact ⟨by omega, hf, this⟩
      · rename_i hm
        have : ¬ beNat rem = 2 ^ 63 := fun h => hm ((signed64_min hn).mpr h)
        simp only [reduceCtorEq, false_iff, ne_eq, not_false_eq_true, and_true]
        rintro ⟨_, _, h⟩; exact this h
    · simp only [if_neg hf, reduceCtorEq, false_iff, ne_eq, not_false_eq_true, and_true]
      rintro ⟨_, h, _⟩; exact hf h

theorem decodeRealBinary_stops {tag : Nat} {f : UInt8} {rem : Bytes} {input : Input}
    (hf : 128 ≤ f.toNat) :
    (decodeRealBinary tag f rem input = .error .panic ↔ PanicContent (f :: rem)) ∧
      decodeRealBinary tag f rem input ≠ .error .diverge := by
  obtain ⟨hff, hb4, hF4, hl4⟩ := first_fields f hf
  unfold decodeRealBinary
  rw [realExpLen.eq_def, if_neg (and3_ne4 f), Asn1.bind_ok]
  simp only
  by_cases hlen : (f &&& 3).toNat + 1 ≥ rem.length
  · rw [if_pos hlen]
    refine ⟨?_, by simp [nomErr]⟩
    simp only [nomErr, Except.error.injEq, reduceCtorEq, false_iff]
    rintro ⟨neg, b, F, exp, mant, k, ⟨f', hc, hfv, hb, hF, he1, he4, hm⟩, _⟩
    injection hc with hc1 hc2
    subst hc1
    have hml0 : 0 < mant.length := List.length_pos_iff.mpr hm
    have hn : (f &&& 3).toNat + 1 = exp.length := by
      cases neg <;> simp only [Bool.false_eq_true, if_false, if_true] at hfv <;> split at hff <;> omega
    rw [hn, hc2, List.length_append] at hlen
    omega
  · rw [if_neg hlen]
    have hel : (rem.take ((f &&& 3).toNat + 1)).length = (f &&& 3).toNat + 1 := by
      rw [List.length_take]; omega
    obtain ⟨h1, h2⟩ := realExponent_eq (tag := tag) (input := input)
      (eo := rem.take ((f &&& 3).toNat + 1)) (by omega) (by omega)
    rw [h1, Asn1.bind_ok]
    constructor
    · rw [bind_eq_error, realBase_stops h2]
      constructor
      · intro h
        have hfields : BinaryFields (f :: rem) (decide (f &&& 0x40 ≠ 0)) ((f >>> 4) &&& 3).toNat
            ((f >>> 2) &&& 3).toNat (rem.take ((f &&& 3).toNat + 1)) (rem.drop ((f &&& 3).toNat + 1)) := by
          refine ⟨f, by rw [List.take_append_drop], ?_, hb4, hF4, by omega, by omega, ?_⟩
          · rw [hel]
            simp only [decide_eq_true_eq]
            omega
          · intro hc
            have := congrArg List.length hc
            rw [List.length_drop, List.length_nil] at this
            omega
        rcases h with ⟨k, h3, h4⟩ | ⟨⟨eb, e'⟩, h3, h⟩
        · exact ⟨_, _, _, _, _, k, hfields, h3, Or.inl h4⟩
        · obtain ⟨k, h5, _⟩ := realBase_ok.mp h3
          simp only at h
          rcases bind_eq_error.mp h with h | ⟨_, _, h⟩
          · obtain ⟨h6, h7, h8⟩ := realMantissa_stops.1.mp h
            exact ⟨_, _, _, _, _, k, hfields, h5, Or.inr ⟨by simpa using h7, h6, h8⟩⟩
          · simp [pure, Except.pure] at h
      · rintro ⟨neg, b, F, exp, mant, k, ⟨f', hc, hfv, hb, hF, he1, he4, hm⟩, hbk, h⟩
        injection hc with hc1 hc2
        subst hc1
        have hn : (f &&& 3).toNat + 1 = exp.length := by
          cases neg <;> simp only [Bool.false_eq_true, if_false, if_true] at hfv <;> split at hff <;> omega
        have hbe : ((f >>> 4) &&& 3).toNat = b := by
          cases neg <;> simp only [Bool.false_eq_true, if_false, if_true] at hfv <;> split at hff <;> omega
        have hng : (f &&& 0x40 ≠ 0) ↔ neg = true := by
          cases neg <;> simp only [Bool.false_eq_true, if_false, if_true] at hfv <;> split at hff <;>
            rename_i hx <;> simp [hx] <;> omega
        rw [hn, hc2, List.take_left' rfl, List.drop_left' rfl, hbe]
        by_cases hin : InInt 4 (twos exp * k)
        · obtain ⟨h3, h4, h5⟩ := h.resolve_left (fun hx => hx hin)
          right
          refine ⟨(2 ^ k, twos exp * k), realBase_ok.mpr ⟨k, hbe ▸ hbk, rfl, rfl, Or.inr ?_⟩, ?_⟩
          · have := (inInt4 _).mp hin; omega
          · simp only
            rw [realMantissa_stops.1.mpr ⟨h4, hng.mpr h3, h5⟩]; rfl
        · exact Or.inl ⟨k, hbk, hin⟩
    · intro h
      obtain ⟨_, _, h⟩ := (bind_eq_error.mp h).resolve_left realBase_ends
      obtain ⟨_, _, h⟩ := (bind_eq_error.mp h).resolve_left realMantissa_stops.2
      simp [pure, Except.pure] at h

theorem decodeReal_stops (hlib : LibValid lib) {h : Header} {input : Input} :
    (decodeReal lib h input = .error .panic ↔ PanicContent input.data) ∧
      decodeReal lib h input ≠ .error .diverge := by
  unfold decodeReal
  cases hd : input.data with
  | nil =>
    refine ⟨?_, by simp⟩
    simp only [reduceCtorEq, false_iff]
    rintro ⟨_, _, _, _, _, _, ⟨_, hc, _⟩, _⟩
    simp at hc
  | cons f rem =>
    simp only
    have hand : (f &&& 0x80 ≠ 0) ↔ 128 ≤ f.toNat := by
      have := and80_ne f
      rw [← bne_iff_ne, this, decide_eq_true_eq]
    by_cases h80 : f &&& 0x80 ≠ 0
    · rw [if_pos h80]
      exact decodeRealBinary_stops (hand.mp h80)
    · rw [if_neg h80]
      have hno : ¬ PanicContent (f :: rem) := by
        rintro ⟨_, _, _, _, _, _, ⟨f', hc, hv, _⟩, _⟩
        injection hc with hc _
        subst hc
        exact h80 (hand.mpr (by omega))
      have hof : ∀ g, F64Valid g → ∃ r, realOfF64 g = .ok r := by
        intro g hg
        obtain ⟨r, hr⟩ := realNew_some hg
        exact ⟨r, by unfold realOfF64; rw [hr]⟩
      simp only [hno, iff_false]
      split
      · unfold decodeRealSpecial nomErr
        repeat' split
        all_goals simp
      · unfold decodeRealDecimal nomErr
        split
        · simp
        · split
          · split
            · simp
            · obtain ⟨r, hr⟩ := hof _ (F64.ofInt_valid _)
              rw [hr]; simp
          · split
            · split
              · simp
              · rename_i g hg
                obtain ⟨r, hr⟩ := hof _ (hlib _ _ hg)
                rw [hr]; simp
            · simp

theorem realP_stops (hlib : LibValid lib) {h : Header} {i : Input} :
    ((realP lib).content h i = .error .panic ↔ h.constructed = false ∧ PanicContent i.data) ∧
      (realP lib).content h i ≠ .error .diverge := by
  have h1 := decodeReal_stops lib hlib (h := h) (input := i)
  show (((h.assertPrimitive i >>= fun _ => _) : PRes Real) = _ ↔ _) ∧
    ((h.assertPrimitive i >>= fun _ => _) : PRes Real) ≠ _
  constructor
  · rw [bind_eq_error, or_iff_right (safe_assertPrimitive h i).1]
    constructor
    · rintro ⟨u, h2, h3⟩
      refine ⟨assertPrimitive_ok.mp h2, ?_⟩
      rcases bind_eq_error.mp h3 with h3 | ⟨_, _, h3⟩
      · exact h1.1.mp h3
      · rw [atEnd_eq, Asn1.bind_ok] at h3; simp [pure, Except.pure] at h3
    · rintro ⟨h2, h3⟩
      refine ⟨(), (assertPrimitive_ok (u := ())).mpr h2, ?_⟩
      rw [h1.1.mpr h3]; rfl
  · intro h2
    obtain ⟨_, _, h2⟩ := (bind_eq_error.mp h2).resolve_left (safe_assertPrimitive h i).2
    obtain ⟨_, _, h2⟩ := (bind_eq_error.mp h2).resolve_left h1.2
    rw [atEnd_eq, Asn1.bind_ok] at h2; simp [pure, Except.pure] at h2

/-- **C61** (partial) The decoders of REAL never loop, and they panic exactly on the primitive objects of
tag 9 with a `PanicContent`: so it is not true that no input makes them panic. Assumed: the numbers that
Rust's parser returns are in the format of `f64`. -/
theorem C61_real_panics_partial (hlib : LibValid lib) (i : Input) (bytes : Bytes) :
    ((realP lib).parseBer i = .error .panic ↔ ∃ r a, parseBerAny i = .ok (r, a) ∧ a.header.tag = 9 ∧
      a.header.constructed = false ∧ PanicContent a.data.data) ∧
    (realP lib).parseBer i ≠ .error .diverge ∧
    ((realP lib).parseDer i = .error .panic ↔ ∃ r a, parseDerAny i = .ok (r, a) ∧ a.header.tag = 9 ∧
      a.header.constructed = false ∧ PanicContent a.data.data) ∧
    (realP lib).parseDer i ≠ .error .diverge ∧
    (fromBer (realP lib) bytes = .error .panic ↔ ∃ r a, parseBerAny (Input.fromSlice bytes) = .ok (r, a) ∧
      a.header.tag = 9 ∧ a.header.constructed = false ∧ PanicContent a.data.data) ∧
    fromBer (realP lib) bytes ≠ .error .diverge ∧
    (fromDer (realP lib) realCheck bytes = .error .panic ↔
      ∃ r a, parseDerAny (Input.fromSlice bytes) = .ok (r, a) ∧
      a.header.tag = 9 ∧ a.header.constructed = false ∧ PanicContent a.data.data) ∧
    fromDer (realP lib) realCheck bytes ≠ .error .diverge := by
  have hacc : ∀ t, (realP lib).acceptTag t = true ↔ t = 9 := fun _ => tagIs_iff
  have hs := fun h i => realP_stops lib hlib (h := h) (i := i)
  have hck : ∀ (e : SErr), (∀ x, e ≠ .error x) → ∀ a, realCheck a ≠ .error e := by
    intro e he a h
    unfold realCheck assertPrimitiveS assertDefiniteS at h
    rcases bind_eq_error.mp h with h | ⟨_, _, h⟩
    · split at h
      · injection h with h; exact he _ h.symm
      · simp at h
    · split at h
      · simp at h
      · injection h with h; exact he _ h.symm
  refine ⟨?_, ?_, ?_, ?_, ?_, ?_, ?_, ?_⟩
  · rw [parseBer_stops (Or.inl rfl)]; simp only [hacc, (hs _ _).1]
  · intro h
    obtain ⟨r, a, _, _, h⟩ := (parseBer_stops (Or.inr rfl)).mp h
    exact (hs _ _).2 h
  · rw [parseDer_stops (Or.inl rfl)]; simp only [hacc, (hs _ _).1]
  · intro h
    obtain ⟨r, a, _, _, h⟩ := (parseDer_stops (Or.inr rfl)).mp h
    exact (hs _ _).2 h
  · rw [fromBer_stops (Or.inl ⟨rfl, rfl⟩)]; simp only [hacc, (hs _ _).1]
  · intro h
    obtain ⟨r, a, _, _, h⟩ := (fromBer_stops (Or.inr ⟨rfl, rfl⟩)).mp h
    exact (hs _ _).2 h
  · rw [fromDer_stops (Or.inl ⟨rfl, rfl⟩) (hck _ (by simp))]
    simp only [hacc, (hs _ _).1]
    constructor
    · rintro ⟨r, a, h1, _, h2⟩; exact ⟨r, a, h1, h2⟩
    · rintro ⟨r, a, h1, h2, h3, h4⟩
      obtain ⟨_, n, _, hl, _⟩ := parseDerAny_ok.mp h1
      exact ⟨r, a, h1, (realCheck_ok a hl).mpr h3, h2, h3, h4⟩
  · intro h
    obtain ⟨r, a, _, _, _, h⟩ := (fromDer_stops (Or.inr ⟨rfl, rfl⟩) (hck _ (by simp))).mp h
    exact (hs _ _).2 h

/-- Two objects on which the decoder panics: `2^31 - 1` times 3 overflows; `-2^63`. -/
example : LibValid noLib ∧
    (realP noLib).parseDer (Input.fromSlice [9, 6, 0x93, 0x7f, 0xff, 0xff, 0xff, 1]) = .error .panic ∧
    fromDer (realP noLib) realCheck [9, 10, 0xc0, 1, 0x80, 0, 0, 0, 0, 0, 0, 0] = .error .panic :=
  ⟨fun _ _ h => by simp [noLib] at h, by decide +kernel, by decide +kernel⟩

/-- **C61** Deviation: encoding a REAL of base 2 whose mantissa is zero, NaN, or not more than
`f64::EPSILON` panics. (The encoding bases 8 and 16 scale the mantissa first.) -/
theorem C61_real_encode_panics (m : F64) (e : Int) (b : Nat) (h8 : b ≠ 8) (h16 : b ≠ 16)
    (hg : m.gtEpsilon = false) :
    ((realToBer lib).writeContent (.binary m 2 e b)).exec = ([], .error .panic) := by
  have hab : m.abs.gtEpsilon = false := by
    cases m <;> simp only [F64.abs, F64.gtEpsilon] at hg ⊢ <;> exact hg
  have hu : m.abs.toU64 = 0 := by
    cases m with
    | nan => rfl
    | inf s => simp [F64.gtEpsilon] at hg
    | fin s n x =>
      simp only [F64.abs, F64.toU64, F64.gtEpsilon] at hg ⊢
      have h52 : (2 : Nat) ^ 52 = 4503599627370496 := by decide
      split at hg
      · rename_i hx
        have hg : n * 2 ^ (x + 52).toNat ≤ 1 := by simpa using hg
        by_cases hn : n = 0
        · subst hn; simp
        · have hp := Nat.two_pow_pos (x + 52).toNat
          have h1 : (x + 52).toNat = 0 := by
            cases hk : (x + 52).toNat with
            | zero => rfl
            | succ k =>
              rw [hk, Nat.pow_succ] at hg
              have := Nat.two_pow_pos k
              have : 1 * 2 ≤ n * (2 ^ k * 2) := Nat.mul_le_mul (by omega) (by omega)
              omega
          rw [h1] at hg
          have hx52 : (-x).toNat = 52 := by omega
          rw [if_neg (by simp), if_neg (by omega), if_neg (by omega), hx52, h52]
          have : n / 4503599627370496 = 0 := by omega
          rw [this]; simp
      · rename_i hx
        have hg : n ≤ 2 ^ (-(x + 52)).toNat := by simpa using hg
        rw [if_neg (by simp), if_neg (by omega), if_neg (by omega)]
        have hk : (-x).toNat = (-(x + 52)).toNat + 52 := by omega
        have : n / 2 ^ (-x).toNat = 0 := by
          refine Nat.div_eq_of_lt ?_
          rw [hk, Nat.pow_add, h52]
          have := Nat.two_pow_pos (-(x + 52)).toNat
          omega
        rw [this]; simp
  have hp : realBinaryPieces m b e = .error .panic := by
    unfold realBinaryPieces dropFloatingPoint dropScale
    rw [if_neg h8, if_neg h16, Asn1.bind_ok]
    simp only
    have hd : ∀ fuel, dropLoop b fuel m.abs e = .ok (m.abs, e) := by
      intro fuel; cases fuel <;> simp [dropLoop, hab]
    rw [hd, Asn1.bind_ok]
    simp only
    rw [show (pure (!m.isSignPositive, m.abs.toU64, e) : Except SerErr _) =
      .ok (!m.isSignPositive, m.abs.toU64, e) from rfl, Asn1.bind_ok]
    simp only
    rw [if_pos hu]
  show (realWrite lib (.binary m 2 e b)).exec = _
  rw [realWrite, if_neg (by decide), if_neg (by decide), hp]
  rfl

/-- A case: `81`-contents with the number zero are accepted, and cannot be written again. -/
example : (realP noLib).parseBer (Input.fromSlice [9, 3, 0x80, 0, 0]) =
      .ok (⟨[], 5, 5⟩, .binary (.fin false 0 0) 2 0 2) ∧
    (realToBer noLib).toVec (.binary (.fin false 0 0) 2 0 2) = .error .panic := by decide +kernel

/-! ### `Real::new` and decimal values -/

/-- **C74** `Real::new` ends on every number of the format. On a finite number other than zero the result
has base 10, the same sign, and a mantissa that is an integer and not a multiple of ten; it is exact when
the number is an integer. -/
theorem C74_real_new {s : Bool} {n : Nat} {e : Int} (hv : F64Valid (.fin s n e)) (h0 : n ≠ 0) :
    ∃ m f x, Real.new (.fin s n e) = some (.binary (.fin s m f) 10 x 10) ∧ F64Valid (.fin s m f) ∧
      0 ≤ f ∧ m * 2 ^ f.toNat % 10 ≠ 0 ∧
      (0 ≤ e → 0 ≤ x ∧ n * 2 ^ e.toNat = m * 2 ^ f.toNat * 10 ^ x.toNat) := by
  rcases hv with ⟨rfl, _⟩ | ⟨h1, h2, h3, h4⟩
  · exact absurd rfl h0
  · obtain ⟨m, f, x, h5, h6, h7, h8, h9, h10, h11⟩ := realNew_ok (s := s) h1 h2 h3 h4
    exact ⟨m, f, x, h5, Or.inr ⟨h6, h7, by omega, h9⟩, h8, h10, h11⟩

/-- Cases: 5000, and 0.1 (a number with an inexact mantissa, whose loop ends). -/
example : Real.new (.fin false 625 3) = some (.binary (.fin false 5 0) 10 3 10) ∧
    F64Valid (.fin false 3602879701896397 (-55)) ∧
    Real.new (.fin false 3602879701896397 (-55)) = some (.binary (.fin false 1 0) 10 (-1) 10) :=
  ⟨by decide +kernel, Or.inr ⟨by decide, by decide, by decide, by decide +kernel⟩, by decide +kernel⟩

/-- **C74** What is written for a REAL of base 10: the octet 03 (NR3), the mantissa as Rust formats it, the
letter E, a sign (plus for the exponent zero, none for positive ones), and the digits of the exponent. -/
theorem C74_decimal_form (m : F64) (e : Int) (b : Nat) :
    ∃ ds, Digits e.natAbs ds ∧
      ((realToBer lib).writeContent (.binary m 10 e b)).exec.1 =
        3 :: (lib.display m ++ 0x45 :: ((if e < 0 then [0x2d] else if e = 0 then [0x2b] else []) ++ ds)) := by
  refine ⟨_, decimal_digits _, ?_⟩
  have h := (realWrite_decimal lib m e b).content
  rw [show ((realToBer lib).writeContent (.binary m 10 e b)).exec = _ from h]
  unfold realDecimalText showI32
  by_cases h1 : e < 0
  · rw [if_neg (by omega), if_pos h1, if_pos h1]; simp
  · by_cases h2 : e = 0
    · rw [if_pos h2, if_neg h1, if_neg h1]; simp
    · rw [if_neg h2, if_neg h1, if_neg h1]; simp

/-- A case: 5000, with a library that formats the mantissa `5`. -/
example : ((realToBer ⟨fun _ => none, fun _ => [0x35], fun _ _ => .nan⟩).writeContent
    (.binary (.fin false 5 0) 10 3 10)).exec.1 = [3, 0x35, 0x45, 0x33] := by decide +kernel

/-- **C74** (partial) A REAL made from a number with `Real::new` decodes to itself through the four APIs,
if Rust's parser of numbers reads the text that the crate writes (whose formatting is also Rust's) back as
that number, and the text is less than `2^64 - 1` bytes long. Missing: that hypothesis, which is about the
standard library. -/
theorem C74_real_roundtrip_partial {s : Bool} {n : Nat} {e : Int} (hv : F64Valid (.fin s n e))
    (h0 : n ≠ 0) (hr : ReadsBack lib (.fin s n e))
    (hl : ∀ m x, (realDecimalText lib m x).length < 2 ^ 64) :
    ∃ v, Real.new (.fin s n e) = some v ∧ RealBack lib v v := by
  obtain ⟨m, f, x, h1, _⟩ := C74_real_new hv h0
  obtain ⟨text, h2, h3, h4⟩ := hr _ _ h1
  have he := realWrite_decimal lib (.fin s m f) x 10
  have hc : RealContent lib (3 :: text) (.binary (.fin s m f) 10 x 10) := by
    obtain ⟨t, ht⟩ := fromUtf8_ascii text h3
    exact .nr23 (by decide) (Or.inr rfl) ⟨t, fromUtf8_iff.mp ht⟩ h4 h1
  refine ⟨_, h1, real_back lib he (hl _ _) ?_⟩
  rw [h2]; exact hc

/-- A case: 5000, written `5E3`, with a library that writes and reads that. -/
example : F64Valid (.fin false 625 3) ∧
    ReadsBack ⟨fun _ => some (.fin false 625 3), fun _ => [0x35], fun _ _ => .nan⟩ (.fin false 625 3) := by
  refine ⟨Or.inr ⟨by decide, by decide, by decide, by decide +kernel⟩, fun m x h => ?_⟩
  have h1 : Real.new (.fin false 625 3) = some (.binary (.fin false 5 0) 10 3 10) := by decide +kernel
  rw [h1] at h
  injection h with h
  injection h with h2 _ h3 _
  subst h2 h3
  exact ⟨[0x35, 0x45, 0x33], by decide +kernel, by decide +kernel, rfl⟩

/-- **C74** The decimal contents NR1: the value of the digits. -/
theorem C74_nr1_value {first : UInt8} {d : Bytes} {v : Nat} (h1 : first.toNat = 1) (hd : DigitsOf d v)
    (h0 : v ≠ 0) (hv : v < 2 ^ 32) {i r : Input} {a : Any} (ha : parseBerAny i = .ok (r, a))
    (ht : a.header.tag = 9) (hp : a.header.constructed = false) (hc : a.data.data = first :: d) :
    ∃ m f x, (realP lib).parseBer i = .ok (r, .binary (.fin false m f) 10 x 10) ∧ 0 ≤ f ∧ 0 ≤ x ∧
      v = m * 2 ^ f.toNat * 10 ^ x.toNat := by
  have e53 : (2 : Nat) ^ 53 = 9007199254740992 := by decide
  have h53 : v < 2 ^ 53 := by omega
  obtain ⟨m, k, h2, h3, h4⟩ := mantissa_exact (neg := false) (F := 0) h0 h53 (by decide)
  have hs : signed64 v = v := by unfold signed64; rw [if_pos (by omega)]
  have hval := F64.ofInt_valid (v : Int)
  have hi : F64.ofInt v = .fin false m k := by
    obtain ⟨n, e, h5⟩ := F64.ofInt_fin (p := (v : Int)) (by omega)
    rw [h5] at hval
    have h6 := F64.mul_pow2_zero hval
    simp only [Bool.false_eq_true, if_false, hs] at h2
    rw [h5] at h2 ⊢
    rw [show F64.pow2 ((0 : Nat) : Int) = F64.pow2 0 from rfl, h6] at h2
    simpa using h2
  rw [hi] at hval
  obtain ⟨m', f, x, h7, _, h8, _, h9⟩ := C74_real_new hval (by omega)
  obtain ⟨h10, h11⟩ := h9 (by omega)
  refine ⟨m', f, x, (C72_real_accepts lib i r [] [] _).1.mpr ⟨a, ha, ht, hp, ?_⟩, h8, h10, ?_⟩
  · rw [hc]
    exact .nr1 (by omega) (by omega) (Or.inl rfl) hd hv (hi ▸ h7)
  · rw [← h11, h3]; simp

example : DigitsOf [0x31, 0x35] 15 := by unfold DigitsOf; decide +kernel

end Asn1

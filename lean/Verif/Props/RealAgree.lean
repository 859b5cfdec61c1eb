import Verif.Props.RealSafe
import Verif.Props.CharStringsAgree
/-!
# REAL: agreement of the decoders, lengths, failing writers, `f64` (C11, C18, C38, C50, C52, C64, C65, C75)
-/
namespace Asn1
open Spec

variable (lib : FloatLib)

theorem sim_eq {α : Type} {x : Except PErr α} : Sim Eq x x := fun a h => ⟨a, h, rfl⟩

theorem sim_match_option {α : Type} {o : Option α} {i j : Input} {e e' : InnerError}
    {f : α → Except PErr Real} :
    Sim Eq (match o with | none => nomErr i e | some v => f v)
      (match o with | none => nomErr j e' | some v => f v) := by
  cases o
  · exact sim_nomErr
  · exact sim_eq

theorem sim_decodeRealBinary {tag : Nat} {f : UInt8} {rem : Bytes} {i j : Input} :
    Sim Eq (decodeRealBinary tag f rem i) (decodeRealBinary tag f rem j) := by
  unfold decodeRealBinary
  refine sim_bind (R := Eq) ?_ ?_
  · unfold realExpLen
    refine sim_ite ?_ sim_eq
    cases rem
    · exact sim_nomErr
    · exact sim_eq
  · rintro ⟨n, rem⟩ _ rfl
    simp only
    refine sim_ite sim_nomErr ?_
    refine sim_bind (R := Eq) ?_ ?_
    · unfold realExponent
      split
      · exact sim_err
      · exact sim_ite sim_nomErr sim_eq
    · rintro e _ rfl
      refine sim_bind (R := Eq) ?_ ?_
      · unfold realBase
        exact sim_ite sim_eq (sim_ite sim_eq (sim_ite sim_eq sim_nomErr))
      · rintro ⟨eb, e⟩ _ rfl
        refine sim_bind (R := Eq) ?_ ?_
        · unfold realMantissa
          exact sim_ite sim_nomErr sim_eq
        · rintro p _ rfl
          exact sim_eq

theorem sim_decodeReal {h h' : Header} {i j : Input} (hh : SameHdr h h') (hd : i.data = j.data) :
    Sim Eq (decodeReal lib h i) (decodeReal lib h' j) := by
  have ht : h.tag = h'.tag := hh.2.2.1
  have hl : h.length = h'.length := hh.2.2.2.1
  unfold decodeReal
  rw [hd, ht]
  cases j.data with
  | nil => exact sim_eq
  | cons f rem =>
    refine sim_ite sim_decodeRealBinary (sim_ite ?_ ?_)
    · unfold decodeRealSpecial
      simp only [ht, hl]
      exact sim_ite sim_nomErr (sim_ite sim_eq (sim_ite sim_eq (sim_ite sim_eq sim_nomErr)))
    · unfold decodeRealDecimal
      split
      · exact sim_nomErr
      · refine sim_ite ?_ (sim_ite ?_ sim_nomErr)
        · split
          · exact sim_nomErr
          · exact sim_eq
        · split
          · exact sim_nomErr
          · exact sim_eq

theorem strong_real : (realP lib).Strong := by
  intro h h' i j hh hd
  refine sim_bind (sim_assertPrimitive hh) fun _ _ _ => ?_
  refine sim_bind (sim_decodeReal lib hh hd) ?_
  rintro r _ rfl
  refine sim_bind sim_atEnd fun a b hab => ?_
  exact sim_ok ⟨hab, rfl⟩

/-- What the decoders of `f64` accept, from what those of `Real` accept. -/
theorem f64_parse {i r : Input} {v : F64} :
    ((f64P lib).parseBer i = .ok (r, v) ↔ ∃ x, (realP lib).parseBer i = .ok (r, x) ∧ v = x.f64 lib) ∧
    ((f64P lib).parseDer i = .ok (r, v) ↔ ∃ x, (realP lib).parseDer i = .ok (r, x) ∧ v = x.f64 lib) := by
  constructor
  · rw [parseBer_ok]
    constructor
    · rintro ⟨a, h1, h2, h3⟩
      obtain ⟨rem', h4⟩ := h3
      obtain ⟨x, h5, h6⟩ := map_content.mp h4
      exact ⟨x, parseBer_ok.mpr ⟨a, h1, h2, rem', h5⟩, h6⟩
    · rintro ⟨x, h1, h2⟩
      obtain ⟨a, h3, h4, rem', h5⟩ := parseBer_ok.mp h1
      exact ⟨a, h3, h4, rem', map_content.mpr ⟨x, h5, h2⟩⟩
  · rw [parseDer_ok]
    constructor
    · rintro ⟨a, h1, h2, h3⟩
      obtain ⟨rem', h4⟩ := h3
      obtain ⟨x, h5, h6⟩ := map_content.mp h4
      exact ⟨x, parseDer_ok.mpr ⟨a, h1, h2, rem', h5⟩, h6⟩
    · rintro ⟨x, h1, h2⟩
      obtain ⟨a, h3, h4, rem', h5⟩ := parseDer_ok.mp h1
      exact ⟨a, h3, h4, rem', map_content.mpr ⟨x, h5, h2⟩⟩

theorem f64_apis_agree (bs rem : Bytes) (v : F64) : fromDer (f64P lib) realCheck bs = .ok (rem, v) ↔
    ∃ r, (f64P lib).parseDer (Input.fromSlice bs) = .ok (r, v) ∧ r.data = rem := by
  refine der_apis_agree (pb := f64P lib) (pd := f64P lib) (fun _ => Iff.rfl) (fun a v hl => ?_) _ _ _
  rw [realCheck_ok a hl]
  constructor
  · rintro ⟨h1, h2⟩; exact h2
  · rintro ⟨r, h⟩
    obtain ⟨x, h1, h2⟩ := map_content.mp h
    exact ⟨((real_contents lib _ _ _ (consistent_of hl)).mp ⟨r, h1⟩).1, r, h⟩

/-- **C38** The decoders of REAL, as `Real` and as `f64`, agree at every position. -/
theorem C38_real_same :
    SameDecoder (realP lib).parseBer (fromBer (realP lib)) ∧
    SameDecoder (realP lib).parseDer (fromDer (realP lib) realCheck) ∧
    SameDecoder (f64P lib).parseBer (fromBer (f64P lib)) ∧
    SameDecoder (f64P lib).parseDer (fromDer (f64P lib) realCheck) :=
  ⟨sameDecoder_ber (strong_real lib).loc, sameDecoder_der (strong_real lib).loc (real_apis_agree lib),
   sameDecoder_ber (strong_map (strong_real lib) _).loc,
   sameDecoder_der (strong_map (strong_real lib) _).loc (f64_apis_agree lib)⟩

/-- **C65** What the parsers of REAL return depends only on the bytes consumed. -/
theorem C65_real_only_consumed_bytes :
    OnlyBytes (realP lib).parseBer ∧ OnlyBytes (realP lib).parseDer ∧
    OnlyBytes (f64P lib).parseBer ∧ OnlyBytes (f64P lib).parseDer :=
  ⟨onlyBytes_ber (strong_real lib).loc, onlyBytes_der (strong_real lib).loc,
   onlyBytes_ber (strong_map (strong_real lib) _).loc, onlyBytes_der (strong_map (strong_real lib) _).loc⟩

/-- **C11** What DER accepts as a REAL, BER accepts with the same value and remainder. -/
theorem C11_der_subset_ber_real (i r : Input) :
    (∀ v, (realP lib).parseDer i = .ok (r, v) → (realP lib).parseBer i = .ok (r, v)) ∧
    (∀ v, (f64P lib).parseDer i = .ok (r, v) → (f64P lib).parseBer i = .ok (r, v)) := by
  have h1 : ∀ v, (realP lib).parseDer i = .ok (r, v) → (realP lib).parseBer i = .ok (r, v) := by
    intro v h
    obtain ⟨a, h1, h2⟩ := (C72_real_accepts lib i r [] [] v).2.1.mp h
    exact (C72_real_accepts lib i r [] [] v).1.mpr ⟨a, C11_der_subset_ber_any _ _ _ h1, h2⟩
  refine ⟨h1, fun v h => ?_⟩
  obtain ⟨x, h2, h3⟩ := (f64_parse lib).2.mp h
  exact (f64_parse lib).1.mpr ⟨x, h1 x h2, h3⟩

theorem real_strict (r : Real) : Wr.Strict (realWrite lib r) := by
  cases r with
  | zero => exact Wr.strict_pure _
  | infinity => exact (Wr.strict_writeAll _).bind fun _ => Wr.strict_pure _
  | negInfinity => exact (Wr.strict_writeAll _).bind fun _ => Wr.strict_pure _
  | nan => exact (Wr.strict_writeAll _).bind fun _ => Wr.strict_pure _
  | binary m base e b =>
    unfold realWrite
    simp only
    split
    · exact (Wr.strict_writeAll _).bind fun _ => Wr.strict_pure _
    · split
      · exact .fail _
      · split
        · exact .fail _
        · exact (strict_pieces _).bind fun _ => Wr.strict_pure _

/-- **C50** Encoding a REAL to a failing writer. -/
theorem C50_real_failing_writer (r : Real) (f : F64) :
    FaultTolerant (realToBer lib) r ∧ FaultTolerant (f64ToBer lib) f := by
  refine ⟨faultTolerant (real_strict lib r), faultTolerant ?_⟩
  show Wr.Strict (match Real.new f with | some r => realWrite lib r | none => Wr.fail .panic)
  cases Real.new f
  · exact .fail _
  · exact real_strict lib _

/-- **C18** When the content of a REAL can be written at all, the lengths announced for it are right. -/
theorem C18_real_lengths (r : Real) {cs : Bytes} {n : Nat}
    (h : ((realToBer lib).writeContent r).exec = (cs, .ok n)) (hl : cs.length < 2 ^ 64) :
    LengthsRight (realToBer lib) r := by
  have key : ∀ ds, Encodes (realToBer lib) r ds → LengthsRight (realToBer lib) r := by
    intro ds he
    have := he.content
    unfold Wr.Writes at this
    rw [h] at this
    simp only [Prod.mk.injEq] at this
    exact he.lengths (this.1 ▸ hl)
  cases r with
  | zero => exact key _ (realWrite_special (cs := []) (by simp))
  | infinity => exact key _ (realWrite_special (cs := [0x40]) (by simp))
  | negInfinity => exact key _ (realWrite_special (cs := [0x41]) (by simp))
  | nan => exact key _ (realWrite_special (cs := [0x42]) (by simp))
  | binary m base e b =>
    by_cases h10 : base = 10
    · subst h10; exact key _ (realWrite_decimal lib m e b)
    · by_cases h2 : base = 2
      · subst h2
        cases hp : realBinaryPieces m b e with
        | ok ps => exact key _ (realWrite_binary hp)
        | error err =>
          exfalso
          have h : (realWrite lib (.binary m 2 e b)).exec = (cs, .ok n) := h
          rw [realWrite, if_neg (by decide), if_neg (by decide), hp] at h
          simp [Wr.exec] at h
      · exfalso
        have h : (realWrite lib (.binary m base e b)).exec = (cs, .ok n) := h
        rw [realWrite, if_neg h10, if_pos h2] at h
        simp [Wr.exec] at h

/-- A case: -0.75, with an exponent in the content. -/
example : LengthsRight (realToBer noLib) (.binary (.fin true 3 (-2)) 2 0 2) :=
  C18_real_lengths noLib _ (cs := [0xc0, 0xfe, 3]) (n := 3) (by decide +kernel) (by decide)

/-- **C52** No encoding of a REAL value that is read back unchanged is a prefix of that of another. -/
theorem C52_real_prefix_free : PrefixFree (realToBer lib) RealValue :=
  prefixFree_der (p := realP lib) fun _ h => (C73_real_values lib h).2.2.1

/-- **C64** The DER constraints of REAL never answer `Incomplete`. -/
theorem C64_real_checks_settled (a : Any) : Settled (realCheck a) := by
  unfold realCheck assertPrimitiveS assertDefiniteS
  cases a.header.constructed <;> cases a.header.length <;>
    first | exact settled_ok _ | exact settled_error _

/-! ### `f64` -/

/-- A case: 5 * 2^-1. -/
example : (f64P noLib).parseDer (Input.fromSlice [9, 3, 0x80, 0xff, 5]) =
    .ok (⟨[], 5, 5⟩, .fin false 5 (-1)) := by decide +kernel

/-- **C75** Deviations: `2^-1074`, the smallest positive `f64`, is read as zero, and `0 * 2^1024` (a zero)
as NaN. -/
theorem C75_deviations :
    BinaryForm [0x81, 0xfb, 0xce, 1] false 1 0 1 (-1074) 1 ∧
    (f64P noLib).parseBer (Input.fromSlice [9, 4, 0x81, 0xfb, 0xce, 1]) =
      .ok (⟨[], 6, 6⟩, .fin false 0 0) ∧
    BinaryForm [0x81, 0x04, 0x00, 0] false 0 0 1 1024 1 ∧
    (f64P noLib).parseBer (Input.fromSlice [9, 4, 0x81, 0x04, 0x00, 0]) = .ok (⟨[], 6, 6⟩, .nan) := by
  refine ⟨⟨0, [0xfb, 0xce], [1], ⟨0x81, by decide, by decide, by decide, by decide, by decide,
      by decide, by decide⟩, Or.inl ⟨rfl, rfl⟩, by decide, by decide, by decide, by decide⟩,
    by decide +kernel, ⟨0, [4, 0], [0], ⟨0x81, by decide, by decide, by decide, by decide, by decide,
      by decide, by decide⟩, Or.inl ⟨rfl, rfl⟩, by decide, by decide, by decide, by decide⟩,
    by decide +kernel⟩

end Asn1

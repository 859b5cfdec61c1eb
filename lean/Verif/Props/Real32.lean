import Verif.Props.RealNearest
/-!
# REAL as `f32` (C96)
-/
namespace Asn1
open Spec Wr

variable (lib : FloatLib)

/-! ### Mapped parsers -/

theorem map_parseBer {p : Parser α} {f : α → β} {i r : Input} {v : β} :
    (p.map f).parseBer i = .ok (r, v) ↔ ∃ x, p.parseBer i = .ok (r, x) ∧ v = f x := by
  simp only [parseBer_ok, map_content]
  constructor
  · rintro ⟨a, e, h1, h2, x, h3, h4⟩; exact ⟨x, ⟨a, e, h1, h2, h3⟩, h4⟩
  · rintro ⟨x, ⟨a, e, h1, h2, h3⟩, h4⟩; exact ⟨a, e, h1, h2, x, h3, h4⟩

theorem map_parseDer {p : Parser α} {f : α → β} {i r : Input} {v : β} :
    (p.map f).parseDer i = .ok (r, v) ↔ ∃ x, p.parseDer i = .ok (r, x) ∧ v = f x := by
  simp only [parseDer_ok, map_content]
  constructor
  · rintro ⟨a, e, h1, h2, x, h3, h4⟩; exact ⟨x, ⟨a, e, h1, h2, h3⟩, h4⟩
  · rintro ⟨x, ⟨a, e, h1, h2, h3⟩, h4⟩; exact ⟨a, e, h1, h2, x, h3, h4⟩

theorem map_fromBer {p : Parser α} {f : α → β} {bs r : Bytes} {v : β} :
    fromBer (p.map f) bs = .ok (r, v) ↔ ∃ x, fromBer p bs = .ok (r, x) ∧ v = f x := by
  simp only [fromBer_ok, map_content]
  constructor
  · rintro ⟨i, a, e, h1, h2, h0, x, h3, h4⟩; exact ⟨x, ⟨i, a, e, h1, h2, h0, h3⟩, h4⟩
  · rintro ⟨x, ⟨i, a, e, h1, h2, h0, h3⟩, h4⟩; exact ⟨i, a, e, h1, h2, h0, x, h3, h4⟩

theorem map_fromDer {p : Parser α} {f : α → β} {check : Any → Except SErr Unit} {bs r : Bytes} {v : β} :
    fromDer (p.map f) check bs = .ok (r, v) ↔ ∃ x, fromDer p check bs = .ok (r, x) ∧ v = f x := by
  simp only [fromDer_ok, map_content]
  constructor
  · rintro ⟨i, a, e, h1, h2, h0, h5, x, h3, h4⟩; exact ⟨x, ⟨i, a, e, h1, h2, h0, h5, h3⟩, h4⟩
  · rintro ⟨x, ⟨i, a, e, h1, h2, h0, h5, h3⟩, h4⟩; exact ⟨i, a, e, h1, h2, h0, h5, x, h3, h4⟩

theorem map_content_err {p : Parser α} {f : α → β} {h : Header} {i : Input} {e : PErr} :
    (p.map f).content h i = .error e ↔ p.content h i = .error e := by
  show (match p.content h i with | .ok (rem, a) => .ok (rem, f a) | .error e => .error e : PRes β) = .error e ↔ _
  cases p.content h i with
  | ok x => simp
  | error e => simp

/-- A mapped parser panics (or does not end) where the parser does. -/
theorem map_stops {p : Parser α} {f : α → β} {check : Any → Except SErr Unit} {i : Input} {bytes : Bytes}
    {e : PErr} {e' : SErr} (he : SameStop e e') (hck : ∀ a, check a ≠ .error e') :
    ((p.map f).parseBer i = .error e ↔ p.parseBer i = .error e) ∧
    ((p.map f).parseDer i = .error e ↔ p.parseDer i = .error e) ∧
    (fromBer (p.map f) bytes = .error e' ↔ fromBer p bytes = .error e') ∧
    (fromDer (p.map f) check bytes = .error e' ↔ fromDer p check bytes = .error e') := by
  have h1 : e = .panic ∨ e = .diverge := by
    rcases he with ⟨h, _⟩ | ⟨h, _⟩
    · exact .inl h
    · exact .inr h
  refine ⟨?_, ?_, ?_, ?_⟩
  · rw [parseBer_stops h1, parseBer_stops h1]; simp only [map_content_err]; exact Iff.rfl
  · rw [parseDer_stops h1, parseDer_stops h1]; simp only [map_content_err]; exact Iff.rfl
  · rw [fromBer_stops he, fromBer_stops he]; simp only [map_content_err]; exact Iff.rfl
  · rw [fromDer_stops he hck, fromDer_stops he hck]; simp only [map_content_err]; exact Iff.rfl

/-! ### `x as f32` -/

/-- **C96** A number read as `f32` is one of `f32`, and a number of `f32` is unchanged by the cast. -/
theorem C96_cast_exact (x : F64) : F32Valid x.toF32 ∧ (F32Valid x → x.toF32 = x ∧ F64Valid x) :=
  ⟨F64.toF32_valid x, fun h => ⟨F64.toF32_exact h, F64.f32_f64 h⟩⟩

/-- A case: 0.75, and the largest number. -/
example : F32Valid (.fin false 3 (-2)) ∧ F32Valid (.fin false (2 ^ 24 - 1) 104) :=
  ⟨.inr ⟨by decide, by decide, by decide, by decide +kernel⟩,
   .inr ⟨by decide, by decide, by decide, by decide +kernel⟩⟩

/-- **C96** The cast rounds to nearest: the result has the sign of the number, and no other number of `f32` is
nearer to it. If another one is as near, the result is the one with the even last place, that is with the
larger exponent. -/
theorem C96_cast_nearest {s t s' : Bool} {n m n' : Nat} {e f e' c : Int}
    (h : F64.toF32 (.fin s n e) = .fin t m f) (hy : F32Valid (.fin s' n' e'))
    (h1 : c ≤ e) (h2 : c ≤ f) (h3 : c ≤ e') :
    t = s ∧ (units c s n e - units c t m f).natAbs ≤ (units c s n e - units c s' n' e').natAbs ∧
    ((units c s n e - units c t m f).natAbs = (units c s n e - units c s' n' e').natAbs →
      units c s' n' e' = units c t m f ∨ e' < f) := by
  have hy' : (n' = 0 ∧ e' = 0) ∨ (n' % 2 = 1 ∧ n' < 2 ^ 24 ∧ -149 ≤ e') := by
    rcases hy with h | ⟨h4, h5, h6, _⟩
    · exact .inl h
    · exact .inr ⟨h4, h5, h6⟩
  obtain ⟨rfl, h4, h5⟩ := F64.nearest_magnitude h hy' h1 h2 h3
  refine ⟨rfl, ?_⟩
  by_cases hn : n' = 0
  · have hz : ∀ s, units c s n' e' = 0 := by intro s; subst hn; unfold units; simp
    rw [hz s', ← hz t, F64.units_dist, F64.units_dist]
    refine ⟨h4, fun h6 => (h5 h6).imp (fun h7 => ?_) id⟩
    rw [h7.1, h7.2]
  · by_cases hs : s' = t
    · subst hs
      rw [F64.units_dist, F64.units_dist]
      exact ⟨h4, fun h6 => (h5 h6).imp (fun h7 => by rw [h7.1, h7.2]) id⟩
    · -- zero is nearer than any number of the other sign
      have hz : F64.toF32 (.fin t n e) = .fin t m f := h
      have h6 := (F64.nearest_magnitude (c := min c 0) hz (.inl ⟨rfl, rfl⟩) (by omega) (by omega) (by omega)).2.1
      have hsc : ∀ (k : Nat) (x : Int), c ≤ x →
          k * 2 ^ (x - min c 0).toNat = k * 2 ^ (x - c).toNat * 2 ^ (c - min c 0).toNat := by
        intro k x hx
        rw [F64.pow_split (by omega) hx, Nat.mul_assoc]
      rw [hsc _ _ h1, hsc _ _ h2, F64.dist_mul, Nat.zero_mul] at h6
      have hp : 0 < n' * 2 ^ (e' - c).toNat := Nat.mul_pos (by omega) (Nat.two_pow_pos _)
      have hw := Nat.two_pow_pos (c - min c 0).toNat
      have h7 : ((n * 2 ^ (e - c).toNat : Nat) - (m * 2 ^ (f - c).toNat : Nat) : Int).natAbs ≤
          n * 2 ^ (e - c).toNat := by
        refine Nat.le_of_mul_le_mul_right (Nat.le_trans h6 ?_) hw
        generalize n * 2 ^ (e - c).toNat * 2 ^ (c - min c 0).toNat = A
        omega
      have h8 : (units c t n e - units c s' n' e').natAbs =
          n * 2 ^ (e - c).toNat + n' * 2 ^ (e' - c).toNat := by
        unfold units
        generalize n * 2 ^ (e - c).toNat = A
        generalize n' * 2 ^ (e' - c).toNat = B
        cases t <;> cases s' <;> simp at hs ⊢ <;> omega
      rw [F64.units_dist, h8]
      exact ⟨by omega, fun h9 => by omega⟩

/-- A case: `1 + 2^-24`, a tie between 1 and `1 + 2^-23`, is rounded to 1. -/
example : F64.toF32 (.fin false (2 ^ 24 + 1) (-24)) = .fin false 1 0 ∧
    F32Valid (.fin false (2 ^ 23 + 1) (-23)) ∧
    (units (-24) false (2 ^ 24 + 1) (-24) - units (-24) false 1 0).natAbs =
      (units (-24) false (2 ^ 24 + 1) (-24) - units (-24) false (2 ^ 23 + 1) (-23)).natAbs :=
  ⟨by decide +kernel, .inr ⟨by decide, by decide, by decide, by decide +kernel⟩, by decide +kernel⟩

/-- **C96** The numbers that become infinite are those from `(2^25 - 1) * 2^103` on, halfway between the largest
number of `f32` and `2^128`; NaN and the infinities remain what they are. -/
theorem C96_cast_overflow {s t : Bool} {n : Nat} {e c : Int} (h1 : c ≤ e) (h2 : c ≤ 103) :
    (F64.toF32 (.fin s n e) = .inf t ↔
      t = s ∧ (2 ^ 25 - 1) * 2 ^ (103 - c).toNat ≤ n * 2 ^ (e - c).toNat) ∧
    F64.toF32 (.fin s n e) ≠ .nan ∧ F64.toF32 .nan = .nan ∧ F64.toF32 (.inf s) = .inf s :=
  ⟨F64.toF32_inf h1 h2, F64.toF32_ne_nan _ _ _, rfl, rfl⟩

/-- A case: `2^128` overflows, the largest number of 32 bits does not. -/
example : F64.toF32 (.fin false 1 128) = .inf false ∧ F64.toF32 (.fin false (2 ^ 24 - 1) 104) ≠ .inf false := by
  decide +kernel

/-! ### Reading -/

/-- **C96** What is read as `f32` is what is read as `f64`, cast, through the four decoders. -/
theorem C96_f32_reads (i r : Input) (bytes rem : Bytes) (v : F32) :
    ((f32P lib).parseBer i = .ok (r, v) ↔ ∃ x, (f64P lib).parseBer i = .ok (r, x) ∧ v = x.toF32) ∧
    ((f32P lib).parseDer i = .ok (r, v) ↔ ∃ x, (f64P lib).parseDer i = .ok (r, x) ∧ v = x.toF32) ∧
    (fromBer (f32P lib) bytes = .ok (rem, v) ↔
      ∃ x, fromBer (f64P lib) bytes = .ok (rem, x) ∧ v = x.toF32) ∧
    (fromDer (f32P lib) realCheck bytes = .ok (rem, v) ↔
      ∃ x, fromDer (f64P lib) realCheck bytes = .ok (rem, x) ∧ v = x.toF32) := by
  unfold f32P f64P
  simp only [map_parseBer, map_parseDer, map_fromBer, map_fromDer]
  refine ⟨?_, ?_, ?_, ?_⟩
  all_goals
    constructor
    · rintro ⟨x, h1, h2⟩; exact ⟨_, ⟨x, h1, rfl⟩, h2⟩
    · rintro ⟨_, ⟨x, h1, rfl⟩, h2⟩; exact ⟨x, h1, h2⟩

/-- **C96** (partial) A binary content with a number `N` of less than `2^63` whose value `±N * 2^F * (2^k)^E` is
a number of `f32` other than zero is read as that number, in BER and DER. Missing: larger `N`. -/
theorem C96_f32_exact_partial {i r : Input} {a : Any} {neg : Bool} {N F k len n : Nat} {E x : Int}
    (ht : a.header.tag = 9) (hp : a.header.constructed = false)
    (hf : BinaryForm a.data.data neg N F k E len) (hl : len ≤ 8) (h63 : N < 2 ^ 63)
    (h0 : n ≠ 0) (hv : F32Valid (.fin neg n x)) (hs : SameNumber n x N (F + k * E)) :
    (parseBerAny i = .ok (r, a) → (f32P lib).parseBer i = .ok (r, .fin neg n x)) ∧
    (parseDerAny i = .ok (r, a) → (f32P lib).parseDer i = .ok (r, .fin neg n x)) := by
  have hF : F < 4 := by
    obtain ⟨_, _, _, ⟨_, _, _, _, hF, _⟩, _⟩ := hf
    exact hF
  -- the power is in the range
  have hE : -1024 < k * E := by
    rcases hv with ⟨rfl, _⟩ | ⟨ho, h24, hlo, hhi⟩
    · exact absurd rfl h0
    have hx : ∃ j : Nat, x = F + k * E + j ∧ N = n * 2 ^ j := by
      unfold SameNumber at hs
      by_cases hle : F + k * E ≤ x
      · refine ⟨(x - (F + k * E)).toNat, by omega, ?_⟩
        rw [Int.min_eq_right hle] at hs
        rw [hs]; simp
      · exfalso
        rw [Int.min_eq_left (by omega)] at hs
        obtain ⟨j, hj⟩ : ∃ j, (F + k * E - x).toNat = j + 1 := ⟨(F + k * E - x).toNat - 1, by omega⟩
        rw [hj, Nat.pow_succ, ← Nat.mul_assoc] at hs
        simp at hs
        omega
    obtain ⟨j, hj, rfl⟩ := hx
    have hlog := F64.log2_mul_pow n j h0
    have hj63 : (n * 2 ^ j).log2 < 63 :=
      (Nat.log2_lt (Nat.mul_ne_zero h0 (Nat.pos_iff_ne_zero.mp (Nat.two_pow_pos j)))).mpr h63
    omega
  have h := C75_f64_exact_partial lib (i := i) (r := r) ht hp hf hl h63 h0 (F64.f32_f64 hv) hs hE
  have hc := (F64.toF32_exact hv).symm
  exact ⟨fun ha => (C96_f32_reads lib i r [] [] _).1.mpr ⟨_, h.1 ha, hc⟩,
    fun ha => (C96_f32_reads lib i r [] [] _).2.1.mpr ⟨_, h.2 ha, hc⟩⟩

/-- A case: the smallest positive `f32`, written with a number of two octets and base 16. -/
example : BinaryForm [0x81 + 32, 0xff, 0xda, 8] false 8 0 4 (-38) 1 ∧ F32Valid (.fin false 1 (-149)) ∧
    SameNumber 1 (-149) 8 (-152) ∧
    (f32P noLib).parseBer (Input.fromSlice [9, 4, 0xa1, 0xff, 0xda, 8]) =
      .ok (⟨[], 6, 6⟩, .fin false 1 (-149)) :=
  ⟨⟨2, [0xff, 0xda], [8], ⟨0xa1, by decide, by decide, by decide, by decide, by decide, by decide, by decide⟩,
    .inr (.inr ⟨rfl, rfl⟩), by decide, by decide +kernel, by decide, by decide⟩,
   .inr ⟨by decide, by decide, by decide, by decide +kernel⟩, by unfold SameNumber; decide +kernel,
   by decide +kernel⟩

/-- **C96** Deviation: a number between two of `f32` is not always read as the nearer one, because it is rounded
to an `f64` first: `1 + 2^-24 + 2^-60` is read as 1 although `1 + 2^-23` is nearer. -/
theorem C96_double_rounding :
    BinaryForm [0x80, 0xc4, 0x10, 0x00, 0x00, 0x10, 0x00, 0x00, 0x00, 0x01] false
      (2 ^ 60 + 2 ^ 36 + 1) 0 1 (-60) 8 ∧
    (f32P noLib).parseBer (Input.fromSlice [9, 10, 0x80, 0xc4, 0x10, 0x00, 0x00, 0x10, 0x00, 0x00, 0x00, 0x01]) =
      .ok (⟨[], 12, 12⟩, .fin false 1 0) ∧
    F32Valid (.fin false (2 ^ 23 + 1) (-23)) ∧
    (units (-60) false (2 ^ 60 + 2 ^ 36 + 1) (-60) - units (-60) false (2 ^ 23 + 1) (-23)).natAbs <
      (units (-60) false (2 ^ 60 + 2 ^ 36 + 1) (-60) - units (-60) false 1 0).natAbs :=
  ⟨⟨0, [0xc4], [0x10, 0x00, 0x00, 0x10, 0x00, 0x00, 0x00, 0x01], ⟨0x80, by decide, by decide, by decide,
      by decide, by decide, by decide, by decide⟩, .inl ⟨rfl, rfl⟩, by decide, by decide +kernel,
      by decide +kernel, by decide⟩,
    by decide +kernel, .inr ⟨by decide, by decide, by decide, by decide +kernel⟩, by decide +kernel⟩

/-! ### Round-trip -/

/-- The four decoders of `f32` give `g` for the encoding of `f`. -/
def F32Back (lib : FloatLib) (f g : F32) : Prop :=
  ParseBerBack (f32ToBer lib) (f32P lib) f g ∧ FromBerBack (f32ToBer lib) (f32P lib) f g ∧
  ParseDerBack (f32ToBer lib) (f32P lib) f g ∧ FromDerBack (f32ToBer lib) (f32P lib) realCheck f g

/-- **C96** Infinities, NaN and zero encode as REAL and decode to themselves (the sign of zero is lost). -/
theorem C96_f32_special_values (f : F32) (h : f = .nan ∨ (∃ s, f = .inf s) ∨ ∃ s, f = .fin s 0 0) :
    ∃ g, ((f = .nan ∧ g = .nan) ∨ (∃ s, f = .inf s ∧ g = .inf s) ∨
        (∃ s, f = .fin s 0 0 ∧ g = .fin false 0 0)) ∧ F32Back lib f g := by
  obtain ⟨g, hg, ⟨bs, h1, h2⟩, ⟨bs', h3, h4⟩, ⟨bs'', h5, h6⟩, ⟨bs''', h7, h8⟩⟩ := C53_f64_special_values lib f h
  have hc : g = g.toF32 := by
    rcases hg with ⟨_, rfl⟩ | ⟨_, _, rfl⟩ | ⟨_, _, rfl⟩
    · rfl
    · rfl
    · rfl
  refine ⟨g, hg, ⟨bs, h1, fun rest i hi => ?_⟩, ⟨bs', h3, fun rest => ?_⟩, ⟨bs'', h5, fun rest i hi => ?_⟩,
    ⟨bs''', h7, fun rest => ?_⟩⟩
  · exact (C96_f32_reads lib i _ [] [] g).1.mpr ⟨g, h2 rest i hi, hc⟩
  · exact (C96_f32_reads lib (Input.fromSlice []) (Input.fromSlice []) _ _ g).2.2.1.mpr ⟨g, h4 rest, hc⟩
  · exact (C96_f32_reads lib i _ [] [] g).2.1.mpr ⟨g, h6 rest i hi, hc⟩
  · exact (C96_f32_reads lib (Input.fromSlice []) (Input.fromSlice []) _ _ g).2.2.2.mpr ⟨g, h8 rest, hc⟩

/-- A case. -/
example (lib : FloatLib) : ∃ g, F32Back lib (.inf true) g := by
  obtain ⟨g, _, h⟩ := C96_f32_special_values lib (.inf true) (.inr (.inl ⟨true, rfl⟩))
  exact ⟨g, h⟩

/-- **C96** (partial) Every other number of `f32` decodes to itself, if Rust's parser of numbers reads the text
that the crate writes (whose formatting is also Rust's) back as that number, the text is less than `2^64 - 1`
bytes long, and the product of the decimal mantissa and power of ten, which Rust computes as `f64`, has a
relative error of at most `2^-26` (`f64` has 53 bits: the product does not have to be exact). Missing: these
hypotheses, which are about the standard library. -/
theorem C96_f32_roundtrip_partial {s : Bool} {n : Nat} {e : Int} (hv : F32Valid (.fin s n e)) (h0 : n ≠ 0)
    (hr : ReadsBack lib (.fin s n e)) (hl : ∀ m x, (realDecimalText lib m x).length < 2 ^ 64)
    (hc : ∀ v, Real.new (.fin s n e) = some v → Close (v.f64 lib) (.fin s n e)) :
    F32Back lib (.fin s n e) (.fin s n e) := by
  obtain ⟨v, hn, ⟨bs, h1, h2⟩, ⟨bs', h3, h4⟩, ⟨bs'', h5, h6⟩, ⟨bs''', h7, h8⟩⟩ :=
    C74_real_roundtrip_partial lib (F64.f32_f64 hv) h0 hr hl
  have hw : ∀ bs, (realToBer lib).toVec v = .ok bs → (f32ToBer lib).toVec (.fin s n e) = .ok bs := by
    intro bs h
    rw [← h]
    have hn' : Real.ofF32 (.fin s n e) = some v := hn
    unfold ToBer.toVec ToBer.encode ToBer.writeHeader
    simp only [f32ToBer, realToBer, hn']
  have hg : F64.fin s n e = v.f32 lib := (F64.toF32_close hv (hc v hn)).symm
  refine ⟨⟨bs, hw bs h1, fun rest i hi => ?_⟩, ⟨bs', hw _ h3, fun rest => ?_⟩,
    ⟨bs'', hw _ h5, fun rest i hi => ?_⟩, ⟨bs''', hw _ h7, fun rest => ?_⟩⟩
  · exact map_parseBer.mpr ⟨v, h2 rest i hi, hg⟩
  · exact map_fromBer.mpr ⟨v, h4 rest, hg⟩
  · exact map_parseDer.mpr ⟨v, h6 rest i hi, hg⟩
  · exact map_fromDer.mpr ⟨v, h8 rest, hg⟩

/-- A case: 5000, written `5E3`, with a library that writes and reads that, and computes `10^3` with an error of
`2^-40`: the product is not 5000, but it is close enough. -/
example : F32Valid (.fin false 625 3) ∧
    Real.new (.fin false 625 3) = some (.binary (.fin false 5 0) 10 3 10) ∧
    (F64.fin false 5 0).mul (.fin false (1000 * 2 ^ 40 + 1) (-40)) = .fin false (5000 * 2 ^ 40 + 5) (-40) ∧
    Close (.fin false (5000 * 2 ^ 40 + 5) (-40)) (.fin false 625 3) := by
  refine ⟨.inr ⟨by decide, by decide, by decide, by decide +kernel⟩, by decide +kernel, by decide +kernel,
    _, _, _, _, _, rfl, rfl, fun c h1 h2 => ?_⟩
  rw [F64.units_dist, F64.units_abs, F64.pow_split (x := 3) h1 (by decide), ← Nat.mul_assoc, F64.dist_mul,
    Nat.mul_right_comm]
  exact Nat.mul_le_mul_right _ (by decide +kernel)

/-! ### Agreement, writers, panics -/

theorem f32_apis_agree (bs rem : Bytes) (v : F32) : fromDer (f32P lib) realCheck bs = .ok (rem, v) ↔
    ∃ r, (f32P lib).parseDer (Input.fromSlice bs) = .ok (r, v) ∧ r.data = rem := by
  unfold f32P
  rw [map_fromDer]
  simp only [map_parseDer, real_apis_agree]
  constructor
  · rintro ⟨x, ⟨r, h1, h2⟩, h3⟩; exact ⟨r, ⟨x, h1, h3⟩, h2⟩
  · rintro ⟨r, ⟨x, h1, h3⟩, h2⟩; exact ⟨x, ⟨r, h1, h2⟩, h3⟩

/-- **C96** The decoders of `f32` agree at every position; what the parsers return depends only on the bytes
consumed; what DER accepts, BER accepts with the same value and remainder; a failing writer is reported. -/
theorem C96_f32_agree (i r : Input) (v f : F32) :
    SameDecoder (f32P lib).parseBer (fromBer (f32P lib)) ∧
    SameDecoder (f32P lib).parseDer (fromDer (f32P lib) realCheck) ∧
    OnlyBytes (f32P lib).parseBer ∧ OnlyBytes (f32P lib).parseDer ∧
    ((f32P lib).parseDer i = .ok (r, v) → (f32P lib).parseBer i = .ok (r, v)) ∧
    FaultTolerant (f32ToBer lib) f := by
  have hs := (strong_map (strong_real lib) (Real.f32 lib)).loc
  refine ⟨sameDecoder_ber hs, sameDecoder_der hs (f32_apis_agree lib), onlyBytes_ber hs, onlyBytes_der hs,
    fun h => ?_, (C50_real_failing_writer lib .zero f).2⟩
  obtain ⟨x, h1, h2⟩ := map_parseDer.mp h
  exact map_parseBer.mpr ⟨x, (C11_der_subset_ber_real lib i r).1 x h1, h2⟩

/-- A case: `09 01 40`. -/
example : (f32P noLib).parseDer (Input.fromSlice [9, 1, 0x40]) = .ok (⟨[], 3, 3⟩, .inf false) := by decide +kernel

/-- **C61** (partial) The decoders of `f64` and `f32` never loop, and they panic exactly on the inputs on which
those of `Real` do (`C61_real_panics_partial` says which ones). -/
theorem C61_f64_panics_partial (hlib : LibValid lib) (i : Input) (bytes : Bytes) (p : Parser F64)
    (hp : p = f64P lib ∨ p = f32P lib) :
    (p.parseBer i = .error .panic ↔ (realP lib).parseBer i = .error .panic) ∧
    p.parseBer i ≠ .error .diverge ∧
    (p.parseDer i = .error .panic ↔ (realP lib).parseDer i = .error .panic) ∧
    p.parseDer i ≠ .error .diverge ∧
    (fromBer p bytes = .error .panic ↔ fromBer (realP lib) bytes = .error .panic) ∧
    fromBer p bytes ≠ .error .diverge ∧
    (fromDer p realCheck bytes = .error .panic ↔
      fromDer (realP lib) realCheck bytes = .error .panic) ∧
    fromDer p realCheck bytes ≠ .error .diverge := by
  obtain ⟨g, rfl⟩ : ∃ g, p = (realP lib).map g := by
    rcases hp with rfl | rfl
    · exact ⟨_, rfl⟩
    · exact ⟨_, rfl⟩
  have hck : ∀ (e : SErr), (∀ x, e ≠ .error x) → ∀ a, realCheck a ≠ .error e := by
    intro e he a h
    unfold realCheck assertPrimitiveS assertDefiniteS at h
    rcases bind_eq_error.mp h with h | ⟨_, _, h⟩
    · split at h
      · injection h with h; exact he _ h.symm
      · simp at h
    · split at h
      · simp at h
      · injection h with h; exact he _ h.symm
  obtain ⟨p1, p2, p3, p4⟩ := map_stops (p := realP lib) (f := g) (i := i) (bytes := bytes) (.inl ⟨rfl, rfl⟩)
    (hck .panic (by simp))
  obtain ⟨d1, d2, d3, d4⟩ := map_stops (p := realP lib) (f := g) (i := i) (bytes := bytes) (.inr ⟨rfl, rfl⟩)
    (hck .diverge (by simp))
  obtain ⟨_, q1, _, q2, _, q3, _, q4⟩ := C61_real_panics_partial lib hlib i bytes
  exact ⟨p1, fun h => q1 (d1.mp h), p2, fun h => q2 (d2.mp h), p3, fun h => q3 (d3.mp h), p4,
    fun h => q4 (d4.mp h)⟩

/-- A panic: `2^31 - 1` times 3 overflows. -/
example : (f32P noLib).parseDer (Input.fromSlice [9, 6, 0x93, 0x7f, 0xff, 0xff, 0xff, 1]) = .error .panic := by
  decide +kernel

end Asn1

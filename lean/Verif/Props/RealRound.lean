import Verif.Props.Real
/-!
# REAL: encoding and round-trip (C73)
-/
namespace Asn1
open Spec Wr

variable (lib : FloatLib)

/-- The four decoders give `v'` for the encoding of `v`. -/
def RealBack (lib : FloatLib) (v v' : Real) : Prop :=
  ParseBerBack (realToBer lib) (realP lib) v v' ∧ FromBerBack (realToBer lib) (realP lib) v v' ∧
  ParseDerBack (realToBer lib) (realP lib) v v' ∧ FromDerBack (realToBer lib) (realP lib) realCheck v v'

theorem real_back {v v' : Real} {cs : Bytes} (he : Encodes (realToBer lib) v cs)
    (hl : cs.length < 2 ^ 64) (hc : RealContent lib cs v') : RealBack lib v v' := by
  have hd : Decodes (realP lib) false cs v' := decodes_of (real_contents lib) ⟨rfl, hc⟩
  have hb := back_ber (p := realP lib) he hl rfl hd
  exact ⟨hb.1, hb.2, back_der he hl rfl hd,
    back_fromDer he hl rfl hd fun a h1 h2 _ => (realCheck_ok a h2).mpr h1⟩

theorem mantissa_odd {neg : Bool} {n r : Nat} (ho : n % 2 = 1) (h53 : n < 2 ^ 53) (hr : r < 4) :
    (F64.ofInt (if neg then -signed64 n else signed64 n)).mul (F64.pow2 r) = .fin neg n r := by
  obtain ⟨m, k, h1, h2, h3⟩ := mantissa_exact (neg := neg) (N := n) (by omega) h53 hr
  have hk : k = 0 := by
    cases k with
    | zero => rfl
    | succ k => rw [Nat.pow_succ, ← Nat.mul_assoc] at h2; omega
  subst hk
  simp at h2
  rw [h1, h2]
  simp

theorem expFits_iff {E : Int} (h : expBytes E ≤ 3) :
    twos ((toBEInt 4 E).drop (4 - expBytes E)) = E ↔ ExpFits E := by
  have hR := expBytes_range E
  have key : InInt (expBytes E) E ↔ ExpFits E := by
    unfold InInt ExpFits
    have e1 : (2 : Nat) ^ (8 * 1 - 1) = 128 := by decide
    have e2 : (2 : Nat) ^ (8 * 2 - 1) = 32768 := by decide
    have e3 : (2 : Nat) ^ (8 * 3 - 1) = 8388608 := by decide
    unfold expBytes at h ⊢
    split
    · rw [e1]; omega
    · split
      · rw [e2]; omega
      · split
        · rw [e3]; omega
        · rename_i h1 h2 h3
          rw [if_neg h1, if_neg h2, if_neg h3] at h
          omega
  constructor
  · intro h1
    have := (exp_octets (E := E) hR.1 hR.2).2.1
    rw [h1] at this
    exact key.mp this
  · intro h1
    exact exp_octets_eq hR.1 hR.2 (key.mpr h1)

theorem expFits_bytes {E : Int} (h : ExpFits E) : expBytes E ≤ 3 ∧ E.natAbs < 2 ^ 31 := by
  unfold ExpFits at h
  unfold expBytes
  constructor
  · split
    · omega
    · split
      · omega
      · split <;> omega
  · omega

theorem minimal_of_large {bs : Bytes} (h0 : 1 ≤ bs.length)
    (h : 2 ≤ bs.length → ¬ InInt (bs.length - 1) (twos bs)) : MinimalInt bs := by
  match bs, h0, h with
  | [_], _, _ => trivial
  | a :: b :: rest, _, h =>
    have h := h (by simp)
    have ha := byte_lt a
    have hb := byte_lt b
    have e1 : (a :: b :: rest).length - 1 = (b :: rest).length := by simp
    have hp := pow8_half (N := (b :: rest).length) (by simp)
    rw [e1] at h
    unfold InInt at h
    have hlt := beNat_lt (b :: rest)
    have e2 : (a :: b :: rest).length = (b :: rest).length + 1 := by simp
    have e3 := beNat_cons a (b :: rest)
    constructor
    · rintro ⟨h1, h2⟩
      apply h
      have hl := low_lt (bs := b :: rest) (by
        cases hc : isHighestBitSet (b :: rest) with
        | false => rfl
        | true =>
          obtain ⟨b', r', h3, h4⟩ := (highest_eq _).mp hc
          injection h3 with h3 _
          subst h3; omega) (by simp)
      rw [twos, if_neg (by omega), e3, h1]
      omega
    · rintro ⟨h1, h2⟩
      apply h
      have hg := high_ge (bs := b :: rest) ((highest_eq _).mpr ⟨b, rest, rfl, h2⟩)
      rw [twos, if_pos (by omega), e3, h1, e2, Nat.pow_succ]
      omega

theorem exp_minimal {E : Int} (h : ExpFits E) :
    MinimalInt ((toBEInt 4 E).drop (4 - expBytes E)) := by
  have hR := expBytes_range E
  have hl := (exp_octets (E := E) hR.1 hR.2).1
  refine minimal_of_large (by omega) fun h2 => ?_
  rw [hl, (expFits_iff (expFits_bytes h).1).mpr h]
  rw [hl] at h2
  unfold InInt
  have e1 : (2 : Nat) ^ (8 * 1 - 1) = 128 := by decide
  have e2 : (2 : Nat) ^ (8 * 2 - 1) = 32768 := by decide
  unfold ExpFits at h
  unfold expBytes at h2 ⊢
  split
  · rename_i h3; rw [if_pos h3] at h2; omega
  · split
    · rw [show 2 - 1 = 1 from rfl, e1]; omega
    · split
      · rw [show 3 - 1 = 2 from rfl, e2]; omega
      · omega

/-- The numbers of base `2^s` as they are written: exponent `E`, shift `r`. -/
theorem real_written {b s : Nat} (hb : EncBase b s) {neg : Bool} {n : Nat} {x y e e0 : Int}
    (ho : n % 2 = 1) (h53 : n < 2 ^ 53) (hy : -1074 ≤ y)
    (hd : dropScale (.fin false n x) b e = .ok (.fin false n y, e0))
    (hg : F64.gtEpsilon (.fin false n y) = true) (h64 : n * 2 ^ y.toNat < 2 ^ 64)
    (he0 : -(2 ^ 31) ≤ e0 ∧ e0 < 2 ^ 31) (hE : (e0 + y / s).natAbs < 2 ^ 24) :
    ∃ r : Nat, (r : Int) = y % s ∧ r < 4 ∧
      Encodes (realToBer lib) (.binary (.fin neg n x) 2 e b) (realOctets neg s n r (e0 + y / s)) ∧
      (realOctets neg s n r (e0 + y / s)).length < 128 ∧
      RealContent lib (realOctets neg s n r (e0 + y / s))
        (.binary (.fin neg n r) 2 (twos ((toBEInt 4 (e0 + y / s)).drop (4 - expBytes (e0 + y / s))) * s) b)
      := by
  have hs := encBase_le hb
  have hm0 := Int.emod_nonneg y (show (s : Int) ≠ 0 by omega)
  have hm1 := Int.emod_lt_of_pos y (show (0 : Int) < s by omega)
  have e24 : (2 : Nat) ^ 24 = 16777216 := by decide
  have e31 : (2 : Nat) ^ 31 = 2147483648 := by decide
  rw [e24] at hE
  obtain ⟨ps, h1, h2⟩ := pieces_ok hb (neg := neg) ho h53 hy hd hg h64 he0 (by rw [e31]; omega)
  have he := realWrite_binary (lib := lib) h1
  rw [h2] at he
  have hr : (y % s).toNat < 4 := by omega
  generalize e0 + y / s = E at *
  have hE3 : expBytes E ≤ 3 := by
    unfold expBytes
    split
    · omega
    · split
      · omega
      · rw [if_pos (by omega)]; omega
  obtain ⟨hf, hn, h0, h7⟩ := realOctets_fields hb neg (n := n) E (by omega) h53 hr hE3
  have hlen := (exp_octets (E := E) (expBytes_range E).1 (expBytes_range E).2).1
  have hc := RealContent.binary (lib := lib) hf (baseIndex_log hb) (by omega)
    (form_inInt hs (exp_small (by rw [hlen]; exact (expBytes_range E).1) (by omega)))
    (by rw [hn]; rintro ⟨_, h⟩; rw [h] at ho; exact absurd ho (by decide))
  rw [hn, mantissa_odd ho h53 hr, ← encBase_pow hb] at hc
  have hL : (realOctets neg s n (y % s).toNat E).length < 128 := by
    obtain ⟨first, h3, _⟩ := hf
    rw [h3]
    simp only [List.length_cons, List.length_append]
    omega
  exact ⟨(y % s).toNat, by omega, hr, he, hL, hc⟩

/-- **C73** (partial) A REAL `±n * 2^x * 2^e` of base 2 (encoding base 2), with a mantissa greater than
`f64::EPSILON` and less than `2^64`, is written as X.690 11.3.1 (DER) says and decodes to the same value
through the four APIs, exactly when its exponent fits the octets that the encoder takes. Missing: exponents
of `2^24` and more (`C73_long_exponent_deviation`), base 10 (`C74_real_roundtrip_partial`), mantissas of
`2^64` and more, which are written as `2^64 - 1` (`C73_deviations`), and those that panic
(`C61_real_encode_panics`). -/
theorem C73_real_roundtrip_partial {neg : Bool} {n : Nat} {x e : Int}
    (hv : F64Valid (.fin neg n x)) (hg : F64.gtEpsilon (.fin neg n x) = true)
    (h64 : n * 2 ^ x.toNat < 2 ^ 64) (he : InInt 4 e) (hE : (e + x).natAbs < 2 ^ 24) :
    ∃ cs v', (realToBer lib).toVec (.binary (.fin neg n x) 2 e 2) =
        .ok (9 :: UInt8.ofNat cs.length :: cs) ∧
      RealBack lib (.binary (.fin neg n x) 2 e 2) v' ∧
      (ExpFits (e + x) ↔ SameReal (.binary (.fin neg n x) 2 e 2) v') ∧
      (ExpFits (e + x) → DerBinary cs neg n (e + x)) := by
  rcases hv with ⟨rfl, rfl⟩ | ⟨ho, h53, h1, h2⟩
  · simp [F64.gtEpsilon] at hg
  have hd : dropScale (.fin false n x) 2 e = .ok (.fin false n x, e) := by
    unfold dropScale; rw [if_neg (by decide), if_neg (by decide)]
  have ed : x / ((1 : Nat) : Int) = x := by simp
  have hi := (inInt4 e).mp he
  obtain ⟨r, hr, _, h3, hL, h4⟩ := real_written lib .two (neg := neg) ho h53 h1 hd hg h64 (by omega)
    (by rw [ed]; exact hE)
  have hr0 : r = 0 := by
    have : x % ((1 : Nat) : Int) = 0 := by omega
    omega
  subst hr0
  rw [ed] at h3 h4 hL
  have e24 : (2 : Nat) ^ 24 = 16777216 := by decide
  have hE3 : expBytes (e + x) ≤ 3 := by
    rw [e24] at hE
    unfold expBytes
    split
    · omega
    · split
      · omega
      · rw [if_pos (by omega)]; omega
  refine ⟨realOctets neg 1 n 0 (e + x), _, ?_, real_back lib h3 (by omega) h4, ?_, fun hf => ?_⟩
  · rw [h3.toVec (by omega)]
    exact congrArg _ (full_short false (by decide : (9 : Nat) < 31) (by omega))
  · rw [sameReal_iff ho ho, ← expFits_iff hE3]
    constructor
    · intro h; exact ⟨rfl, rfl, by rw [h]; simp; omega⟩
    · rintro ⟨_, _, h⟩; simp at h; omega
  · obtain ⟨h5, h6, h7, _⟩ := realOctets_fields .two neg (n := n) (r := 0) (e + x) (by omega) h53
      (by decide) hE3
    have hlen := (exp_octets (E := e + x) (expBytes_range (e + x)).1 (expBytes_range (e + x)).2).1
    exact ⟨_, _, h5, by rw [hlen]; exact hE3, exp_minimal hf, ((expFits_iff hE3).mpr hf).symm, h6.symm, ho,
      h7⟩

/-- Cases: `5 * 2^-3` is `09 03 80 fd 05`; the value `1 * 2^200` is `09 03 80 c8 01`, and decodes to
`1 * 2^-56`. -/
example : (realToBer noLib).toVec (.binary (.fin true 5 (-3)) 2 0 2) = .ok [9, 3, 0xc0, 0xfd, 5] ∧
    ExpFits (-3) ∧ (realToBer noLib).toVec (.binary (.fin false 1 0) 2 200 2) = .ok [9, 3, 0x80, 0xc8, 1] ∧
    ¬ ExpFits 200 ∧ (realP noLib).parseDer (Input.fromSlice [9, 3, 0x80, 0xc8, 1]) =
      .ok (⟨[], 5, 5⟩, .binary (.fin false 1 0) 2 (-56) 2) := by
  refine ⟨by decide +kernel, ?_, by decide +kernel, ?_, by decide +kernel⟩ <;> unfold ExpFits <;> omega

theorem dropScale_other {b s : Nat} (hb : EncBase b s) (h2 : b ≠ 2) {n : Nat} {x e : Int}
    (ho : n % 2 = 1) (h53 : n < 2 ^ 53) (he : e.natAbs < 2 ^ 31) (hs : (e.tdiv s).natAbs < 1024)
    (hy : -1074 ≤ x + e.tdiv s) (ht : x + e.tdiv s + n.log2 < 1024) :
    dropScale (.fin false n x) b e = .ok (.fin false n (x + e.tdiv s), e.tdiv s) := by
  have key : ∀ s : Nat, 0 < s → (e.natAbs : Int) / s * (if e > 0 then 1 else -1) = e.tdiv s := by
    intro s hs
    by_cases h : e > 0
    · rw [if_pos h, Int.mul_one, Int.tdiv_eq_ediv_of_nonneg (by omega)]
      congr 1; omega
    · rw [if_neg h]
      have h3 : e = -(e.natAbs : Int) := by omega
      rw [show e.tdiv s = (-(e.natAbs : Int)).tdiv s by rw [← h3], Int.neg_tdiv,
        Int.tdiv_eq_ediv_of_nonneg (by omega)]
      omega
  have hc : chkI32 e.natAbs = .ok (e.natAbs : Int) := by
    unfold chkI32
    rw [if_pos (by omega)]
  unfold dropScale
  cases hb with
  | two => exact absurd rfl h2
  | eight =>
    rw [if_pos rfl, hc, Asn1.bind_ok]
    have := key 3 (by decide)
    rw [show ((e.natAbs : Int) / 3 * if e > 0 then 1 else -1) = e.tdiv ((3 : Nat) : Int) from this,
      F64.mul_pow2 false ho h53 (by omega) hy ht]
    rfl
  | sixteen =>
    rw [if_neg (by decide), if_pos rfl, hc, Asn1.bind_ok]
    have := key 4 (by decide)
    rw [show ((e.natAbs : Int) / 4 * if e > 0 then 1 else -1) = e.tdiv ((4 : Nat) : Int) from this,
      F64.mul_pow2 false ho h53 (by omega) hy ht]
    rfl

/-- **C73** Deviation: with the encoding bases 8 and 16 (`2^s`) the value written is
`±n * 2^(x + (s + 1) * (e / s))` instead of `±n * 2^(x + e)`, so that it decodes to the same value exactly
when `(s + 1) * (e / s) = e` (`/` truncates): for `e = 0`, and a few other exponents. -/
theorem C73_other_bases {b s : Nat} (hb : EncBase b s) (h2 : b ≠ 2) {neg : Bool} {n : Nat} {x e : Int}
    (hv : F64Valid (.fin neg n (x + e.tdiv s)))
    (hg : F64.gtEpsilon (.fin neg n (x + e.tdiv s)) = true)
    (h64 : n * 2 ^ (x + e.tdiv s).toNat < 2 ^ 64) (hs : (e.tdiv s).natAbs < 1024)
    (hE : ExpFits (e.tdiv s + (x + e.tdiv s) / s)) :
    ∃ v', RealBack lib (.binary (.fin neg n x) 2 e b) v' ∧
      RealIs v' neg n (x + (s + 1) * e.tdiv s) ∧
      (SameReal (.binary (.fin neg n x) 2 e b) v' ↔ (s + 1) * e.tdiv s = e) := by
  rcases hv with ⟨rfl, h0⟩ | ⟨ho, h53, h1, h2'⟩
  · simp [F64.gtEpsilon] at hg
  have hs4 := encBase_le hb
  have hea : e.natAbs < 2 ^ 31 := by
    have h3 : s * e.tdiv s + e.tmod s = e := Int.mul_tdiv_add_tmod e s
    have h4 := Int.tmod_lt_of_pos e (show (0 : Int) < s by omega)
    have h5 : (-e).tmod s < s := Int.tmod_lt_of_pos (-e) (show (0 : Int) < s by omega)
    rw [Int.neg_tmod] at h5
    have hk : s = 1 ∨ s = 2 ∨ s = 3 ∨ s = 4 := by omega
    generalize e.tdiv s = t at *
    generalize e.tmod s = u at *
    rcases hk with rfl | rfl | rfl | rfl <;> omega
  have hd := dropScale_other hb h2 ho h53 hea hs h1 h2'
  have hfb := expFits_bytes hE
  have hE24 : (e.tdiv s + (x + e.tdiv s) / s).natAbs < 2 ^ 24 := by unfold ExpFits at hE; omega
  obtain ⟨r, hr, _, h3, hL, h4⟩ := real_written lib hb (neg := neg) ho h53 h1 hd hg h64 (by omega) hE24
  rw [(expFits_iff hfb.1).mpr hE] at h4
  have hdm := Int.emod_add_mul_ediv (x + e.tdiv s) (s : Int)
  have hval : (r : Int) + (e.tdiv s + (x + e.tdiv s) / s) * s = x + (s + 1) * e.tdiv s := by
    rw [Int.add_mul, Int.add_mul, Int.one_mul, Int.mul_comm (e.tdiv s), Int.mul_comm (_ / _)]
    omega
  refine ⟨_, real_back lib h3 (by omega) h4, ⟨_, _, _, _, rfl, ?_⟩, ?_⟩
  · rw [hval]; exact sameNumber_refl _ _
  · rw [sameReal_iff ho ho, hval]
    constructor
    · rintro ⟨_, _, h⟩; omega
    · intro h; exact ⟨rfl, rfl, by omega⟩

/-- A case: `94 ff 0d` (3.25) decodes to a value that is written as `90 ff 0d` (1.625). -/
example : (realP noLib).parseDer (Input.fromSlice [9, 3, 0x94, 0xff, 0x0d]) =
      .ok (⟨[], 5, 5⟩, .binary (.fin false 13 1) 2 (-3) 8) ∧
    (realToBer noLib).toVec (.binary (.fin false 13 1) 2 (-3) 8) = .ok [9, 3, 0x90, 0xff, 0x0d] ∧
    ((3 : Int) + 1) * Int.tdiv (-3) 3 ≠ -3 := by decide +kernel


/-- **C73** Deviation: a value of base 2 whose exponent is `2^24` or more, in absolute value, is written
with the number of exponent octets in the second octet, which the decoder does not read: the object decodes
to another value. (Stated for numbers of less than `2^40`; above, the number may be rounded.) -/
theorem C73_long_exponent_deviation {neg : Bool} {n : Nat} {x e : Int}
    (hv : F64Valid (.fin neg n x)) (hg : F64.gtEpsilon (.fin neg n x) = true) (h40 : n < 2 ^ 40)
    (h64 : n * 2 ^ x.toNat < 2 ^ 64) (he : InInt 4 e) (hE : 2 ^ 24 ≤ (e + x).natAbs)
    (hE31 : (e + x).natAbs < 2 ^ 31) :
    ∃ v', RealBack lib (.binary (.fin neg n x) 2 e 2) v' ∧
      ¬ SameReal (.binary (.fin neg n x) 2 e 2) v' := by
  rcases hv with ⟨rfl, rfl⟩ | ⟨ho, h53, h1, h2⟩
  · simp [F64.gtEpsilon] at hg
  have hd : dropScale (.fin false n x) 2 e = .ok (.fin false n x, e) := by
    unfold dropScale; rw [if_neg (by decide), if_neg (by decide)]
  have ed : x / ((1 : Nat) : Int) = x := by simp
  have em : x % ((1 : Nat) : Int) = 0 := by omega
  have hi := (inInt4 e).mp he
  obtain ⟨ps, h3, h4⟩ := pieces_ok .two (neg := neg) ho h53 h1 hd hg h64 (by omega)
    (by rw [ed]; exact hE31)
  have henc := realWrite_binary (lib := lib) h3
  rw [ed, em] at h4
  rw [h4] at henc
  generalize hEE : e + x = E at *
  have e24 : (2 : Nat) ^ 24 = 16777216 := by decide
  have e31 : (2 : Nat) ^ 31 = 2147483648 := by decide
  have hE4 : expBytes E = 4 := by
    unfold expBytes
    rw [if_neg (by omega), if_neg (by omega), if_neg (by omega)]
  have hlen : (toBEInt 4 E).length = 4 := by
    unfold toBEInt; exact toBE_length 4 _
  have hbe : beNat (toBEInt 4 E) = (E % 4294967296).toNat := by
    unfold toBEInt
    have e5 : (256 : Nat) ^ 4 = 4294967296 := by decide
    have e6 : (2 : Nat) ^ (8 * 4) = 4294967296 := by decide
    rw [beNat_toBE_of_lt]
    · rw [e6]; rfl
    · rw [e5]; omega
  obtain ⟨h5, h6, h7⟩ := dropZeros64_spec (toBE 8 n)
  have e8 : (256 : Nat) ^ 8 = 18446744073709551616 := by decide
  have e9 : (256 : Nat) ^ 5 = 1099511627776 := by decide
  have e40 : (2 : Nat) ^ 40 = 1099511627776 := by decide
  have hbn : beNat (toBE 8 n) = n := beNat_toBE_of_lt (by rw [e8]; omega)
  rw [hbn] at h5 h7
  have h8 : (dropZeros64 (toBE 8 n)).length ≤ 5 := lead_length h6 (by rw [h5, e9]; omega)
  have h9 : dropZeros64 (toBE 8 n) ≠ [] := by rw [ne_eq, h7]; omega
  unfold realOctets at henc
  rw [if_pos hE4, hE4] at henc
  generalize dropZeros64 (toBE 8 n) = mant at *
  generalize toBEInt 4 E = eo at *
  match eo, hlen with
  | [a, b, c, d], _ =>
    have hbe' : beNat [a, b, c] * 256 + d.toNat = (E % 4294967296).toNat := by
      rw [← hbe]
      simp [beNat]
    have hdb := byte_lt d
    have habc := beNat_lt [a, b, c]
    have e3 : (256 : Nat) ^ [a, b, c].length = 16777216 := by show 256 ^ 3 = _; decide
    rw [e3] at habc
    have ht : twos [4, a, b, c] = 67108864 + beNat [a, b, c] := by
      rw [twos, if_neg (by decide), beNat_cons, e3]
      rw [show (4 : UInt8).toNat = 4 from rfl]
      omega
    obtain ⟨l, hl⟩ : ∃ l, mant.length = l + 1 := by
      cases mant with
      | nil => exact absurd rfl h9
      | cons _ t => exact ⟨t.length, rfl⟩
    have hN : beNat (d :: mant) = d.toNat * 256 ^ mant.length + n := by rw [beNat_cons, h5]
    have hodd : beNat (d :: mant) % 2 = 1 := by
      rw [hN, hl, Nat.pow_succ, ← Nat.mul_assoc]; omega
    have hlt : beNat (d :: mant) < 2 ^ 53 := by
      have h10 := beNat_lt (d :: mant)
      have h11 : (256 : Nat) ^ (d :: mant).length ≤ 256 ^ 6 :=
        pow256_le (by rw [List.length_cons]; omega)
      exact Nat.lt_of_lt_of_le h10 (Nat.le_trans h11 (by decide))
    have hff := realFirst_toNat neg ⟨0, by decide⟩ ⟨0, by decide⟩ ⟨3, by decide⟩
    have hf : BinaryFields (realFirst neg 0 0 4 :: ([4] ++ [a, b, c, d] ++ mant)) neg 0 0 [4, a, b, c]
        (d :: mant) := by
      refine ⟨realFirst neg 0 0 4, by simp, ?_, by decide, by decide, by simp, by simp, by simp⟩
      simpa using hff
    have hc := RealContent.binary (lib := lib) hf (k := 1) (Or.inl ⟨rfl, rfl⟩)
      (by rw [List.length_cons]; omega) (by rw [ht, inInt4]; omega)
      (by rintro ⟨_, h⟩; rw [h] at hodd; exact absurd hodd (by decide))
    rw [mantissa_odd hodd hlt (by decide), ht] at hc
    refine ⟨_, real_back lib henc ?_ hc, ?_⟩
    · simp only [List.length_cons, List.length_append, List.length_drop, List.length_nil]
      omega
    · rw [sameReal_iff ho hodd]
      rintro ⟨_, h10, h11⟩
      rw [hN] at h10
      have hd0 : d.toNat = 0 := by
        cases hd0 : d.toNat with
        | zero => rfl
        | succ k =>
          have := Nat.pow_pos (n := mant.length) (show 0 < 256 by decide)
          rw [hd0, Nat.add_mul] at h10
          omega
      rw [hd0] at hbe'
      simp at h11
      omega

/-- A case: `3 * 2^16777216`. -/
example : F64Valid (.fin false 3 0) ∧ F64.gtEpsilon (.fin false 3 0) = true ∧ InInt 4 16777216 := by
  unfold F64Valid InInt; decide

/-- **C73** Other deviations: a mantissa of `2^64` or more is written as `2^64 - 1` (which then decodes as
`-1`, `C72_sign_deviation`); `to_der_vec` (the same function as `to_ber_vec`)
writes the bases 8 and 16, which DER forbids. -/
theorem C73_deviations :
    (realToBer noLib).toVec (.binary (.fin false 1 64) 2 0 2) =
      .ok [9, 10, 0x80, 0, 0xff, 0xff, 0xff, 0xff, 0xff, 0xff, 0xff, 0xff] ∧
    (realToBer noLib).toVec (.binary (.fin false 1 0) 2 0 16) = .ok [9, 3, 0xa0, 0, 1] ∧
    ∀ neg N E, ¬ DerBinary [0xa0, 0, 1] neg N E := by
  refine ⟨by decide +kernel, by decide +kernel, ?_⟩
  rintro neg N E ⟨exp, mant, ⟨f, h1, h2, _⟩, h3, _⟩
  injection h1 with h1 _
  subst h1
  have : (0xa0 : UInt8).toNat = 160 := rfl
  cases neg <;> simp [this] at h2 <;> omega

/-- The values that decode to themselves. -/
theorem real_value {r : Real} (h : RealValue r) :
    ∃ cs, Encodes (realToBer lib) r cs ∧ RealContent lib cs r ∧ cs.length < 128 := by
  cases h with
  | zero => exact ⟨[], realWrite_special (by simp), .zero, by decide⟩
  | infinity => exact ⟨[0x40], realWrite_special (by simp), .infinity, by decide⟩
  | negInfinity => exact ⟨[0x41], realWrite_special (by simp), .negInfinity, by decide⟩
  | nan => exact ⟨[0x42], realWrite_special (by simp), .nan, by decide⟩
  | @binary neg n E ho h53 hE =>
    have hd : dropScale (.fin false n 0) 2 E = .ok (.fin false n 0, E) := by
      unfold dropScale; rw [if_neg (by decide), if_neg (by decide)]
    have hg : F64.gtEpsilon (.fin false n 0) = true := by
      simp only [F64.gtEpsilon]
      rw [if_pos (by decide)]
      have : (2 : Nat) ^ ((0 : Int) + 52).toNat = 4503599627370496 := by decide
      rw [this, decide_eq_true_eq]
      omega
    have h31 := (expFits_bytes hE).2
    have e0 : E + 0 / ((1 : Nat) : Int) = E := by simp
    have e64 : (2 : Nat) ^ 64 = 18446744073709551616 := by decide
    have e53 : (2 : Nat) ^ 53 = 9007199254740992 := by decide
    obtain ⟨r, hr, _, h1, h2, h3⟩ := real_written lib .two (neg := neg) ho h53 (by omega) hd hg
      (by rw [Int.toNat_zero, Nat.pow_zero, Nat.mul_one]; omega) (by omega)
      (by rw [e0]; unfold ExpFits at hE; omega)
    have hr0 : r = 0 := by omega
    subst hr0
    rw [e0] at h1 h2 h3
    rw [(expFits_iff (expFits_bytes hE).1).mpr hE, Int.ofNat_one, Int.mul_one] at h3
    exact ⟨_, h1, h3, h2⟩

/-- **C73** The values in `RealValue` (zero, the infinities, NaN, and `±n * 2^E` with an odd `n` below
`2^53`) decode to themselves through the four APIs. -/
theorem C73_real_values {r : Real} (h : RealValue r) : RealBack lib r r := by
  obtain ⟨cs, h1, h2, h3⟩ := real_value lib h
  exact real_back lib h1 (by omega) h2

/-- A case: `-3 * 2^5`. -/
example : RealValue (.binary (.fin true 3 0) 2 5 2) := .binary (by decide) (by decide) (by unfold ExpFits; decide)

end Asn1

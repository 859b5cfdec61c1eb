import Verif.Proofs.RealEnc
import Verif.Proofs.RealNew
import Verif.Props.Typed
/-!
# REAL (C53, C72, C73, C74)
-/
namespace Asn1
open Spec Wr

variable (lib : FloatLib)

/-! ### What is accepted -/

theorem realCheck_ok (a : Any) (h : a.header.length = .definite n) :
    realCheck a = .ok () ↔ a.header.constructed = false := by
  unfold realCheck assertPrimitiveS assertDefiniteS
  rw [h]
  cases a.header.constructed <;> simp [Length.isDefinite]

theorem real_apis_agree (bs rem : Bytes) (v : Real) : fromDer (realP lib) realCheck bs = .ok (rem, v) ↔
    ∃ r, (realP lib).parseDer (Input.fromSlice bs) = .ok (r, v) ∧ r.data = rem := by
  refine der_apis_agree (pb := realP lib) (pd := realP lib) (fun _ => Iff.rfl) (fun a v hl => ?_) _ _ _
  rw [realCheck_ok a hl, real_contents lib _ _ _ (consistent_of hl)]
  constructor
  · rintro ⟨h1, h2⟩; exact h2
  · intro h; exact ⟨h.1, h⟩

/-- **C72** The exact set of objects that the four decoders of REAL accept, with the value. -/
theorem C72_real_accepts (i r : Input) (bytes rem : Bytes) (v : Real) :
    ((realP lib).parseBer i = .ok (r, v) ↔ ∃ a, parseBerAny i = .ok (r, a) ∧ a.header.tag = 9 ∧
      a.header.constructed = false ∧ RealContent lib a.data.data v) ∧
    ((realP lib).parseDer i = .ok (r, v) ↔ ∃ a, parseDerAny i = .ok (r, a) ∧ a.header.tag = 9 ∧
      a.header.constructed = false ∧ RealContent lib a.data.data v) ∧
    (fromBer (realP lib) bytes = .ok (rem, v) ↔
      ∃ r a, parseBerAny (Input.fromSlice bytes) = .ok (r, a) ∧ r.data = rem ∧ a.header.tag = 9 ∧
      a.header.constructed = false ∧ RealContent lib a.data.data v) ∧
    (fromDer (realP lib) realCheck bytes = .ok (rem, v) ↔
      ∃ r a, parseDerAny (Input.fromSlice bytes) = .ok (r, a) ∧ r.data = rem ∧ a.header.tag = 9 ∧
      a.header.constructed = false ∧ RealContent lib a.data.data v) := by
  have hacc : ∀ t, (realP lib).acceptTag t = true ↔ t = 9 := fun _ => tagIs_iff
  refine ⟨accepts_ber hacc (real_contents lib) i r v, accepts_der hacc (real_contents lib) i r v,
    accepts_fromBer hacc (real_contents lib) bytes rem v, ?_⟩
  rw [real_apis_agree]
  constructor
  · rintro ⟨r, h1, h2⟩
    obtain ⟨a, h3, h4⟩ := (accepts_der hacc (real_contents lib) _ r v).mp h1
    exact ⟨r, a, h3, h2, h4⟩
  · rintro ⟨r, a, h1, h2, h3⟩
    exact ⟨r, (accepts_der hacc (real_contents lib) _ r v).mpr ⟨a, h1, h3⟩, h2⟩

/-- A library for the examples: it reads nothing. -/
def noLib : FloatLib := ⟨fun _ => none, fun _ => [], fun _ _ => .nan⟩

/-- Values of the tests of the crate: `1 * 2^2`, `-1 * 2^-1 ` in base 8, 13 * 8^-1 * 2^1, and NR1 "15". -/
example :
    (realP noLib).parseDer (Input.fromSlice [9, 3, 0x80, 2, 1]) =
      .ok (⟨[], 5, 5⟩, .binary (.fin false 1 0) 2 2 2) ∧
    (realP noLib).parseDer (Input.fromSlice [9, 3, 0x94, 0xff, 0x0d]) =
      .ok (⟨[], 5, 5⟩, .binary (.fin false 13 1) 2 (-3) 8) ∧
    (realP noLib).parseDer (Input.fromSlice [9, 3, 1, 0x31, 0x35]) =
      .ok (⟨[], 5, 5⟩, .binary (.fin false 15 0) 10 0 10) ∧
    (realP noLib).parseDer (Input.fromSlice [9, 3, 0xb0, 2, 1]) =
      nomErr ⟨[0xb0, 2, 1], 2, 5⟩ (.invalidValue 9 "Illegal REAL encoding base") := by decide +kernel

/-! ### Special values -/

/-- **C53** Zero, the infinities and NaN have the encodings of X.690 8.5.2 and 8.5.9, which decode to
themselves through the four APIs. -/
theorem C53_special_values {r : Real} {cs : Bytes}
    (h : (r = .zero ∧ cs = []) ∨ (r = .infinity ∧ cs = [0x40]) ∨ (r = .negInfinity ∧ cs = [0x41]) ∨
      (r = .nan ∧ cs = [0x42])) :
    (realToBer lib).toVec r = .ok ([9, UInt8.ofNat cs.length] ++ cs) ∧
    ParseBerBack (realToBer lib) (realP lib) r r ∧ FromBerBack (realToBer lib) (realP lib) r r ∧
    ParseDerBack (realToBer lib) (realP lib) r r ∧
    FromDerBack (realToBer lib) (realP lib) realCheck r r := by
  have he := realWrite_special (lib := lib) h
  have hl : cs.length < 2 ^ 64 := by rcases h with ⟨_, rfl⟩ | ⟨_, rfl⟩ | ⟨_, rfl⟩ | ⟨_, rfl⟩ <;> decide
  have hd : Decodes (realP lib) false cs r := by
    refine decodes_of (real_contents lib) ⟨rfl, ?_⟩
    rcases h with ⟨rfl, rfl⟩ | ⟨rfl, rfl⟩ | ⟨rfl, rfl⟩ | ⟨rfl, rfl⟩
    · exact .zero
    · exact .infinity
    · exact .negInfinity
    · exact .nan
  have hb := back_ber (p := realP lib) he hl rfl hd
  refine ⟨?_, hb.1, hb.2, back_der he hl rfl hd,
    back_fromDer he hl rfl hd fun a h1 h2 _ => (realCheck_ok a h2).mpr h1⟩
  rw [he.toVec hl]
  show (Except.ok (full .universal false 9 cs) : Except SerErr Bytes) = _
  rcases h with ⟨_, rfl⟩ | ⟨_, rfl⟩ | ⟨_, rfl⟩ | ⟨_, rfl⟩ <;> decide +kernel

/-- A case. -/
example (lib : FloatLib) : (realToBer lib).toVec .negInfinity = .ok [9, 1, 0x41] :=
  (C53_special_values lib (.inr (.inr (.inl ⟨rfl, rfl⟩)))).1

/-- **C53** Every other content with the form of a special value (the bits 8 and 7 of the first octet are
01) is refused, and only the empty content is zero. -/
theorem C53_special_contents {i r r' : Input} {a : Any} {v : Real} (ha : parseBerAny i = .ok (r, a))
    (ht : a.header.tag = 9) (hp : a.header.constructed = false) :
    (∀ f rem, a.data.data = f :: rem → 64 ≤ f.toNat → f.toNat < 128 →
      ((realP lib).parseBer i = .ok (r', v) ↔ r' = r ∧ rem = [] ∧
        (f = 0x40 ∧ v = .infinity ∨ f = 0x41 ∧ v = .negInfinity ∨ f = 0x42 ∧ v = .nan))) ∧
    (a.data.data = [] → ((realP lib).parseBer i = .ok (r', v) ↔ r' = r ∧ v = .zero)) := by
  have key : (realP lib).parseBer i = .ok (r', v) ↔ r' = r ∧ RealContent lib a.data.data v := by
    rw [(C72_real_accepts lib i r' [] [] v).1, ha]
    constructor
    · rintro ⟨a', h1, _, _, h2⟩
      injection h1 with h1
      injection h1 with h1 h3
      subst h1 h3
      exact ⟨rfl, h2⟩
    · rintro ⟨rfl, h⟩; exact ⟨a, rfl, ht, hp, h⟩
  refine ⟨fun f rem hd h1 h2 => ?_, fun hd => ?_⟩
  · rw [key, hd]
    refine and_congr_right fun _ => ?_
    constructor
    · intro h
      generalize hc : f :: rem = cs at h
      cases h with
      | zero => simp at hc
      | infinity => injection hc with hc1 hc2; exact ⟨hc2, .inl ⟨hc1, rfl⟩⟩
      | negInfinity => injection hc with hc1 hc2; exact ⟨hc2, .inr (.inl ⟨hc1, rfl⟩)⟩
      | nan => injection hc with hc1 hc2; exact ⟨hc2, .inr (.inr ⟨hc1, rfl⟩)⟩
      | binary h =>
        obtain ⟨g, h3, h4, _⟩ := h
        rw [← hc] at h3
        injection h3 with h3 _
        subst h3; omega
      | nr1 h3 => injection hc with hc1 hc2; subst hc1; omega
      | nr23 h3 => injection hc with hc1 hc2; subst hc1; omega
    · rintro ⟨rfl, ⟨rfl, rfl⟩ | ⟨rfl, rfl⟩ | ⟨rfl, rfl⟩⟩
      · exact .infinity
      · exact .negInfinity
      · exact .nan
  · rw [key, hd]
    refine and_congr_right fun _ => ?_
    constructor
    · intro h
      generalize hc : ([] : Bytes) = cs at h
      cases h with
      | zero => rfl
      | binary h =>
        obtain ⟨g, h3, h4, _⟩ := h
        rw [← hc] at h3; simp at h3
      | _ => simp at hc
    · rintro rfl; exact .zero

/-- Cases: `09 01 40` and `09 01 43`, and the two-octet content `40 00`. -/
example : (realP noLib).parseBer (Input.fromSlice [9, 1, 0x40]) = .ok (⟨[], 3, 3⟩, .infinity) ∧
    (realP noLib).parseBer (Input.fromSlice [9, 1, 0x43]) =
      nomErr ⟨[0x43], 2, 3⟩ (.invalidValue 9 "Invalid float special value") ∧
    (realP noLib).parseBer (Input.fromSlice [9, 2, 0x40, 0]) =
      nomErr ⟨[0x40, 0], 2, 4⟩ .invalidLength := by decide +kernel

/-- **C53** The same values as `f64`: infinities, NaN and zero encode as REAL and decode to themselves
(the sign of zero is lost). -/
theorem C53_f64_special_values (f : F64) (h : f = .nan ∨ (∃ s, f = .inf s) ∨ ∃ s, f = .fin s 0 0) :
    ∃ g, ((f = .nan ∧ g = .nan) ∨ (∃ s, f = .inf s ∧ g = .inf s) ∨
        (∃ s, f = .fin s 0 0 ∧ g = .fin false 0 0)) ∧
      ParseBerBack (f64ToBer lib) (f64P lib) f g ∧ FromBerBack (f64ToBer lib) (f64P lib) f g ∧
      ParseDerBack (f64ToBer lib) (f64P lib) f g ∧ FromDerBack (f64ToBer lib) (f64P lib) realCheck f g := by
  have key : ∀ (r : Real) (cs : Bytes) (g : F64), Real.new f = some r → r.f64 lib = g →
      ((r = .zero ∧ cs = []) ∨ (r = .infinity ∧ cs = [0x40]) ∨ (r = .negInfinity ∧ cs = [0x41]) ∨
        (r = .nan ∧ cs = [0x42])) →
      ParseBerBack (f64ToBer lib) (f64P lib) f g ∧ FromBerBack (f64ToBer lib) (f64P lib) f g ∧
      ParseDerBack (f64ToBer lib) (f64P lib) f g ∧
      FromDerBack (f64ToBer lib) (f64P lib) realCheck f g := by
    intro r cs g h1 h2 h3
    have h0 := realWrite_special (lib := lib) h3
    have he : Encodes (f64ToBer lib) f cs := by
      refine ⟨?_, ?_, h0.tag, rfl⟩
      · show Writes (match Real.new f with | some r => realWrite lib r | none => _) _ _
        rw [h1]; exact h0.content
      · show (match Real.new f with | some r => realContentLen lib r | none => _) = _
        rw [h1]; exact h0.len
    have hl : cs.length < 2 ^ 64 := by
      rcases h3 with ⟨_, rfl⟩ | ⟨_, rfl⟩ | ⟨_, rfl⟩ | ⟨_, rfl⟩ <;> decide
    have hr : RealContent lib cs r := by
      rcases h3 with ⟨rfl, rfl⟩ | ⟨rfl, rfl⟩ | ⟨rfl, rfl⟩ | ⟨rfl, rfl⟩
      · exact .zero
      · exact .infinity
      · exact .negInfinity
      · exact .nan
    have hd : Decodes (f64P lib) false cs g := by
      intro hd i h4 h5 h6
      obtain ⟨x, hx⟩ := decodes_of (real_contents lib) (constructed := false) ⟨rfl, hr⟩ hd i h4 h5 h6
      refine ⟨x, ?_⟩
      rw [f64P, map_content, hx, ← h2]
      exact ⟨r, rfl, rfl⟩
    have hb := back_ber (p := f64P lib) he hl rfl hd
    exact ⟨hb.1, hb.2, back_der he hl rfl hd,
      back_fromDer he hl rfl hd fun a h1 h2 _ => (realCheck_ok a h2).mpr h1⟩
  rcases h with rfl | ⟨s, rfl⟩ | ⟨s, rfl⟩
  · exact ⟨_, .inl ⟨rfl, rfl⟩, key .nan [0x42] _ rfl rfl (by simp)⟩
  · refine ⟨_, .inr (.inl ⟨s, rfl, rfl⟩), ?_⟩
    cases s
    · exact key .infinity [0x40] _ rfl rfl (by simp)
    · exact key .negInfinity [0x41] _ rfl rfl (by simp)
  · exact ⟨_, .inr (.inr ⟨s, rfl, rfl⟩), key .zero [] _ rfl rfl (by simp)⟩

/-! ### Binary contents -/

theorem sameNumber_refl (a : Nat) (x : Int) : SameNumber a x a x := rfl

theorem sameNumber_shift (m k : Nat) (x : Int) : SameNumber m (x + k) (m * 2 ^ k) x := by
  unfold SameNumber
  have h1 : (x + k - min (x + k) x).toNat = k := by omega
  have h2 : (x - min (x + k) x).toNat = 0 := by omega
  rw [h1, h2]; simp

theorem sameNumber_odd {a b : Nat} {x y : Int} (ha : a % 2 = 1) (hb : b % 2 = 1)
    (h : SameNumber a x b y) : a = b ∧ x = y := by
  unfold SameNumber at h
  rcases Int.lt_trichotomy x y with hxy | hxy | hxy
  · have h1 : (x - min x y).toNat = 0 := by omega
    obtain ⟨k, hk⟩ : ∃ k, (y - min x y).toNat = k + 1 := ⟨(y - min x y).toNat - 1, by omega⟩
    rw [h1, hk, Nat.pow_succ, ← Nat.mul_assoc] at h
    omega
  · subst hxy
    have h1 : (x - min x x).toNat = 0 := by omega
    rw [h1] at h
    simp at h
    exact ⟨h, rfl⟩
  · have h1 : (y - min x y).toNat = 0 := by omega
    obtain ⟨k, hk⟩ : ∃ k, (x - min x y).toNat = k + 1 := ⟨(x - min x y).toNat - 1, by omega⟩
    rw [h1, hk, Nat.pow_succ, ← Nat.mul_assoc] at h
    omega

/-- With odd mantissas, values are equal when sign, mantissa and the sum of the exponents are. -/
theorem sameReal_iff {s t : Bool} {n m b c : Nat} {x y e f : Int} (hn : n % 2 = 1) (hm : m % 2 = 1) :
    SameReal (.binary (.fin s n x) 2 e b) (.binary (.fin t m y) 2 f c) ↔
      s = t ∧ n = m ∧ x + e = y + f := by
  constructor
  · intro h
    obtain ⟨num, exp, x', b', h1, h2⟩ := (h s n (x + e)).mp ⟨n, x, e, b, rfl, sameNumber_refl _ _⟩
    injection h1 with h1 h3 h4 h5
    injection h1 with h6 h7 h8
    subst h6 h7 h8 h4
    obtain ⟨h9, h10⟩ := sameNumber_odd hm hn h2
    exact ⟨rfl, h9.symm, h10.symm⟩
  · rintro ⟨rfl, rfl, h⟩ neg k z
    constructor
    · rintro ⟨num, exp, x', b', h1, h2⟩
      injection h1 with h1 h3 h4 h5
      injection h1 with h6 h7 h8
      subst h6 h7 h8 h4
      exact ⟨_, _, _, _, rfl, h ▸ h2⟩
    · rintro ⟨num, exp, x', b', h1, h2⟩
      injection h1 with h1 h3 h4 h5
      injection h1 with h6 h7 h8
      subst h6 h7 h8 h4
      exact ⟨_, _, _, _, rfl, by rw [h]; exact h2⟩

/-- Exact mantissas. -/
theorem mantissa_exact {neg : Bool} {N F : Nat} (h0 : N ≠ 0) (h53 : N < 2 ^ 53) (hF : F < 4) :
    ∃ m k, (F64.ofInt (if neg then -signed64 N else signed64 N)).mul (F64.pow2 F) =
      .fin neg m ((k : Nat) + F : Int) ∧ N = m * 2 ^ k ∧ m % 2 = 1 := by
  have e53 : (2 : Nat) ^ 53 = 9007199254740992 := by decide
  have hs : signed64 N = N := by
    unfold signed64
    rw [if_pos (by omega)]
  have hn : (if neg then -signed64 N else signed64 N).natAbs = N := by rw [hs]; split <;> omega
  have hsg : decide ((if neg then -signed64 N else signed64 N) < 0) = neg := by
    rw [hs]; cases neg <;> simp <;> omega
  have hl := F64.log2_lt53 h0 h53
  obtain ⟨k, m, h1, h2, h3⟩ := F64.make_spec neg 0 h0 (by omega)
  have hlog := F64.log2_mul_pow m k (by omega)
  rw [← h2] at hlog
  have hm : m < 2 ^ 53 := by
    have := Nat.le_mul_of_pos_right m (Nat.two_pow_pos k)
    omega
  refine ⟨m, k, ?_, h2, h3⟩
  rw [F64.ofInt, hn, hsg, F64.round_small neg h0 h53 (by omega), h1,
    F64.mul_pow2 neg h3 hm (by omega) (by omega) (by omega)]
  congr 1
  omega

theorem exp_small {exp : Bytes} (h1 : 1 ≤ exp.length) (h : exp.length ≤ 3) :
    -8388608 ≤ twos exp ∧ twos exp < 8388608 := by
  have e3 : (256 : Nat) ^ 3 = 16777216 := by decide
  have hle := pow256_le h
  rw [e3] at hle
  have hlt := beNat_lt exp
  have hs : isHighestBitSet exp = true ∨ isHighestBitSet exp = false := by
    cases isHighestBitSet exp <;> simp
  rcases hs with hs | hs
  · have := high_ge hs
    rw [twos_high hs]; omega
  · have := low_lt hs (by intro h; rw [h] at h1; simp at h1)
    rw [twos_low hs]; omega

theorem inInt4 (x : Int) : InInt 4 x ↔ -2147483648 ≤ x ∧ x < 2147483648 := by
  unfold InInt
  have e4 : (2 : Nat) ^ (8 * 4 - 1) = 2147483648 := by decide
  rw [e4]
  constructor <;> rintro ⟨h1, h2⟩ <;> constructor <;> omega

theorem baseLog_le {b k : Nat} (h : BaseLog b k) : 1 ≤ k ∧ k ≤ 4 := by unfold BaseLog at h; omega

theorem form_inInt {k : Nat} {E : Int} (hk : 1 ≤ k ∧ k ≤ 4) (hE : -8388608 ≤ E ∧ E < 8388608) :
    InInt 4 (E * k) := by
  rw [inInt4]
  have hk : k = 1 ∨ k = 2 ∨ k = 3 ∨ k = 4 := by omega
  rcases hk with rfl | rfl | rfl | rfl <;> omega

theorem sign_make (s : Bool) (n : Nat) (e : Int) : (F64.make s n e).isSignPositive = !s := by
  unfold F64.make
  split
  · rfl
  · split <;> rfl

theorem sign_round (s : Bool) (n : Nat) (e : Int) : (F64.round s n e).isSignPositive = !s := by
  unfold F64.round
  split <;> exact sign_make _ _ _

/-- **C72** Deviation: the numbers `N` of `2^63` and more change sign: a positive content gives a negative
value and conversely (and `-2^63` panics, `C61_real_panics`). -/
theorem C72_sign_deviation {i r : Input} {a : Any} {neg : Bool} {N F k len : Nat} {E : Int}
    (ha : parseBerAny i = .ok (r, a)) (ht : a.header.tag = 9) (hp : a.header.constructed = false)
    (hf : BinaryForm a.data.data neg N F k E len) (hl : len ≤ 8) (h63 : 2 ^ 63 ≤ N)
    (hne : ¬ (neg = true ∧ N = 2 ^ 63)) :
    ∃ m x b, (realP lib).parseBer i = .ok (r, .binary m 2 x b) ∧ m.isSignPositive = neg := by
  obtain ⟨b, exp, mant, h1, h2, h3, rfl, rfl, rfl⟩ := hf
  have h1' := h1
  obtain ⟨first, _, _, _, hF, he1, _, _⟩ := h1'
  have hE := form_inInt (baseLog_le h2) (exp_small he1 h3)
  have hc := RealContent.binary (lib := lib) h1 h2 hl hE hne
  refine ⟨_, _, _, (C72_real_accepts lib i r [] [] _).1.mpr ⟨a, ha, ht, hp, hc⟩, ?_⟩
  have e1 : (256 : Nat) ^ 8 = 18446744073709551616 := by decide
  have e2 : (2 : Nat) ^ 63 = 9223372036854775808 := by decide
  have e3 : (2 : Nat) ^ 64 = 18446744073709551616 := by decide
  have hlt := beNat_lt mant
  have hle := pow256_le hl
  rw [e1] at hle
  rw [e2] at h63
  have hs : signed64 (beNat mant) < 0 := by
    unfold signed64
    rw [e2, e3, if_neg (by omega)]
    omega
  have habs : (if neg = true then -signed64 (beNat mant) else signed64 (beNat mant)).natAbs < 2 ^ 64 := by
    have := signed64_abs (n := beNat mant) (by rw [e3]; omega)
    split
    · rwa [Int.natAbs_neg]
    · exact this
  obtain ⟨n, e, hp'⟩ := F64.ofInt_fin habs
  have hsg : decide ((if neg = true then -signed64 (beNat mant) else signed64 (beNat mant)) < 0) = !neg := by
    cases neg
    · simpa using hs
    · simp; omega
  rw [hsg] at hp'
  rw [hp']
  have hpow : F64.pow2 F = .fin false 1 F := by
    unfold F64.pow2
    rw [if_neg (by omega), if_neg (by omega)]
  rw [hpow, F64.mul, sign_round]
  cases neg <;> rfl

/-- A case: `2^64 - 1` decodes to `-1`. -/
example : (realP noLib).parseBer
    (Input.fromSlice [9, 10, 0x80, 0, 0xff, 0xff, 0xff, 0xff, 0xff, 0xff, 0xff, 0xff]) =
      .ok (⟨[], 12, 12⟩, .binary (.fin true 1 0) 2 0 2) := by decide +kernel

/-- **C72** Deviations: the form of X.690 8.5.7.4 d (the number of exponent octets in the second octet) is
read as an exponent of four octets (5 becomes `5 * 2^(2^24)`), or is refused; bits that X.690 reserves are
not looked at (`05` as NR1); NR1 refuses negative numbers. -/
theorem C72_deviations :
    LongForm [0x83, 1, 0, 0, 0, 5] false 5 0 1 0 3 ∧
    (realP noLib).parseBer (Input.fromSlice [9, 6, 0x83, 1, 0, 0, 0, 5]) =
      .ok (⟨[], 8, 8⟩, .binary (.fin false 5 0) 2 16777216 2) ∧
    LongForm [0x83, 1, 0, 5] false 5 0 1 0 1 ∧
    (realP noLib).parseBer (Input.fromSlice [9, 4, 0x83, 1, 0, 5]) =
      nomErr ⟨[0x83, 1, 0, 5], 2, 6⟩ (.invalidValue 9 "Invalid float value(exponent)") ∧
    (realP noLib).parseBer (Input.fromSlice [9, 2, 0x05, 0x37]) =
      .ok (⟨[], 4, 4⟩, .binary (.fin false 7 0) 10 0 10) ∧
    (realP noLib).parseBer (Input.fromSlice [9, 3, 0x01, 0x2d, 0x37]) =
      nomErr ⟨[0x01, 0x2d, 0x37], 2, 5⟩ (.invalidValue 9 "Invalid float string encoding") :=
  ⟨⟨0, 0x83, 1, [0], [0, 0, 5], rfl, by decide, Or.inl ⟨rfl, rfl⟩, by decide, by decide, by decide,
      by decide, by decide, by decide, rfl⟩, by decide +kernel,
   ⟨0, 0x83, 1, [0], [5], rfl, by decide, Or.inl ⟨rfl, rfl⟩, by decide, by decide, by decide,
      by decide, by decide, by decide, rfl⟩, by decide +kernel, by decide +kernel, by decide +kernel⟩

end Asn1

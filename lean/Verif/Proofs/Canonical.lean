import Verif.Spec.Canonical
import Verif.Proofs.TwoWay
import Verif.Props.DerTree
/-!
# Canonical input is restored
-/
namespace Asn1
open Spec Wr

variable {α β : Type}

/-- What holds of every type: a decoded value is encoded in the canonical way, and if it was read from canonical
input, this is what was read. -/
structure Faithful (t : ToBer α) (pd : Parser β) (rep : β → α) (Ok : β → Prop)
    (F : β → Class × Bool × Nat → Bytes → Prop) : Prop where
  accepts : ∀ w id cs, F w id cs → pd.acceptTag id.2.2 = true
  value : ∀ h i x w, Consistent h i → i.data.length < 2 ^ 64 → pd.content h i = .ok (x, w) → Ok w →
    ∃ cs, Encodes t (rep w) cs ∧ cs.length < 2 ^ 24 ∧ F w (t.tagInfo (rep w)) cs ∧
      ∀ id, F w id i.data → id = t.tagInfo (rep w) ∧ i.data = cs

theorem lt64_of_lt24 {n : Nat} (h : n < 2 ^ 24) : n < 2 ^ 64 := by
  have e24 : (2 : Nat) ^ 24 = 16777216 := by decide
  have e64 : (2 : Nat) ^ 64 = 18446744073709551616 := by decide
  omega

theorem oneObject_full {F : Class × Bool × Nat → Bytes → Prop} {c : Class} {p : Bool} {tag : Nat} {cs : Bytes}
    (htag : tag < 2 ^ 32) (hs : cs.length < 2 ^ 64) (h : F (c, p, tag) cs) : OneObject F (full c p tag cs) :=
  ⟨c, p, tag, _, _, cs, htag, identOctets_x690 c p htag, lenOctets_der hs, rfl, h⟩

theorem oneObject_eq {F : Class × Bool × Nat → Bytes → Prop} {bs : Bytes} (h : OneObject F bs)
    (hs : bs.length < 2 ^ 64) :
    ∃ c p tag cs, bs = full c p tag cs ∧ tag < 2 ^ 32 ∧ cs.length < 2 ^ 64 ∧ F (c, p, tag) cs := by
  obtain ⟨c, p, tag, id, len, cs, htag, hi, hl, rfl, hf⟩ := h
  simp only [List.length_append] at hs
  have h64 : cs.length < 2 ^ 64 := by omega
  refine ⟨c, p, tag, cs, ?_, htag, h64, hf⟩
  rw [x690_unique hi (identOctets_x690 c p htag), derLen_unique hl (lenOctets_der h64)]
  rfl

/-- A canonical object at the start of an input is what the generic parser finds there. -/
theorem oneObject_any {F : Class × Bool × Nat → Bytes → Prop} {b rest : Bytes} {i r : Input} {a : Any}
    (hi : i.data = b ++ rest) (hb : i.data.length < 2 ^ 64) (h : OneObject F b)
    (hp : parseDerAny i = .ok (r, a)) :
    F (a.header.cls, a.header.constructed, a.header.tag) a.data.data ∧ r.data = rest ∧
      b = full a.header.cls a.header.constructed a.header.tag a.data.data ∧ a.header.tag < 2 ^ 32 := by
  obtain ⟨c, p, tag, cs, rfl, htag, h64, hf⟩ := oneObject_eq h (by rw [hi, List.length_append] at hb; omega)
  have := parseDerAny_full i c p tag cs rest htag h64 hi
  rw [hp] at this
  injection this with this
  injection this with e1 e2
  subst e1; subst e2
  have e : (first (after i ((full c p tag cs).length - cs.length)) cs.length).data = cs := by
    rw [first_data, full_content i c p tag cs _ hi]; simp
  rw [e]
  refine ⟨hf, ?_, rfl, htag⟩
  rw [after_data, hi, List.drop_left' rfl]

theorem oneObject_ne_nil {F : Class × Bool × Nat → Bytes → Prop} {b : Bytes} (h : OneObject F b) : b ≠ [] := by
  obtain ⟨c, p, tag, id, len, cs, htag, hi, hl, rfl, hf⟩ := h
  rw [x690_unique hi (identOctets_x690 c p htag)]
  rcases (writeTag_spec c p tag htag).2 with ⟨_, b, e, _⟩ | ⟨_, b, hi, last, e, _⟩ <;>
    · intro h
      rw [e] at h
      simp at h

theorem der_shorter {i r : Input} {a : Any} (h : parseDerAny i = .ok (r, a)) :
    a.data.data.length ≤ i.data.length ∧ r.data.length ≤ i.data.length := by
  obtain ⟨r1, n, h1, _, _, h4, h5⟩ := parseDerAny_ok.mp h
  obtain ⟨_, _, _, _, h6, _⟩ := parseHeader_ok.mp h1
  have : r1.data.length ≤ i.data.length := by rw [h6]; simp only [List.length_append]; omega
  rw [h4, h5, first_data, after_data]
  simp only [List.length_take, List.length_drop]
  omega

/-- One complete object. -/
structure FaithfulObject (t : ToBer α) (v : α) (G : Bytes → Prop) (i r : Input) (bs : Bytes) : Prop where
  exact : Exact t v bs
  form : G bs
  same : ∀ b rest, i.data = b ++ rest → G b → b = bs ∧ r.data = rest

namespace Faithful
variable {t : ToBer α} {pd : Parser β} {rep : β → α} {Ok : β → Prop}
  {F : β → Class × Bool × Nat → Bytes → Prop}

theorem parse (ih : Faithful t pd rep Ok F) {i r : Input} {w : β} (hb : i.data.length < 2 ^ 64)
    (hp : pd.parseDer i = .ok (r, w)) (hw : Ok w) :
    ∃ cs, Encodes t (rep w) cs ∧ cs.length < 2 ^ 24 ∧
      FaithfulObject t (rep w) (OneObject (F w)) i r (t.fullOf (rep w) cs) := by
  obtain ⟨a, x, h1, _, h3⟩ := parseDer_ok.mp hp
  obtain ⟨cs, g1, g2, g3, g4⟩ := ih.value _ _ _ _ (consistent_der h1)
    (Nat.lt_of_le_of_lt (der_shorter h1).1 hb) h3 hw
  have h64 := lt64_of_lt24 g2
  refine ⟨cs, g1, g2, ⟨g1.encode h64, g1.totalLen g2⟩, oneObject_full g1.tag h64 g3, fun b rest hi ho => ?_⟩
  obtain ⟨k1, k2, k3, _⟩ := oneObject_any hi hb ho h1
  obtain ⟨k5, k6⟩ := g4 _ k1
  refine ⟨?_, k2⟩
  rw [k3, k6]
  show _ = full (t.tagInfo (rep w)).1 (t.tagInfo (rep w)).2.1 (t.tagInfo (rep w)).2.2 cs
  rw [← k5]

theorem repeats (ih : Faithful t pd rep Ok F) {i e : Input} {ws : List β} (hb : i.data.length < 2 ^ 64)
    (hp : Repeats pd.parseDer i ws e) (hw : ∀ w ∈ ws, Ok w) :
    ∃ bss, Pointwise (Exact t) (ws.map rep) bss ∧ OneEach F ws bss.flatten ∧
      (OneEach F ws i.data → i.data = bss.flatten) := by
  induction hp with
  | nil h => exact ⟨[], .nil, rfl, fun _ => h⟩
  | @cons i r e w ws _ h1 _ iht =>
    obtain ⟨cs, _, _, g⟩ := ih.parse hb h1 (hw _ (by simp))
    obtain ⟨a, x, k1, _, _⟩ := parseDer_ok.mp h1
    obtain ⟨bss, h2, h3, h4⟩ := iht (Nat.lt_of_le_of_lt (der_shorter k1).2 hb) fun u hu => hw u (by simp [hu])
    refine ⟨_ :: bss, .cons g.exact h2, ⟨_, bss.flatten, rfl, g.form, h3⟩, ?_⟩
    rintro ⟨b, rest, e1, e2, e3⟩
    obtain ⟨e4, e5⟩ := g.same b rest e1 e2
    rw [← e5] at e3
    rw [e1, e4, List.flatten_cons, ← h4 e3, e5]

end Faithful

/-! ### Universal types -/

theorem works_reads {c : Codec α} {v : α} {cs : Bytes} (h : Works c v cs) :
    ∃ hd i x, Consistent hd i ∧ hd.constructed = false ∧ i.data = cs ∧ c.der.content hd i = .ok (x, v) := by
  obtain ⟨x, hx⟩ := h.der (Header.new .universal false 0 (.definite cs.length)) (.fromSlice cs) rfl rfl rfl
  refine ⟨_, _, x, ⟨fun n hn => ?_, fun _ => rfl⟩, rfl, rfl, hx⟩
  injection hn with hn
  exact hn.symm

theorem utf16_even (s : Text) : (utf16be s).length % 2 = 0 := by
  rw [← unitBytes_utf16]
  generalize Text.utf16 s = l
  induction l with
  | nil => rfl
  | cons n l ih =>
    have : (unitBytes (n :: l)).length = (unitBytes l).length + 2 := by simp [unitBytes]
    omega

theorem zone_one {z : Bytes} {tz : TimeZone} (h : ZoneText z tz) (hl : z.length = 1) : z = ascii "Z" := by
  cases h with
  | z => rfl
  | plus => simp [two, ascii] at hl
  | minus => simp [two, ascii] at hl

/-- Big-endian numbers with no leading zero octet. -/
theorem lead_unique {x y : Bytes} (hx : x.head? ≠ some 0) (hy : y.head? ≠ some 0) (h : beNat x = beNat y) : x = y := by
  refine beNat_inj (Nat.le_antisymm ?_ ?_) h
  · exact lead_length hx (h ▸ beNat_lt y)
  · exact lead_length hy (h.symm ▸ beNat_lt x)

/-- A number has one binary form in DER. -/
theorem derBinary_unique {cs cs' : Bytes} {neg : Bool} {N : Nat} {E : Int} (h : DerBinary cs neg N E)
    (h' : DerBinary cs' neg N E) : cs = cs' := by
  obtain ⟨exp, mant, ⟨f, a1, a2, _⟩, _, a3, a4, a5, _, a6⟩ := h
  obtain ⟨exp', mant', ⟨f', b1, b2, _⟩, _, b3, b4, b5, _, b6⟩ := h'
  have e1 : exp = exp' := minimal_unique a3 b3 (a4.symm.trans b4)
  have e2 : mant = mant' := lead_unique a6 b6 (a5.symm.trans b5)
  subst e1 e2
  rw [a1, b1, UInt8.toNat_inj.mp (a2.trans b2.symm)]

/-- What is decoded from the binary form of DER. -/
theorem derBinary_value (lib : FloatLib) {cs : Bytes} {neg : Bool} {N : Nat} {E : Int} {w : Real} (h : DerBinary cs neg N E)
    (h53 : N < 2 ^ 53) (hc : RealContent lib cs w) : w = .binary (.fin neg N 0) 2 E 2 := by
  obtain ⟨exp, mant, ⟨f, a1, a2, _, _, a7, a8, a9⟩, hl, a3, a4, a5, ho, a6⟩ := h
  have hf : 128 ≤ f.toNat := by omega
  cases hc with
  | zero => simp at a1
  | infinity => injection a1 with e1 _; rw [← e1] at hf; exact absurd hf (by decide)
  | negInfinity => injection a1 with e1 _; rw [← e1] at hf; exact absurd hf (by decide)
  | nan => injection a1 with e1 _; rw [← e1] at hf; exact absurd hf (by decide)
  | nr1 h1 => injection a1 with e1 _; rw [e1] at h1; omega
  | nr23 h1 => injection a1 with e1 _; rw [e1] at h1; omega
  | @binary _ exp' mant' neg' b F k hb hk _ _ _ =>
    obtain ⟨f', b1, b2, b3, b4, b5, b6, _⟩ := hb
    rw [a1] at b1
    injection b1 with b1 b7
    subst b1
    have e0 : neg' = neg ∧ b = 0 ∧ F = 0 ∧ exp'.length = exp.length := by
      cases neg <;> cases neg' <;> simp at a2 b2 ⊢ <;> omega
    obtain ⟨rfl, rfl, rfl, e3⟩ := e0
    obtain ⟨rfl, rfl⟩ := List.append_inj b7 e3.symm
    have hk1 : k = 1 := by
      rcases hk with ⟨_, h⟩ | ⟨h, _⟩ | ⟨h, _⟩
      · exact h
      · omega
      · omega
    subst hk1
    rw [← a5, mantissa_odd ho h53 (by decide), ← a4]
    simp

/-- The values that decode to themselves are encoded in the canonical way. -/
theorem real_canonical (lib : FloatLib) {r : Real} (h : RealValue r) : ∃ cs, Encodes (realToBer lib) r cs ∧
    RealContent lib cs r ∧ CanonReal cs := by
  obtain ⟨cs, h1, h2, h3⟩ := real_value lib h
  have key : ∀ neg n E, r = .binary (.fin neg n 0) 2 E 2 → DerBinary cs neg n E ∧ n < 2 ^ 53 := by
    intro neg n E e
    cases h with
    | @binary neg' n' E' ho h53 hE =>
      injection e with e1 _ e2 _
      injection e1 with e1 e3 _
      subst e1 e3 e2
      refine ⟨?_, h53⟩
      have hlog : n'.log2 < 53 := (Nat.log2_lt (by omega)).mpr h53
      have hE' := expFits_bytes hE
      have e31 : (2 : Nat) ^ 31 = 2147483648 := by decide
      have e24 : (2 : Nat) ^ 24 = 16777216 := by decide
      have e53 : (2 : Nat) ^ 53 = 9007199254740992 := by decide
      have e64 : (2 : Nat) ^ 64 = 18446744073709551616 := by decide
      have hv : F64Valid (.fin neg' n' 0) := .inr ⟨ho, h53, by omega, by omega⟩
      have hg : F64.gtEpsilon (.fin neg' n' 0) = true := by
        simp only [F64.gtEpsilon]
        rw [if_pos (by decide)]
        have : (2 : Nat) ^ ((0 : Int) + 52).toNat = 4503599627370496 := by decide
        rw [this, decide_eq_true_eq]
        omega
      obtain ⟨cs', _, g1, _, _, g2⟩ := C73_real_roundtrip_partial lib (neg := neg') (n := n') (x := 0) (e := E') hv hg
        (by rw [Int.toNat_zero, Nat.pow_zero, Nat.mul_one]; omega) ((inInt4 _).mpr (by rw [e31] at hE'; omega))
        (by unfold ExpFits at hE; rw [Int.add_zero, e24]; omega)
      rw [Int.add_zero] at g2
      rw [h1.toVec (by omega)] at g1
      have g3 := (congrArg Except.ok (full_short false (by decide : (9 : Nat) < 31) h3)).symm.trans g1
      injection g3 with g3
      injection g3 with _ g3
      injection g3 with _ g3
      rw [g3]
      exact g2 hE
    | _ => cases e
  cases h with
  | binary ho h53 hE => exact ⟨cs, h1, h2, .inr (.inr (.inr (.inr ⟨_, _, _, key _ _ _ rfl⟩)))⟩
  | zero => exact ⟨[], realWrite_special (by simp), .zero, .inl rfl⟩
  | infinity => exact ⟨[0x40], realWrite_special (by simp), .infinity, .inr (.inl rfl)⟩
  | negInfinity => exact ⟨[0x41], realWrite_special (by simp), .negInfinity, .inr (.inr (.inl rfl))⟩
  | nan => exact ⟨[0x42], realWrite_special (by simp), .nan, .inr (.inr (.inr (.inl rfl)))⟩

/-- What is decoded from canonical contents. -/
theorem canonReal_value (lib : FloatLib) {cs : Bytes} {w : Real} (h : CanonReal cs) (hc : RealContent lib cs w) :
    (cs = [] ∧ w = .zero) ∨ (cs = [0x40] ∧ w = .infinity) ∨ (cs = [0x41] ∧ w = .negInfinity) ∨
      (cs = [0x42] ∧ w = .nan) ∨ ∃ neg N E, DerBinary cs neg N E ∧ w = .binary (.fin neg N 0) 2 E 2 := by
  have hb : ∀ {x : UInt8} {neg b F exp mant}, x.toNat < 128 → ¬ BinaryFields [x] neg b F exp mant := by
    rintro x neg b F exp mant hx ⟨f, a1, a2, _⟩
    injection a1 with a1
    rw [← a1] at a2
    omega
  rcases h with rfl | rfl | rfl | rfl | ⟨neg, N, E, h1, h2⟩
  · cases hc with
    | zero => exact .inl ⟨rfl, rfl⟩
    | binary h => obtain ⟨_, h, _⟩ := h; simp at h
  · cases hc with
    | infinity => exact .inr (.inl ⟨rfl, rfl⟩)
    | binary h => exact absurd h (hb (by decide))
    | nr1 h1 => exact absurd h1 (by decide)
    | nr23 h1 => exact absurd h1 (by decide)
  · cases hc with
    | negInfinity => exact .inr (.inr (.inl ⟨rfl, rfl⟩))
    | binary h => exact absurd h (hb (by decide))
    | nr1 h1 => exact absurd h1 (by decide)
    | nr23 h1 => exact absurd h1 (by decide)
  · cases hc with
    | nan => exact .inr (.inr (.inr (.inl ⟨rfl, rfl⟩)))
    | binary h => exact absurd h (hb (by decide))
    | nr1 h1 => exact absurd h1 (by decide)
    | nr23 h1 => exact absurd h1 (by decide)
  · exact .inr (.inr (.inr (.inr ⟨neg, N, E, h1, derBinary_value lib h1 h2 hc⟩)))

/-- A value is decoded from at most one canonical content. -/
theorem canonReal_unique (lib : FloatLib) {cs cs' : Bytes} {w : Real} (h : CanonReal cs) (hc : RealContent lib cs w)
    (h' : CanonReal cs') (hc' : RealContent lib cs' w) : cs = cs' := by
  rcases canonReal_value lib h hc with ⟨rfl, rfl⟩ | ⟨rfl, rfl⟩ | ⟨rfl, rfl⟩ | ⟨rfl, rfl⟩ | ⟨neg, N, E, a, rfl⟩ <;>
  rcases canonReal_value lib h' hc' with ⟨e1, e2⟩ | ⟨e1, e2⟩ | ⟨e1, e2⟩ | ⟨e1, e2⟩ | ⟨neg', N', E', a', e2⟩ <;>
  first
  | exact e1.symm
  | (cases e2; done)
  | (injection e2 with e3 _ e4 _
     injection e3 with e3 e5 _
     subst e3 e4 e5
     exact derBinary_unique a a')

theorem leaf_value {c : Codec α} {Ok : α → Prop} {K : Bytes → Prop} (hc : CanonLeaf c Ok K) {h : Header} {i x : Input}
    {w : α} (hh : Consistent h i) (hp : c.der.content h i = .ok (x, w)) (hw : Ok w) :
    ∃ cs, Encodes c.enc w cs ∧ K cs ∧ (K i.data → i.data = cs) := by
  cases hc with
  | uint N hN =>
    obtain ⟨h1, _, h3, h4, _⟩ := (uintDer_content hN.1).mp hp
    rw [← h4] at h3
    obtain ⟨cs, hk, _⟩ := universal_works (.uint N hN (v := w) (by unfold InUint at h3; exact Int.ofNat_lt.mp h3.2))
    obtain ⟨_, _, _, _, _, rfl, g⟩ := works_reads hk
    obtain ⟨g1, _, _, g4, _⟩ := (uintDer_content hN.1).mp g
    exact ⟨_, hk.enc, trivial, fun _ => minimal_unique h1 g1 (h4.symm.trans g4)⟩
  | int N hN =>
    obtain ⟨h1, _, h3, h4, _⟩ := (intDer_content hN.1).mp hp
    obtain ⟨cs, hk, _⟩ := universal_works (.int N hN (v := w) h3)
    obtain ⟨_, _, _, _, _, rfl, g⟩ := works_reads hk
    obtain ⟨g1, _, _, g4, _⟩ := (intDer_content hN.1).mp g
    exact ⟨_, hk.enc, trivial, fun _ => minimal_unique h1 g1 (h4.symm.trans g4)⟩
  | integer =>
    obtain ⟨d⟩ := w
    obtain ⟨_, h1, h2⟩ := bind_eq_ok.mp (show (checkDerIntInput i >>= fun _ => integerContent h i) = _ from hp)
    have hc : h.constructed = false := by
      obtain ⟨_, h3, _⟩ := bind_eq_ok.mp h2
      exact assertPrimitive_ok.mp h3
    have := (integerContent_ok (hh.2 hc)).mp h2
    have hd : MinimalInt d := by rw [this.2.1]; exact checkDerIntInput_ok.mp h1
    exact ⟨_, (integer_works hd).enc, trivial, fun _ => this.2.1.symm⟩
  | bool =>
    obtain ⟨b, h1, rfl⟩ := map_content.mp hp
    obtain ⟨h2, h3⟩ := booleanDerContent_ok.mp h1
    obtain ⟨h4, h5, h6, _⟩ := booleanContent_ok.mp h2
    refine ⟨_, (bool_works _).enc, trivial, fun _ => ?_⟩
    have h7 : x.data = [] := by
      have := hh.1 _ h5
      rw [h6] at this
      exact List.eq_nil_of_length_eq_zero (by simpa using this.symm)
    rw [h6, h7]
    rcases h3 with rfl | rfl <;> rfl
  | null =>
    obtain ⟨h1, h2, _⟩ := nullContent_ok.mp hp
    refine ⟨[], null_encodes, trivial, fun _ => ?_⟩
    have := hh.1 _ h2
    exact List.eq_nil_of_length_eq_zero this.symm
  | enumerated =>
    obtain ⟨h1, _, h3, h4, _⟩ := (uintDer_content (by decide)).mp (enumDer_content.mp hp)
    rw [← h4] at h3
    have h5 : w < 2 ^ 32 := by
      unfold InUint at h3
      have := Int.ofNat_lt.mp h3.2
      simpa using this
    obtain ⟨cs, hk, _⟩ := universal_works (.enumerated h5)
    obtain ⟨_, _, _, _, _, rfl, g⟩ := works_reads hk
    obtain ⟨g1, _, _, g4, _⟩ := (uintDer_content (by decide)).mp (enumDer_content.mp g)
    exact ⟨_, hk.enc, trivial, fun _ => minimal_unique h1 g1 (h4.symm.trans g4)⟩
  | octetString =>
    obtain ⟨_, _, rfl⟩ := octetDer_content.mp hp
    exact ⟨_, (octet_works _).enc, trivial, fun _ => rfl⟩
  | bitString =>
    obtain ⟨_, h1, h2⟩ := bind_eq_ok.mp (show (h.assertPrimitive i >>= fun _ => bitContent h i) = _ from hp)
    have hc := assertPrimitive_ok.mp h1
    obtain ⟨_, h3⟩ := (bitContent_prim hc (hh.2 hc)).mp h2
    obtain ⟨_, h4, h5⟩ := bitLeaf_bits h3
    exact ⟨_, bit_encodes w h4, trivial, fun _ => h5.symm⟩
  | oid =>
    obtain ⟨_, h1, rfl, _⟩ := oidContent_ok.mp hp
    exact ⟨_, (oid_works ⟨i.data, false⟩ h1 rfl).enc, trivial, fun _ => rfl⟩
  | utcTime =>
    obtain ⟨_, _, h3⟩ := utcDer_content.mp hp
    refine ⟨_, utc_encodes (twoDigits_of h3.year h3.range), rfl, fun hl => ?_⟩
    rcases h3.text with ⟨e, _⟩ | ⟨zone, e, hz⟩
    · rw [e] at hl
      simp [two, monthToMinute, ascii] at hl
    · rw [e] at hl ⊢
      have : zone.length = 1 := by simp [two, monthToMinute] at hl; omega
      rw [zone_one hz this]
      rfl
  | generalizedTime =>
    have hm : w.millisecond = none := hw
    obtain ⟨_, _, h3, _⟩ := genDer_content.mp hp
    refine ⟨_, gen_encodes (fourDigits_of h3.year h3.range), ?_, fun hl => ?_⟩
    · show (genContentOf w).length = 15
      rw [genContentOf_length, genLen_eq, hm]; rfl
    · rcases h3.text with ⟨e, _⟩ | ⟨frac, zone, e, hf, hz⟩
      · rw [e] at hl
        simp [two, four, monthToMinute, ascii] at hl
      · have hn : frac = [] := by
          rw [hm] at hf
          cases hf with
          | none => rfl
        subst hn
        have hz1 : zone.length = 1 := by rw [e] at hl; simp [two, four, monthToMinute] at hl; omega
        rw [e]
        unfold genContentOf
        rw [hm]
        rcases hz with hz | ⟨hz, _⟩
        · rw [zone_one hz hz1]
          rfl
        · rw [hz] at hz1; simp at hz1
  | text hk =>
    obtain ⟨_, h1, h2⟩ := (strDer_contents hk h i w hh).mp ⟨x, hp⟩
    exact ⟨_, (text_works hk h2).enc, trivial, fun _ => h1⟩
  | refStr =>
    obtain ⟨_, h1⟩ := (refStrDer_contents h i w hh).mp ⟨x, hp⟩
    exact ⟨_, (refStr_works _).enc, trivial, fun _ => h1⟩
  | string =>
    obtain ⟨_, h1⟩ := (refStrDer_contents h i w hh).mp ⟨x, hp⟩
    exact ⟨_, (string_works _).enc, trivial, fun _ => h1⟩
  | bmpString =>
    obtain ⟨_, h1, h2⟩ := (bmpDer_contents h i w hh).mp ⟨x, hp⟩
    refine ⟨_, bmp_encodes w, utf16_even w, fun hl => ?_⟩
    rcases h2 with h2 | ⟨s, a, _, h2⟩
    · exact h2
    · rw [h2, List.length_append] at hl
      have := utf16_even s
      simp at hl
      omega
  | universalString =>
    obtain ⟨_, _, h2⟩ := (univDer_contents h i w hh).mp ⟨x, hp⟩
    exact ⟨_, univ_encodes hw, trivial, fun _ => h2⟩
  | real lib =>
    obtain ⟨_, h1⟩ := (real_contents lib h i w hh).mp ⟨x, hp⟩
    obtain ⟨cs, g1, g2, g3⟩ := real_canonical lib hw
    exact ⟨cs, g1, g3, fun hk => canonReal_unique lib hk h1 g3 g2⟩

theorem leaf_info {c : Codec α} {Ok : α → Prop} {K : Bytes → Prop} (hc : CanonLeaf c Ok K) {h : Header} {i x : Input}
    {w : α} (hp : c.der.content h i = .ok (x, w)) : c.enc.tagInfo w = (.universal, false, c.tag) := by
  cases hc with
  | oid =>
    obtain ⟨_, _, rfl, _⟩ := oidContent_ok.mp hp
    rfl
  | _ => rfl

theorem leaf_accepts {c : Codec α} {Ok : α → Prop} {K : Bytes → Prop} (hc : CanonLeaf c Ok K) :
    c.der.acceptTag c.tag = true := by
  cases hc with
  | text => exact tagIs_iff.mpr rfl
  | _ => rfl

theorem faithful_leaf {c : Codec α} {Ok : α → Prop} {K : Bytes → Prop} (hc : CanonLeaf c Ok K) :
    Faithful c.enc c.der id (fun v => Ok v ∧ SmallContent c.enc v) fun _ id cs =>
      id = (.universal, false, c.tag) ∧ K cs := by
  refine ⟨?_, fun h i x w hh _ hp hw => ?_⟩
  · rintro _ _ _ ⟨rfl, _⟩
    exact leaf_accepts hc
  · obtain ⟨cs, h1, h2, h3⟩ := leaf_value hc hh hp hw.1
    have h4 := leaf_info hc hp
    exact ⟨cs, h1, small_of h1.len hw.2, ⟨h4, h2⟩, fun _ hf => ⟨hf.1.trans h4.symm, h3 hf.2⟩⟩

theorem faithful_any : Faithful anyToBer anyDer id (fun a => a.header.tag < 2 ^ 32 ∧ SmallContent anyToBer a)
    fun a id _ => id = (a.header.cls, a.header.constructed, a.header.tag) := by
  refine ⟨fun _ _ _ _ => rfl, fun h i x w hh _ hp hw => ?_⟩
  have he := any_encodes w hw.1
  refine ⟨_, he, small_of he.len hw.2, rfl, fun id hf => ⟨hf, ?_⟩⟩
  have hp : (derContent h i >>= fun z => (pure (z.1, Any.mk h z.2) : PRes Any)) = .ok (x, w) := hp
  obtain ⟨n, hl⟩ : ∃ n, h.length = .definite n := by
    cases hl : h.length with
    | definite n => exact ⟨n, rfl⟩
    | indefinite => rw [derContent, hl] at hp; simp [nomErr] at hp
  rw [derContent_all (by rw [hl, hh.1 _ hl])] at hp
  injection hp with hp
  injection hp with _ hp
  rw [← hp]
  simp [first_data]

/-! ### Containers -/

section
variable {t : ToBer α} {pd : Parser β} {rep : β → α} {Ok : β → Prop}
  {F : β → Class × Bool × Nat → Bytes → Prop}

theorem faithful_list (ih : Faithful t pd rep Ok F) {tag : Nat} (htag : tag < 2 ^ 32) {i e : Input} {ws : List β}
    (hb : i.data.length < 2 ^ 64) (hp : Repeats pd.parseDer i ws e)
    (hw : (∀ w ∈ ws, Ok w) ∧ SmallContent (listToBer tag t) (ws.map rep)) :
    ∃ cs, Encodes (listToBer tag t) (ws.map rep) cs ∧ cs.length < 2 ^ 24 ∧ OneEach F ws cs ∧
      (OneEach F ws i.data → i.data = cs) := by
  obtain ⟨bss, h1, h2, h3⟩ := ih.repeats hb hp hw.1
  have he := list_encodes htag h1
  exact ⟨_, he, small_of he.len hw.2, h2, h3⟩

theorem faithful_vec (ih : Faithful t pd rep Ok F) :
    Faithful (listToBer 16 t) (vecDer pd) (List.map rep)
      (fun ws => (∀ w ∈ ws, Ok w) ∧ SmallContent (listToBer 16 t) (ws.map rep)) fun ws id cs =>
      id = (.universal, true, 16) ∧ OneEach F ws cs := by
  refine ⟨by rintro _ _ _ ⟨rfl, _⟩; rfl, fun h i x w _ hb hp hw => ?_⟩
  obtain ⟨cs, h1, h2, h3, h4⟩ := faithful_list ih (by decide) hb (vecDer_content.mp hp).2 hw
  exact ⟨cs, h1, h2, ⟨rfl, h3⟩, fun _ hf => ⟨hf.1, h4 hf.2⟩⟩

theorem faithful_sequenceOf (ih : Faithful t pd rep Ok F) :
    Faithful (listToBer 16 t) (sequenceOfP anyDer.parseDer pd) (fun s => s.items.map rep)
      (fun s => (∀ w ∈ s.items, Ok w) ∧ SmallContent (listToBer 16 t) (s.items.map rep)) fun s id cs =>
      id = (.universal, true, 16) ∧ OneEach F s.items cs := by
  refine ⟨by rintro _ _ _ ⟨rfl, _⟩; rfl, fun h i x w _ hb hp hw => ?_⟩
  rw [sequenceOf_map] at hp
  obtain ⟨v, hq, rfl⟩ := map_content.mp hp
  obtain ⟨cs, h1, h2, h3, h4⟩ := faithful_list ih (by decide) hb (vecDer_content.mp hq).2 hw
  exact ⟨cs, h1, h2, ⟨rfl, h3⟩, fun _ hf => ⟨hf.1, h4 hf.2⟩⟩

theorem faithful_setOf (ih : Faithful t pd rep Ok F) :
    Faithful (listToBer 17 t) (setOfP anyDer.parseDer pd) (fun s => s.items.map rep)
      (fun s => (∀ w ∈ s.items, Ok w) ∧ SmallContent (listToBer 17 t) (s.items.map rep)) fun s id cs =>
      id = (.universal, true, 17) ∧ OneEach F s.items cs := by
  refine ⟨by rintro _ _ _ ⟨rfl, _⟩; rfl, fun h i x w _ hb hp hw => ?_⟩
  obtain ⟨v, hq, rfl⟩ := map_content.mp hp
  obtain ⟨cs, h1, h2, h3, h4⟩ := faithful_list ih (by decide) hb (setItemsDer_content.mp hq).2 hw
  exact ⟨cs, h1, h2, ⟨rfl, h3⟩, fun _ hf => ⟨hf.1, h4 hf.2⟩⟩

theorem faithful_members {pd : Parser α} {Ok : α → Prop} {F : α → Class × Bool × Nat → Bytes → Prop}
    (ih : Faithful t pd id Ok F)
    (hb : ∀ i r w, pd.parseDer i = .ok (r, w) → Ok w → InputBack t pd.parseDer w w) {ws : List α}
    (hp : ∀ w ∈ ws, ∃ i r, i.data.length < 2 ^ 64 ∧ pd.parseDer i = .ok (r, w)) (hw : ∀ w ∈ ws, Ok w) :
    ∃ bss, Pointwise (Exact t) ws bss ∧ OneForEach pd F ws bss.flatten ∧
      ∀ d, d.length < 2 ^ 64 → OneForEach pd F ws d → d = bss.flatten := by
  induction ws with
  | nil => exact ⟨[], .nil, rfl, fun _ _ h => h⟩
  | cons w ws iht =>
    obtain ⟨bss, h1, h2, h3⟩ := iht (fun u hu => hp u (by simp [hu])) fun u hu => hw u (by simp [hu])
    obtain ⟨i, r, hl, hi⟩ := hp w (by simp)
    have hok := hw w (by simp)
    obtain ⟨cs, g1, g2, g⟩ := ih.parse hl hi hok
    obtain ⟨bs, k1, k2⟩ := hb i r w hi hok
    have hv : t.toVec w = .ok (t.fullOf w cs) := g1.toVec (lt64_of_lt24 g2)
    rw [hv] at k1
    have k3 := Except.ok.inj k1
    subst k3
    refine ⟨_ :: bss, .cons g.exact h1, ⟨_, bss.flatten, rfl, g.form, ⟨.fromSlice (t.fullOf w cs), _, rfl,
      k2 [] _ (by simp [Input.fromSlice])⟩, h2⟩, ?_⟩
    rintro d hd ⟨b, rest, e1, e2, ⟨j, r', e3, e4⟩, e5⟩
    have hd' := hd
    rw [e1, List.length_append] at hd'
    obtain ⟨cs', g1', _, g'⟩ := ih.parse (by rw [e3]; omega) e4 hok
    have : cs' = cs := congrArg Prod.fst (g1'.content.symm.trans g1.content)
    subst this
    rw [e1, (g'.same b [] (by rw [e3]; simp) e2).1, List.flatten_cons, ← h3 rest (by omega) e5]

theorem repeats_sub {f : Parser α} {i e : Input} {ws : List α} (h : Repeats f.parseDer i ws e)
    (hb : i.data.length < 2 ^ 64) : ∀ w ∈ ws, ∃ i r, i.data.length < 2 ^ 64 ∧ f.parseDer i = .ok (r, w) := by
  induction h with
  | nil => simp
  | @cons i r e w ws _ h1 _ iht =>
    obtain ⟨a, x, k1, _, _⟩ := parseDer_ok.mp h1
    intro u hu
    rcases List.mem_cons.mp hu with rfl | hu
    · exact ⟨i, r, hb, h1⟩
    · exact iht (Nat.lt_of_le_of_lt (der_shorter k1).2 hb) u hu

theorem faithful_set {σ : Type} {pd : Parser α} {Ok : α → Prop} {F : α → Class × Bool × Nat → Bytes → Prop}
    (S : SetImpl α σ) (ih : Faithful t pd id Ok F)
    (hb : ∀ i r w, pd.parseDer i = .ok (r, w) → Ok w → InputBack t pd.parseDer w w) :
    Faithful (setToBer S t) (setP S anyDer.parseDer pd) id
      (fun s => (∀ w ∈ S.toList s, Ok w) ∧ SmallContent (setToBer S t) s) fun s id cs =>
      id = (.universal, true, 17) ∧ OneForEach pd F (S.toList s) cs := by
  refine ⟨by rintro _ _ _ ⟨rfl, _⟩; rfl, fun h i x s _ hl hp hw => ?_⟩
  obtain ⟨ws, hq, rfl⟩ := map_content.mp hp
  have h0 := repeats_sub (setItemsDer_content.mp hq).2 hl
  obtain ⟨bss, h1, h2, h3⟩ := faithful_members ih hb (fun w hw => h0 w ((S.mem ws w).mp hw)) hw.1
  have he := list_encodes (tag := 17) (by decide) h1
  have he' : Encodes (setToBer S t) (S.ofList ws) bss.flatten := ⟨he.content, he.len, he.tag, rfl⟩
  exact ⟨_, he', small_of he'.len hw.2, ⟨rfl, h2⟩, fun _ hf => ⟨hf.1, h3 _ hl hf.2⟩⟩

theorem faithful_array (N : Nat) (ih : Faithful t pd rep Ok F) :
    Faithful (arrayToBer N t) (arrayP N anyDer.parseDer pd)
      (fun w => ⟨w.val.map rep, by rw [List.length_map, w.property]⟩)
      (fun w => (∀ x ∈ w.val, Ok x) ∧
        SmallContent (arrayToBer N t) ⟨w.val.map rep, by rw [List.length_map, w.property]⟩) fun w id cs =>
      id = (.universal, true, 16) ∧ OneEach F w.val cs := by
  refine ⟨by rintro _ _ _ ⟨rfl, _⟩; rfl, fun h i x w _ hb hp hw => ?_⟩
  have hp : (vecDer pd).content h i = .ok (x, w.val) := arrayP_content.mp hp
  obtain ⟨bss, h1, h2, h3⟩ := ih.repeats hb (vecDer_content.mp hp).2 hw.1
  have he := list_encodes (tag := 16) (by decide) h1
  exact ⟨_, ⟨he.content, he.len, he.tag, rfl⟩, small_of he.len hw.2, ⟨rfl, h2⟩, fun _ hf => ⟨hf.1, h3 hf.2⟩⟩

theorem faithful_raw {tag : Nat} (htag : tag < 2 ^ 32) :
    Faithful (rawToBer tag) (rawP tag) id (SmallContent (rawToBer tag)) fun _ id _ =>
      id = (.universal, true, tag) := by
  refine ⟨by rintro _ _ _ rfl; exact tagIs_iff.mpr rfl, fun h i x w _ hb hp hw => ?_⟩
  obtain ⟨_, rfl, _⟩ := raw_content.mp hp
  have he := raw_encodes htag ⟨i.data, false⟩
  exact ⟨_, he, small_of he.len hw, rfl, fun _ hf => ⟨hf, rfl⟩⟩

/-- An EXPLICIT tag. -/
theorem explicitly_same {F : Class × Bool × Nat → Bytes → Prop} {cls : Class} {n : Nat} {v : α} {i r : Input}
    {bs : Bytes} (h : FaithfulObject t v (OneObject F) i r bs) :
    Explicitly cls n F (cls, true, n) bs ∧
      ∀ id, Explicitly cls n F id i.data → id = (cls, true, n) ∧ i.data = bs :=
  ⟨⟨rfl, h.form⟩, fun _ hf => ⟨hf.1, (h.same _ [] (by simp) hf.2).1⟩⟩

/-- An IMPLICIT tag. -/
theorem implicitly_same {F : Class × Bool × Nat → Bytes → Prop} {cls : Class} {n : Nat}
    {y : Class × Bool × Nat} {d cs : Bytes} (h : F y cs) (hs : ∀ id, F id d → id = y ∧ d = cs) :
    Implicitly cls n F (cls, y.2.1, n) cs ∧
      ∀ id, Implicitly cls n F id d → id = (cls, y.2.1, n) ∧ d = cs := by
  refine ⟨⟨rfl, rfl, y.1, y.2.2, h⟩, ?_⟩
  rintro ⟨c, p, g⟩ ⟨rfl, rfl, c', g', hf⟩
  obtain ⟨h1, h2⟩ := hs _ hf
  refine ⟨?_, h2⟩
  rw [← h1]

theorem faithful_explicit (cls : Class) {tag : Nat} (htag : tag < 2 ^ 32) {dynTag : α → Nat}
    (hdyn : ∀ v, dynTag v = (t.tagInfo v).2.2) (ih : Faithful t pd rep Ok F) :
    Faithful (explicitToBer cls tag dynTag t) (explicitP cls tag pd.parseDer) (fun w => ⟨rep w.inner⟩)
      (fun w => Ok w.inner ∧ SmallContent (explicitToBer cls tag dynTag t) ⟨rep w.inner⟩) fun w =>
      Explicitly cls tag (F w.inner) := by
  refine ⟨by rintro _ _ _ ⟨rfl, _⟩; exact tagIs_iff.mpr rfl, fun h i x w _ hb hp hw => ?_⟩
  obtain ⟨cs, h1, h2, g⟩ := ih.parse hb (explicitP_content.mp hp).2.2.2 hw.1
  have he := explicit_encodes cls htag (hdyn _) g.exact.1 g.exact.2
  obtain ⟨k1, k2⟩ := explicitly_same (cls := cls) (n := tag) g
  exact ⟨_, he, small_of he.len hw.2, k1, k2⟩

theorem faithful_implicit (cls : Class) {tag : Nat} (htag : tag < 2 ^ 32) {dynC : α → Bool}
    (hdyn : ∀ v, dynC v = (t.tagInfo v).2.1) (ih : Faithful t pd rep Ok F) :
    Faithful (implicitToBer cls tag dynC t) (implicitP cls tag pd) (fun w => ⟨rep w.inner⟩)
      (fun w => Ok w.inner) fun w => Implicitly cls tag (F w.inner) := by
  refine ⟨by rintro _ _ _ ⟨_, rfl, _⟩; exact tagIs_iff.mpr rfl, fun h i x w hh hb hp hw => ?_⟩
  obtain ⟨cs, h1, h2, h3, h4⟩ := ih.value _ _ _ _ hh hb (implicitP_content.mp hp).2 hw
  obtain ⟨k1, k2⟩ := implicitly_same (cls := cls) (n := tag) h3 h4
  have e : (implicitToBer cls tag dynC t).tagInfo ⟨rep w.inner⟩ = (cls, (t.tagInfo (rep w.inner)).2.1, tag) := by
    rw [← hdyn]; rfl
  exact ⟨_, implicit_encodes cls htag dynC h1.content h1.len, h2, e ▸ k1, fun id hf => e ▸ k2 id hf⟩

theorem faithful_enum {ds : List Nat} (hn : ds.Nodup) (hds : ∀ d ∈ ds, d < 2 ^ 32) :
    Faithful (enumToBer ds) (enumP enumeratedDer ds) id (fun _ => True) fun _ id _ =>
      id = (.universal, false, 10) := by
  refine ⟨by rintro _ _ _ rfl; rfl, fun h i x k hh hb hp _ => ?_⟩
  have hp : (h.assertPrimitive i >>= fun _ => enumeratedDer.content h i >>= fun z =>
    match ds.finIdxOf? z.2 with
    | some k => (.ok (z.1, k) : PRes (Fin ds.length))
    | none => nomErr i (.unexpectedTag none h.tag)) = .ok (x, k) := hp
  obtain ⟨_, _, hp⟩ := bind_eq_ok.mp hp
  obtain ⟨⟨y, n⟩, h1, hp⟩ := bind_eq_ok.mp hp
  have h2 : ds[k] = n := by
    cases e : ds.finIdxOf? n with
    | none => simp [e, nomErr] at hp
    | some j =>
      simp only [e, Except.ok.injEq, Prod.mk.injEq] at hp
      rw [← hp.2]
      exact (finIdxOf_ok hn).mp e
  obtain ⟨g1, _, _, g4, _⟩ := (uintDer_content (by decide)).mp (enumDer_content.mp h1)
  obtain ⟨cs, hk, hl⟩ := enum_works (hds _ (List.getElem_mem k.isLt))
  obtain ⟨_, _, _, _, _, rfl, q⟩ := works_reads hk
  obtain ⟨q1, _, _, q4, _⟩ := (uintDer_content (by decide)).mp (enumDer_content.mp q)
  have e24 : (2 : Nat) ^ 24 = 16777216 := by decide
  refine ⟨_, ⟨hk.enc.content, hk.enc.len, by show 10 < 2 ^ 32; decide, rfl⟩, by omega, rfl, fun _ hf =>
    ⟨hf, minimal_unique g1 q1 (g4.symm.trans (Eq.trans ?_ q4))⟩⟩
  rw [← h2]; rfl

theorem faithful_alias (ih : Faithful t pd rep Ok F) :
    Faithful (aliasToBer t) (aliasP pd) (fun w => ⟨rep w.inner⟩) (fun w => Ok w.inner) fun w => F w.inner := by
  refine ⟨fun w => ih.accepts w.inner, fun h i x w hh hb hp hw => ?_⟩
  have h1 : pd.content h i = .ok (x, w.inner) := by
    obtain ⟨⟨y, v⟩, h1, h2⟩ := bind_eq_ok.mp hp
    injection h2 with h2
    injection h2 with h2 h3
    subst h2; subst h3; exact h1
  obtain ⟨cs, h1, h2, h3, h4⟩ := ih.value _ _ _ _ hh hb h1 hw
  exact ⟨cs, ⟨h1.content, h1.len, h1.tag, rfl⟩, h2, h3, h4⟩

end

/-! ### Structs -/

/-- What is written for a field with content `cs`. -/
def fieldFull (tag : FieldTag) (t : ToBer α) (v : α) (cs : Bytes) : Bytes :=
  match tag with
  | .untagged => t.fullOf v cs
  | .explicit cls n => full cls true n (t.fullOf v cs)
  | .implicit cls n => full cls (t.tagInfo v).2.1 n cs

theorem field_form {tag : FieldTag} {t : ToBer α} {v : α} {cs : Bytes} {F : Class × Bool × Nat → Bytes → Prop}
    (hv : FieldTag.Valid tag) (he : Encodes t v cs) (h24 : cs.length < 2 ^ 24) (hf : F (t.tagInfo v) cs)
    (hs : tag ≠ .untagged → ∀ n, t.totalLen v = .definite n → n < 2 ^ 24) :
    Fits t v ∧ Writes (tag.write t v) (fieldFull tag t v cs) (fieldFull tag t v cs).length ∧
      OneObject (FieldForm tag F) (fieldFull tag t v cs) := by
  have h64 := lt64_of_lt24 h24
  have fits : Fits t v := ⟨he.lengths h64, ⟨_, he.len, h24⟩, he.tag⟩
  obtain ⟨hd, cs', h1, h2, h3, h4, h5, h6, h7⟩ := fits_total fits
  obtain ⟨bs, hw, _⟩ := field_writes fits hv hs
  obtain ⟨g1, g2, g3⟩ := field_bytes fits hv hs h1 h2 h4 h5 h6 hw
  have ec : cs' = cs := congrArg Prod.fst (h1.symm.trans he.content)
  have eb : hd ++ cs' = t.fullOf v cs := congrArg Prod.fst (h5.symm.trans (he.encode h64))
  have ho : OneObject F (t.fullOf v cs) := oneObject_full he.tag h64 hf
  refine ⟨fits, ?_⟩
  cases tag with
  | untagged =>
    rw [g1 rfl, eb] at hw
    exact ⟨hw, ho⟩
  | explicit cls n =>
    have h8 := hs (by simp) _ h6
    rw [g2 cls n rfl, eb] at hw
    rw [eb] at h8
    exact ⟨hw, oneObject_full hv (lt64_of_lt24 h8) ⟨rfl, ho⟩⟩
  | implicit cls n =>
    rw [g3 cls n rfl, ec] at hw
    exact ⟨hw, oneObject_full hv h64 ⟨rfl, rfl, _, _, hf⟩⟩

section
variable {t : ToBer α} {pd : Parser β} {rep : β → α} {Ok : β → Prop}
  {F : β → Class × Bool × Nat → Bytes → Prop}

/-- A field that was read. -/
theorem faithful_field (ih : Faithful t pd rep Ok F) {tag : FieldTag} {i r : Input} {w : β}
    (hb : i.data.length < 2 ^ 64) (h : ReadsAs .der pd tag i w r) (hw : Ok w) :
    ∃ cs, Encodes t (rep w) cs ∧ cs.length < 2 ^ 24 ∧ F w (t.tagInfo (rep w)) cs ∧
      ∀ b rest, i.data = b ++ rest → OneObject (FieldForm tag (F w)) b →
        b = fieldFull tag t (rep w) cs ∧ r.data = rest := by
  cases h with
  | untagged h =>
    obtain ⟨a, x, h1, _, h3⟩ := parseDer_ok.mp h
    obtain ⟨cs, g1, g2, g3, g4⟩ := ih.value _ _ _ _ (consistent_der h1)
      (Nat.lt_of_le_of_lt (der_shorter h1).1 hb) h3 hw
    refine ⟨cs, g1, g2, g3, fun b rest hi ho => ?_⟩
    obtain ⟨k1, k2, k3, _⟩ := oneObject_any hi hb ho h1
    obtain ⟨k5, k6⟩ := g4 _ k1
    refine ⟨?_, k2⟩
    rw [k3, k6]
    show _ = full (t.tagInfo (rep w)).1 (t.tagInfo (rep w)).2.1 (t.tagInfo (rep w)).2.2 cs
    rw [← k5]
  | @explicit cls n _ _ _ a x h hcls htag hc hi =>
    obtain ⟨cs, g1, g2, g3⟩ := ih.parse (Nat.lt_of_le_of_lt (der_shorter h).1 hb) hi hw
    obtain ⟨a', x', h1', _, h3'⟩ := parseDer_ok.mp hi
    obtain ⟨cs', g1', g2', g3', _⟩ := ih.value _ _ _ _ (consistent_der h1')
      (Nat.lt_of_le_of_lt (der_shorter h1').1 (Nat.lt_of_le_of_lt (der_shorter h).1 hb)) h3' hw
    have : cs' = cs := congrArg Prod.fst (g1'.content.symm.trans g1.content)
    subst this
    refine ⟨cs', g1, g2, g3', fun b rest hi ho => ?_⟩
    obtain ⟨k1, k2, k3, _⟩ := oneObject_any hi hb ho h
    obtain ⟨k4, k5⟩ := (explicitly_same (cls := cls) (n := n) g3).2 _ k1
    refine ⟨?_, k2⟩
    injection k4 with k6 k7
    injection k7 with k7 k8
    rw [k3, k5, k6, k7, k8]
    rfl
  | @implicit cls n _ _ _ a x h hcls htag hi =>
    obtain ⟨cs, g1, g2, g3, g4⟩ := ih.value _ _ _ _ (consistent_der h)
      (Nat.lt_of_le_of_lt (der_shorter h).1 hb) hi hw
    refine ⟨cs, g1, g2, g3, fun b rest hi ho => ?_⟩
    obtain ⟨k1, k2, k3, _⟩ := oneObject_any hi hb ho h
    obtain ⟨k4, k5⟩ := (implicitly_same (cls := cls) (n := n) g3 g4).2 _ k1
    refine ⟨?_, k2⟩
    injection k4 with k6 k7
    injection k7 with k7 k8
    rw [k3, k5, k6, k7, k8]
    rfl

/-- A field that is missing is not there in the canonical form. -/
theorem field_missing (ih : Faithful t pd rep Ok F) {tag : FieldTag} {i : Input} {w : β}
    (hb : i.data.length < 2 ^ 64) (h : Missing .der pd tag i) {b rest : Bytes} (hi : i.data = b ++ rest)
    (ho : OneObject (FieldForm tag (F w)) b) : False := by
  cases h with
  | done h =>
    rw [hi] at h
    exact oneObject_ne_nil ho (List.append_eq_nil_iff.mp h).1
  | @other r hd hh ht =>
    obtain ⟨c, p, g, cs, rfl, htag, h64, hf⟩ := oneObject_eq ho (by rw [hi, List.length_append] at hb; omega)
    have h1 := parseHeader_full i c p g cs rest htag h64 hi
    have e : hd.tag = g := by
      have h2 := (parseHeaderDer_ok.mp hh).1
      rw [h1] at h2
      have h3 := congrArg (fun z => z.2.tag) (Except.ok.inj h2)
      exact h3.symm
    apply ht
    rw [e]
    cases tag with
    | untagged => exact ih.accepts _ _ _ hf
    | explicit cls n => exact congrArg (fun z => z.2.2) hf.1
    | implicit cls n => exact hf.2.1

end

/-- What holds of the fields. -/
def FaithfulFields {Ts Us : List Type} (es : EncFields Ts) (fd : Fields Us) (reps : Tup Us → Tup Ts)
    (Oks : Tup Us → Prop) (Fs : Tup Us → Bytes → Prop) : Prop :=
  ∀ i ws e, i.data.length < 2 ^ 64 → ReadsFields .der fd i ws e → Oks ws →
    FieldsFit es (reps ws) ∧ ∃ cs, (∀ k, Writes (es.write (reps ws) k) cs (k + cs.length)) ∧ Fs ws cs ∧
      (Fs ws i.data → i.data = cs)

section
variable {T U : Type} {Ts Us : List Type} {t : ToBer T} {pd : Parser U} {rep : U → T} {Ok : U → Prop}
  {F : U → Class × Bool × Nat → Bytes → Prop} {es : EncFields Ts} {fd : Fields Us} {reps : Tup Us → Tup Ts}
  {Oks : Tup Us → Prop} {Fs : Tup Us → Bytes → Prop}

/-- One field and the others. -/
theorem faithful_cons {tag : FieldTag} (hv : FieldTag.Valid tag) {i r e : Input} {w : U} {ws : Tup Us} {cs : Bytes}
    (hr : r.data.length < 2 ^ 64) (h1 : Encodes t (rep w) cs) (h2 : cs.length < 2 ^ 24)
    (h3 : F w (t.tagInfo (rep w)) cs)
    (h4 : ∀ b rest, i.data = b ++ rest → OneObject (FieldForm tag (F w)) b →
      b = fieldFull tag t (rep w) cs ∧ r.data = rest)
    (hs : tag ≠ .untagged → ∀ n, t.totalLen (rep w) = .definite n → n < 2 ^ 24)
    (ht : ReadsFields .der fd r ws e) (hw : Oks ws) (iht : FaithfulFields es fd reps Oks Fs) :
    FieldsFit (.cons tag t es) (rep w, reps ws) ∧ ∃ cs, (∀ k, Writes ((EncFields.cons tag t es).write (rep w, reps ws) k)
      cs (k + cs.length)) ∧ (∃ b rest, cs = b ++ rest ∧ OneObject (FieldForm tag (F w)) b ∧ Fs ws rest) ∧
      ((∃ b rest, i.data = b ++ rest ∧ OneObject (FieldForm tag (F w)) b ∧ Fs ws rest) → i.data = cs) := by
  obtain ⟨g1, g2, g3⟩ := field_form hv h1 h2 h3 hs
  obtain ⟨k1, cs', k2, k3, k4⟩ := iht _ _ _ hr ht hw
  refine ⟨.cons g1 hv hs k1, fieldFull tag t (rep w) cs ++ cs', fun k => ?_, ⟨_, _, rfl, g3, k3⟩, ?_⟩
  · rw [EncFields.write, List.length_append, show k + ((fieldFull tag t (rep w) cs).length + cs'.length) =
      k + (fieldFull tag t (rep w) cs).length + cs'.length by omega]
    exact g2.bind (k2 _)
  · rintro ⟨b, rest, e1, e2, e3⟩
    obtain ⟨e4, e5⟩ := h4 b rest e1 e2
    rw [← e5] at e3
    rw [e1, e4, ← e5, k4 e3]

theorem readsAs_shorter {tag : FieldTag} {i r : Input} {w : U} (h : ReadsAs .der pd tag i w r) :
    r.data.length ≤ i.data.length := by
  cases h with
  | untagged h =>
    obtain ⟨a, x, h1, _, h3⟩ := parseDer_ok.mp h
    exact (der_shorter h1).2
  | explicit h => exact (der_shorter h).2
  | implicit h => exact (der_shorter h).2

theorem faithful_required {tag : FieldTag} (hv : FieldTag.Valid tag) (ih : Faithful t pd rep Ok F)
    (iht : FaithfulFields es fd reps Oks Fs) :
    FaithfulFields (.cons tag t es) (.cons (.required tag pd) fd) (fun w => (rep w.1, reps w.2))
      (fun w => (Ok w.1 ∧ (tag ≠ .untagged → ∀ n, t.totalLen (rep w.1) = .definite n → n < 2 ^ 24)) ∧ Oks w.2)
      fun w bs => ∃ b rest, bs = b ++ rest ∧ OneObject (FieldForm tag (F w.1)) b ∧ Fs w.2 rest := by
  rintro i ⟨w, ws⟩ e hb h ⟨⟨h1, h2⟩, h3⟩
  cases h with
  | cons h ht =>
    have h : ReadsAs .der pd tag i w _ := h
    obtain ⟨cs, g1, g2, g3, g4⟩ := faithful_field ih hb h h1
    exact faithful_cons hv (Nat.lt_of_le_of_lt (readsAs_shorter h) hb) g1 g2 g3 g4 h2 ht h3 iht

theorem faithful_default {tag : FieldTag} {d : U} (hv : FieldTag.Valid tag) (ih : Faithful t pd rep Ok F)
    (hx : ∃ i r, i.data.length < 2 ^ 64 ∧ pd.parseDer i = .ok (r, d))
    (iht : FaithfulFields es fd reps Oks Fs) :
    FaithfulFields (.cons tag t es) (.cons (.default tag pd d) fd) (fun w => (rep w.1, reps w.2))
      (fun w => (Ok w.1 ∧ (tag ≠ .untagged → ∀ n, t.totalLen (rep w.1) = .definite n → n < 2 ^ 24)) ∧ Oks w.2)
      fun w bs => ∃ b rest, bs = b ++ rest ∧ OneObject (FieldForm tag (F w.1)) b ∧ Fs w.2 rest := by
  rintro i ⟨w, ws⟩ e hb h ⟨⟨h1, h2⟩, h3⟩
  cases h with
  | cons h ht =>
    rcases h with ⟨h, _⟩ | ⟨rfl, rfl, hm⟩
    · obtain ⟨cs, g1, g2, g3, g4⟩ := faithful_field ih hb h h1
      exact faithful_cons hv (Nat.lt_of_le_of_lt (readsAs_shorter h) hb) g1 g2 g3 g4 h2 ht h3 iht
    · obtain ⟨j, r, hj, hp⟩ := hx
      obtain ⟨a, x, k1, _, k3⟩ := parseDer_ok.mp hp
      obtain ⟨cs, g1, g2, g3, _⟩ := ih.value _ _ _ _ (consistent_der k1)
        (Nat.lt_of_le_of_lt (der_shorter k1).1 hj) k3 h1
      exact faithful_cons hv hb g1 g2 g3 (fun b rest hi ho => (field_missing ih hb hm hi ho).elim) h2 ht h3 iht

theorem faithful_struct {tag : Nat} (htag : tag < 2 ^ 32) (ih : FaithfulFields es fd reps Oks Fs) :
    Faithful (structToBer tag es) (structP .der tag fd) reps
      (fun ws => Oks ws ∧ overcount es (reps ws) = 0 ∧ SmallContent (structToBer tag es) (reps ws))
      fun ws id cs => id = (.universal, true, tag) ∧ Fs ws cs := by
  refine ⟨by rintro _ _ _ ⟨rfl, _⟩; exact tagIs_iff.mpr rfl, fun h i x ws hh hb hp hw => ?_⟩
  obtain ⟨_, _, h2⟩ := bind_eq_ok.mp hp
  obtain ⟨g1, cs, g2, g3, g4⟩ := ih _ _ _ hb (fields_run_ok.mp h2) hw.1
  obtain ⟨cs', k1, k2⟩ := C54_struct_length tag es (reps ws) g1
  have e : cs' = cs := congrArg Prod.fst (k1.symm.trans (g2 0))
  subst e
  rw [hw.2.1] at k2
  exact ⟨cs', ⟨k1, k2, htag, rfl⟩, small_of k2 hw.2.2, ⟨rfl, g3⟩, fun _ hf => ⟨hf.1, g4 hf.2⟩⟩

end

/-! ### CHOICE -/

/-- What holds of the variants. -/
structure FaithfulVariants (k : ChoiceKind) {Ts Us : List Type} (es : EncVariants Ts) (vd : Variants Us)
    (reps : HSum Us → HSum Ts) (Oks : HSum Us → Prop) (Fs : HSum Us → Class × Bool × Nat → Bytes → Prop) :
    Prop where
  accepts : ∀ y id cs, Fs y id cs → vd.accept k id.2.2 = true
  value : ∀ a y, Consistent a.header a.data → a.data.data.length < 2 ^ 64 → ReadsChoice .der k vd a y → Oks y →
    ∃ cs, Encodes (choiceToBer k es) (reps y) cs ∧ Fs y (es.info k (reps y)) cs ∧
      ∀ id, Fs y id a.data.data → id = es.info k (reps y) ∧ a.data.data = cs

section
variable {T U : Type} {Ts Us : List Type} {t : ToBer T} {pd : Parser U} {rep : U → T} {Ok : U → Prop}
  {F : U → Class × Bool × Nat → Bytes → Prop} {es : EncVariants Ts} {vd : Variants Us} {reps : HSum Us → HSum Ts}
  {Oks : HSum Us → Prop} {Fs : HSum Us → Class × Bool × Nat → Bytes → Prop} {k : ChoiceKind}

theorem faithful_variant {n : Nat} (hn : n < 2 ^ 32) {dyn : T → Class × Bool × Nat}
    (hdyn : ∀ v, dyn v = t.tagInfo v) (ih : Faithful t pd rep Ok F) (iht : FaithfulVariants k es vd reps Oks Fs) :
    FaithfulVariants k (.cons n dyn t es) (.cons n pd vd) (Sum.map rep reps : U ⊕ HSum Us → T ⊕ HSum Ts)
      (Sum.elim Ok Oks : U ⊕ HSum Us → Prop)
      (Sum.elim (fun w => VariantForm k n (F w)) Fs : U ⊕ HSum Us → Class × Bool × Nat → Bytes → Prop) := by
  constructor
  · intro y id cs hf
    show (variantAccept k n pd id.2.2 || vd.accept k id.2.2) = true
    rw [Bool.or_eq_true]
    rcases y with w | y
    · left
      have hf : VariantForm k n (F w) id cs := hf
      cases k with
      | untagged => exact ih.accepts _ _ _ hf
      | explicit => show (id.2.2 == n) = true; rw [hf.1]; simp
      | implicit => show (id.2.2 == n) = true; rw [hf.2.1]; simp
    · exact .inr (iht.accepts y id cs hf)
  · intro a y hh hb h hw
    rcases y with w | y
    · obtain ⟨_, h2⟩ := h
      have hw : Ok w := hw
      cases k with
      | explicit =>
        obtain ⟨_, x, h2⟩ := h2
        obtain ⟨cs, g1, g2, g3⟩ := ih.parse hb h2 hw
        obtain ⟨k1, k2⟩ := explicitly_same (cls := .contextSpecific) (n := n) g3
        exact ⟨_, ⟨g3.exact.1, g3.exact.2, hn, rfl⟩, k1, k2⟩
      | implicit =>
        obtain ⟨x, h2⟩ := h2
        obtain ⟨cs, g1, g2, g3, g4⟩ := ih.value _ _ _ _ hh hb h2 hw
        obtain ⟨k1, k2⟩ := implicitly_same (cls := .contextSpecific) (n := n) g3 g4
        have e : (EncVariants.cons n dyn t es).info .implicit (.inl (rep w) : T ⊕ HSum Ts) =
            (.contextSpecific, (t.tagInfo (rep w)).2.1, n) := by rw [← hdyn]; rfl
        exact ⟨cs, ⟨g1.content, g1.len, hn, rfl⟩, e ▸ k1, fun id hf => e ▸ k2 id hf⟩
      | untagged =>
        obtain ⟨x, h2⟩ := h2
        obtain ⟨cs, g1, g2, g3, g4⟩ := ih.value _ _ _ _ hh hb h2 hw
        have e : (EncVariants.cons n dyn t es).info .untagged (.inl (rep w) : T ⊕ HSum Ts) =
            t.tagInfo (rep w) := by rw [← hdyn]; rfl
        refine ⟨cs, ⟨g1.content, g1.len, ?_, rfl⟩, e ▸ g3, fun id hf => e ▸ g4 id hf⟩
        show ((EncVariants.cons n dyn t es).info .untagged (.inl (rep w) : T ⊕ HSum Ts)).2.2 < _
        rw [e]; exact g1.tag
    · obtain ⟨_, h2⟩ := h
      obtain ⟨cs, g1, g2, g3⟩ := iht.value a y hh hb h2 hw
      exact ⟨cs, ⟨g1.content, g1.len, g1.tag, rfl⟩, g2, g3⟩

theorem faithful_choice (ih : FaithfulVariants k es vd reps Oks Fs) :
    Faithful (choiceToBer k es) (choiceP .der k vd) reps
      (fun y => Oks y ∧ SmallContent (choiceToBer k es) (reps y)) Fs := by
  refine ⟨ih.accepts, fun h i x y hh hb hp hw => ?_⟩
  obtain ⟨cs, g1, g2, g3⟩ := ih.value ⟨h, i⟩ y hh hb (choice_content_ok.mp ⟨x, hp⟩) hw.1
  exact ⟨cs, g1, small_of g1.len hw.2, g2, g3⟩

end

theorem faithful {t : ToBer α} {pd : Parser β} {rep : β → α} {Ok : β → Prop}
    {F : β → Class × Bool × Nat → Bytes → Prop} (h : Canon t pd rep Ok F) : Faithful t pd rep Ok F := by
  refine Canon.rec
    (motive_1 := fun {_ _} t pd rep Ok F _ => Faithful t pd rep Ok F)
    (motive_2 := fun {_ _} es fd rep Ok F _ => FaithfulFields es fd rep Ok F)
    (motive_3 := fun k {_ _} es vd rep Ok F _ => FaithfulVariants k es vd rep Ok F)
    ?_ ?_ ?_ ?_ ?_ ?_ ?_ ?_ ?_ ?_ ?_ ?_ ?_ ?_ ?_ ?_ ?_ ?_ ?_ h
  · intro _ _ _ _ h; exact faithful_leaf h
  · exact faithful_any
  · intros; exact faithful_vec ‹_›
  · intros; exact faithful_sequenceOf ‹_›
  · intros; exact faithful_setOf ‹_›
  · intro _ _ _ _ _ _ S _ hb ih; exact faithful_set S ih hb
  · intro _ _ _ _ _ _ _ N _ ih; exact faithful_array N ih
  · intro tag htag; exact faithful_raw htag
  · intro _ _ _ _ _ _ _ cls tag htag _ hdyn _ ih; exact faithful_explicit cls htag hdyn ih
  · intro _ _ _ _ _ _ _ cls tag htag _ hdyn _ ih; exact faithful_implicit cls htag hdyn ih
  · intro _ _ _ _ _ _ _ tag htag _ ih; exact faithful_struct htag ih
  · intro _ _ _ _ _ _ _ k _ ih; exact faithful_choice ih
  · intro ds hn hds; exact faithful_enum hn hds
  · intro _ _ _ _ _ _ _ _ ih; exact faithful_alias ih
  · intro i ws e _ h _
    cases h
    exact ⟨.nil, [], fun k => writes_pure _, rfl, fun h => h⟩
  · intro _ _ _ _ _ _ _ _ _ _ _ _ _ _ tag hv _ _ ih iht; exact faithful_required hv ih iht
  · intro _ _ _ _ _ _ _ _ _ _ _ _ _ _ tag x hv _ hx _ ih iht; exact faithful_default hv ih hx iht
  · exact ⟨fun y => (nomatch y), fun _ y => (nomatch y)⟩
  · intro _ _ _ _ _ _ _ _ _ _ _ _ _ _ _ _ hn _ hdyn _ _ ih iht
    exact faithful_variant hn hdyn ih iht

end Asn1

import Verif.Spec.Order
import Verif.Model.CharStrings
import Verif.Props.Sets
import Verif.Props.ContainersAgree
import Verif.Proofs.Minimal
/-!
# The order of the components of a SET OF (C118)
-/
namespace Asn1
open Spec Wr

variable {α σ : Type}

/-! ### Comparing octet strings -/

theorem octetLe_refl (a : Bytes) : OctetLe a a := by
  induction a with
  | nil => trivial
  | cons x a ih => exact Or.inr ⟨rfl, ih⟩

theorem octetLe_prefix (p a b : Bytes) : OctetLe (p ++ a) (p ++ b) ↔ OctetLe a b := by
  induction p with
  | nil => exact Iff.rfl
  | cons x p ih =>
    show x.toNat < x.toNat ∨ x = x ∧ OctetLe (p ++ a) (p ++ b) ↔ _
    rw [ih]
    constructor
    · rintro (h | h)
      · exact absurd h (Nat.lt_irrefl _)
      · exact h.2
    · exact fun h => Or.inr ⟨rfl, h⟩

/-- Strings of the same length are compared as numbers. -/
theorem octetLe_beNat {a b : Bytes} (hl : a.length = b.length) (s t : Bytes) :
    OctetLe (a ++ s) (b ++ t) ↔ beNat a < beNat b ∨ (a = b ∧ OctetLe s t) := by
  induction a generalizing b with
  | nil =>
    obtain rfl : b = [] := List.length_eq_zero_iff.mp hl.symm
    simp
  | cons x a ih =>
    cases b with
    | nil => simp at hl
    | cons y b =>
      have hl' : a.length = b.length := by simpa using hl
      show x.toNat < y.toNat ∨ x = y ∧ OctetLe (a ++ s) (b ++ t) ↔ _
      rw [ih hl', beNat_cons, beNat_cons, ← hl']
      have h1 := beNat_lt a
      have h2 := beNat_lt b
      rw [← hl'] at h2
      constructor
      · rintro (h | ⟨rfl, h | ⟨rfl, h⟩⟩)
        · left
          have := Nat.mul_le_mul_right (256 ^ a.length) (show x.toNat + 1 ≤ y.toNat from h)
          rw [Nat.add_mul] at this; omega
        · left; omega
        · exact Or.inr ⟨rfl, h⟩
      · rintro (h | ⟨h, h3⟩)
        · rcases Nat.lt_trichotomy x.toNat y.toNat with h3 | h3 | h3
          · exact Or.inl h3
          · right
            refine ⟨UInt8.toNat_inj.mp h3, Or.inl ?_⟩
            rw [h3] at h; omega
          · have := Nat.mul_le_mul_right (256 ^ a.length) (show y.toNat + 1 ≤ x.toNat from h3)
            rw [Nat.add_mul] at this; omega
        · injection h with hx ha
          exact Or.inr ⟨hx, Or.inr ⟨ha, h3⟩⟩

theorem octetLe_lt {x y : UInt8} (h : x.toNat < y.toNat) (a b : Bytes) : OctetLe (x :: a) (y :: b) := Or.inl h

theorem octetLe_not {x y : UInt8} (h : y.toNat < x.toNat) (a b : Bytes) : ¬ OctetLe (x :: a) (y :: b) := by
  rintro (h1 | ⟨rfl, _⟩) <;> omega

/-- A shorter length has smaller length octets, whatever follows. -/
theorem derLen_order {m n : Nat} {l l' : Bytes} (h : DerLen m l) (h' : DerLen n l') (hmn : m < n) (a b : Bytes) :
    OctetLe (l ++ a) (l' ++ b) ∧ ¬ OctetLe (l' ++ b) (l ++ a) := by
  cases h with
  | short c h1 hc =>
    cases h' with
    | short c' h2 hc' => exact ⟨octetLe_lt (by omega) _ _, octetLe_not (by omega) _ _⟩
    | long c' x xs h2 hc' hx hn =>
      simp only [List.length_cons] at hc'
      exact ⟨octetLe_lt (by omega) _ _, octetLe_not (by omega) _ _⟩
  | long c x xs h1 hc hx hm =>
    cases h' with
    | short c' h2 hc' => omega
    | long c' x' xs' h2 hc' hx' hn =>
      simp only [List.length_cons] at hc hc'
      rcases Nat.lt_trichotomy xs.length xs'.length with hl | hl | hl
      · exact ⟨octetLe_lt (by omega) _ _, octetLe_not (by omega) _ _⟩
      · have hcc : c = c' := UInt8.toNat_inj.mp (by omega)
        subst hcc
        have hl' : (c :: x :: xs).length = (c :: x' :: xs').length := by simp [hl]
        have hlt : beNat (c :: x :: xs) < beNat (c :: x' :: xs') := by
          rw [beNat_cons c, beNat_cons c, hm, hn]
          simp only [List.length_cons, hl]; omega
        refine ⟨(octetLe_beNat hl' a b).mpr (Or.inl hlt), fun hx => ?_⟩
        rcases (octetLe_beNat hl'.symm b a).mp hx with h | ⟨h, _⟩
        · omega
        · rw [h] at hlt; omega
      · -- more length octets, a larger length
        exfalso
        have h3 := beNat_lt (x' :: xs')
        have h4 := beNat_lead (xs := xs) hx
        simp only [List.length_cons] at h3
        have h5 : 256 ^ (xs'.length + 1) ≤ 256 ^ xs.length := Nat.pow_le_pow_right (by omega) (by omega)
        omega

/-- **C118** Among encodings with the same identifier octets (the elements of one type), the order of DER is:
the shorter content first, and contents of the same length in the order of their octets. -/
theorem C118_order (id la lb a b : Bytes) (ha : DerLen a.length la) (hb : DerLen b.length lb) :
    OctetLe (id ++ la ++ a) (id ++ lb ++ b) ↔
      a.length < b.length ∨ (a.length = b.length ∧ OctetLe a b) := by
  rw [List.append_assoc, List.append_assoc, octetLe_prefix]
  rcases Nat.lt_trichotomy a.length b.length with h | h | h
  · exact ⟨fun _ => Or.inl h, fun _ => (derLen_order ha hb h a b).1⟩
  · rw [← h] at hb
    obtain rfl := derLen_unique ha hb
    rw [octetLe_prefix]
    constructor
    · exact fun h1 => Or.inr ⟨h, h1⟩
    · rintro (h1 | h1)
      · omega
      · exact h1.2
  · constructor
    · exact fun h1 => absurd h1 (derLen_order hb ha h b a).2
    · rintro (h1 | h1) <;> omega

/-- A case: "b" before "aa", "aa" before "ab". -/
example : OctetLe [0x0c, 1, 0x62] [0x0c, 2, 0x61, 0x61] ∧ OctetLe [0x0c, 2, 0x61, 0x61] [0x0c, 2, 0x61, 0x62] ∧
    ¬ OctetLe [0x0c, 2, 0x61, 0x61] [0x0c, 1, 0x62] := by decide

/-! ### What is written -/

theorem pointwise_right {β γ : Type} {R : β → γ → Prop} {as : List β} {bs : List γ} (h : Pointwise R as bs)
    {y : γ} (hy : y ∈ bs) : ∃ x ∈ as, R x y := by
  induction h with
  | nil => simp at hy
  | cons h1 _ ih =>
    rcases List.mem_cons.mp hy with rfl | hy
    · exact ⟨_, by simp, h1⟩
    · obtain ⟨x, hx, hr⟩ := ih hy
      exact ⟨x, by simp [hx], hr⟩

theorem pointwise_pairwise {β γ : Type} {R : β → γ → Prop} {lt : β → β → Prop} {le : γ → γ → Prop}
    {as : List β} {bs : List γ} (h : Pointwise R as bs)
    (hm : ∀ x ∈ as, ∀ y ∈ as, ∀ x' y', R x x' → R y y' → lt x y → le x' y') (hs : as.Pairwise lt) :
    bs.Pairwise le := by
  induction h with
  | nil => exact List.Pairwise.nil
  | @cons a b as bs h1 ht ih =>
    rw [List.pairwise_cons] at hs ⊢
    refine ⟨fun y hy => ?_, ih (fun x hx y hy => hm x (by simp [hx]) y (by simp [hy])) hs.2⟩
    obtain ⟨x, hx, hr⟩ := pointwise_right ht hy
    exact hm a (by simp) x (by simp [hx]) b y h1 hr (hs.1 x hx)

/-- **C118** `SetOf`, `BTreeSet` and `HashSet` write the encodings of their elements one after the other, in the
order in which the collection yields them: the result is the DER encoding of the set if and only if these
encodings are in ascending order. -/
theorem C118_as_yielded (t : ToBer α) :
    (∀ vs : List α, ListFits t vs → ∃ encs bs, Pointwise (fun v e => t.toVec v = .ok e) vs encs ∧
      (listToBer 17 t).toVec vs = .ok bs ∧ IsSetOf encs bs) ∧
    (∀ (S : SetImpl α σ) (s : σ), ListFits t (S.toList s) →
      ∃ encs bs, Pointwise (fun v e => t.toVec v = .ok e) (S.toList s) encs ∧
        (setToBer S t).toVec s = .ok bs ∧ IsSetOf encs bs) := by
  have key : ∀ vs : List α, ListFits t vs → ∃ encs bs, Pointwise (fun v e => t.toVec v = .ok e) vs encs ∧
      (listToBer 17 t).toVec vs = .ok bs ∧ IsSetOf encs bs := by
    intro vs h
    obtain ⟨bss, h1, h2, h3⟩ := list_items h
    have he := list_encodes (tag := 17) (by decide) h1
    refine ⟨bss, _, pointwise_imp (fun _ _ h => h.1) h2, he.toVec h3, ?_⟩
    exact ⟨_, _, identOctets_x690 .universal true (by decide), lenOctets_der h3, rfl⟩
  exact ⟨key, fun S s h => key (S.toList s) h⟩

/-- A case. -/
example : ListFits (uintToBer 1) [7, 200] := by
  constructor
  · intro v hv
    have hv' : v < 256 ^ 1 := by
      simp only [List.mem_cons, List.not_mem_nil, or_false] at hv
      rcases hv with rfl | rfl <;> decide
    exact Works.fits (.uint 1 (by omega) hv') (by
      obtain ⟨cs, hw, hlen⟩ := uint_works (N := 1) (by omega) hv'
      exact ⟨_, hw.enc.len, by omega⟩)
  · intro n hn
    have : (listToBer 16 (uintToBer 1)).contentLen [7, 200] = .definite 7 := by decide +kernel
    rw [this] at hn
    injection hn with hn
    omega

/-! ### Unsigned integers -/

/-- The contents of non-negative integers are in the order of the integers. -/
theorem uint_order {x y : Bytes} (hx : MinimalInt x) (hy : MinimalInt y) {v w : Nat} (hv : twos x = v)
    (hw : twos y = w) (h : v < w) : x.length < y.length ∨ (x.length = y.length ∧ OctetLe x y) := by
  have nn : ∀ {z : Bytes} {k : Nat}, MinimalInt z → twos z = k →
      ∃ b bs, z = b :: bs ∧ b.toNat < 128 ∧ beNat z = k := by
    intro z k hz hk
    cases z with
    | nil => exact absurd hz (by simp [MinimalInt])
    | cons b bs =>
      refine ⟨b, bs, rfl, ?_⟩
      by_cases hb : 128 ≤ b.toNat
      · have hlt := beNat_lt (b :: bs)
        have he : twos (b :: bs) = (beNat (b :: bs) : Int) - (256 ^ (b :: bs).length : Nat) := if_pos hb
        rw [he] at hk
        generalize 256 ^ (b :: bs).length = q at hk hlt
        omega
      · have he : twos (b :: bs) = (beNat (b :: bs) : Int) := if_neg hb
        rw [he] at hk
        exact ⟨by omega, by omega⟩
  obtain ⟨b, bs, rfl, hb, hbv⟩ := nn hx hv
  obtain ⟨c, cs, rfl, hc, hcw⟩ := nn hy hw
  have key : (b :: bs).length ≤ (c :: cs).length := by
    refine Nat.not_lt.mp fun hlt => ?_
    -- a longer content is at least 2^(8·(length-1)-1)
    cases bs with
    | nil => simp at hlt
    | cons d ds =>
      simp only [MinimalInt] at hx
      simp only [List.length_cons] at hlt
      have h1 : 128 * 256 ^ ds.length ≤ beNat (b :: d :: ds) := by
        rw [beNat_cons, beNat_cons]
        by_cases hb0 : b.toNat = 0
        · have hd : 128 ≤ d.toNat := by omega
          have := Nat.mul_le_mul_right (256 ^ ds.length) hd
          omega
        · have h2 : 1 * 256 ^ (d :: ds).length ≤ b.toNat * 256 ^ (d :: ds).length :=
            Nat.mul_le_mul_right _ (by omega)
          simp only [List.length_cons, Nat.pow_succ] at h2 ⊢
          omega
      have h3 : beNat (c :: cs) < 128 * 256 ^ cs.length := by
        rw [beNat_cons]
        have := Nat.mul_le_mul_right (256 ^ cs.length) (show c.toNat + 1 ≤ 128 by omega)
        have h4 := beNat_lt cs
        rw [Nat.add_mul] at this; omega
      have h5 : 256 ^ cs.length ≤ 256 ^ ds.length := Nat.pow_le_pow_right (by omega) (by omega)
      omega
  rcases Nat.lt_or_eq_of_le key with h1 | h1
  · exact Or.inl h1
  · refine Or.inr ⟨h1, ?_⟩
    have := octetLe_beNat h1 [] []
    simp only [List.append_nil] at this
    exact this.mpr (Or.inl (by omega))

/-- **C118** A `BTreeSet` of unsigned integers (of 1, 2, 4, 8 or 16 bytes) is written in the order DER requires
for a SET OF. -/
theorem C118_unsigned_partial (N : Nat) (hN : 1 ≤ N ∧ N ≤ 16) (s : { l : List Nat // l.Pairwise (· < ·) })
    (hr : ∀ x ∈ s.val, x < 256 ^ N)
    (hn : ∀ n, (setToBer btreeNat (uintToBer N)).contentLen s = .definite n → n < 2 ^ 64) :
    ∃ encs bs, Pointwise (fun v e => (uintToBer N).toVec v = .ok e) s.val encs ∧
      (setToBer btreeNat (uintToBer N)).toVec s = .ok bs ∧ IsSetOf encs bs ∧ Ascending encs := by
  have hb : ∀ v ∈ s.val, SmallContent (uintC N).enc v := by
    intro v hv
    obtain ⟨cs, hw, hlen⟩ := uint_works hN.1 (hr v hv)
    exact ⟨_, hw.enc.len, by omega⟩
  have hf : ListFits (uintToBer N) (btreeNat.toList s) :=
    ⟨fun v hv => Works.fits (.uint N hN (hr v hv)) (hb v hv), hn⟩
  obtain ⟨encs, bs, h1, h2, h3⟩ := (C118_as_yielded (uintToBer N)).2 btreeNat s hf
  refine ⟨encs, bs, h1, h2, h3, pointwise_pairwise (lt := (· < ·)) h1 ?_ s.property⟩
  intro x hx y hy x' y' hx' hy' hlt
  obtain ⟨cx, ex, mx, tx, lx⟩ := uint_encodes hN.1 (hr x hx)
  obtain ⟨cy, ey, my, ty, ly⟩ := uint_encodes hN.1 (hr y hy)
  have l1 : cx.length < 2 ^ 64 := by omega
  have l2 : cy.length < 2 ^ 64 := by omega
  rw [ex.toVec l1] at hx'
  rw [ey.toVec l2] at hy'
  obtain rfl := Except.ok.inj hx'
  obtain rfl := Except.ok.inj hy'
  exact (C118_order _ _ _ cx cy (lenOctets_der l1) (lenOctets_der l2)).mpr (uint_order mx my tx ty hlt)

/-- A case: 3, 127, 128, 255, 256 in a set of `u16`. -/
example : (setToBer btreeNat (uintToBer 2)).toVec (btreeNat.ofList [256, 128, 3, 255, 127]) =
      .ok [0x31, 0x12, 2, 1, 3, 2, 1, 127, 2, 2, 0, 128, 2, 2, 0, 255, 2, 2, 1, 0] ∧
    Ascending [[2, 1, 3], [2, 1, 127], [2, 2, 0, 128], [2, 2, 0, 255], [2, 2, 1, 0]] := by
  refine ⟨by decide +kernel, ?_⟩
  unfold Ascending
  decide

/-- **C118** Deviations: a `BTreeSet` of signed integers or of strings is not written in the order of DER, since
a negative integer has a larger encoding than a non-negative one, and a longer string than a shorter one. -/
theorem C118_deviations :
    (∀ v : Int, -128 ≤ v → v < 0 → ∃ a b, (intToBer 4).toVec v = .ok a ∧ (intToBer 4).toVec 0 = .ok b ∧
      (listToBer 17 (intToBer 4)).toVec [v, 0] = .ok ([0x31, 6] ++ a ++ b) ∧ ¬ Ascending [a, b]) ∧
    (∀ v : Int, 0 ≤ v → v < 128 → ∃ a b, (intToBer 4).toVec (-129) = .ok a ∧ (intToBer 4).toVec v = .ok b ∧
      ¬ Ascending [a, b]) ∧
    ((strToBer 12).toVec ['a', 'a'] = .ok [0x0c, 2, 0x61, 0x61] ∧ (strToBer 12).toVec ['b'] = .ok [0x0c, 1, 0x62] ∧
      (listToBer 17 (strToBer 12)).toVec [['a', 'a'], ['b']] = .ok [0x31, 7, 0x0c, 2, 0x61, 0x61, 0x0c, 1, 0x62] ∧
      ¬ Ascending [[0x0c, 2, 0x61, 0x61], [0x0c, 1, 0x62]]) := by
  refine ⟨?_, ?_, by decide +kernel, by decide +kernel, by decide +kernel, ?_⟩
  · have h : ∀ n : Fin 128,
        ((intToBer 4).toVec (n.val - 128 : Int) = .ok [2, 1, UInt8.ofNat (128 + n.val)] ∧
        (listToBer 17 (intToBer 4)).toVec [(n.val - 128 : Int), 0] =
          .ok [0x31, 6, 2, 1, UInt8.ofNat (128 + n.val), 2, 1, 0]) ∧
        ¬ OctetLe [2, 1, UInt8.ofNat (128 + n.val)] [2, 1, 0] := by decide +kernel
    intro v h1 h2
    obtain ⟨k, rfl⟩ : ∃ k : Fin 128, v = (k.val - 128 : Int) := ⟨⟨(v + 128).toNat, by omega⟩, by simp; omega⟩
    obtain ⟨⟨h3, h4⟩, h5⟩ := h k
    refine ⟨_, [2, 1, 0], h3, by decide +kernel, h4, fun ha => h5 ?_⟩
    exact (List.pairwise_cons.mp ha).1 _ (by simp)
  · have h : ∀ n : Fin 128, (intToBer 4).toVec (n.val : Int) = .ok [2, 1, UInt8.ofNat n.val] ∧
        ¬ OctetLe [2, 2, 0xff, 0x7f] [2, 1, UInt8.ofNat n.val] := by decide +kernel
    intro v h1 h2
    obtain ⟨k, rfl⟩ : ∃ k : Fin 128, v = (k.val : Int) := ⟨⟨v.toNat, by omega⟩, by simp; omega⟩
    obtain ⟨h3, h5⟩ := h k
    refine ⟨[2, 2, 0xff, 0x7f], _, by decide +kernel, h3, fun ha => h5 ?_⟩
    exact (List.pairwise_cons.mp ha).1 _ (by simp)
  · unfold Ascending; decide

/-! ### What is read -/

/-- A content is cut into the encodings of its items. -/
theorem repeats_pieces {f : Input → PRes α} (hf : OnlyBytes f) {i e : Input} {vs : List α} (h : Repeats f i vs e) :
    ∃ ps : List (Bytes × α), i.data = (ps.map (·.1)).flatten ∧ ps.map (·.2) = vs ∧
      ∀ x ∈ ps, x.1 ≠ [] ∧ ∀ (j : Input) (rest : Bytes), j.data = x.1 ++ rest →
        f j = .ok (after j x.1.length, x.2) := by
  induction h with
  | nil h => exact ⟨[], by simp [h], rfl, by simp⟩
  | @cons i r e v vs hne hp ht ih =>
    obtain ⟨ps, h1, h2, h3⟩ := ih
    obtain ⟨x, h4, h5, _, h6⟩ := hf _ _ _ hp
    refine ⟨(x, v) :: ps, by simp [h5, h1], by simp [h2], ?_⟩
    intro y hy
    rcases List.mem_cons.mp hy with rfl | hy
    · exact ⟨h4, h6⟩
    · exact h3 y hy

theorem pieces_repeats {f : Input → PRes α} {ps : List (Bytes × α)}
    (h : ∀ x ∈ ps, x.1 ≠ [] ∧ ∀ (j : Input) (rest : Bytes), j.data = x.1 ++ rest →
        f j = .ok (after j x.1.length, x.2)) (i : Input) (hi : i.data = (ps.map (·.1)).flatten) :
    ∃ e, Repeats f i (ps.map (·.2)) e := by
  induction ps generalizing i with
  | nil => exact ⟨i, .nil (by simpa using hi)⟩
  | cons x ps ih =>
    obtain ⟨h1, h2⟩ := h x (by simp)
    have hi' : i.data = x.1 ++ (ps.map (·.1)).flatten := by simpa using hi
    obtain ⟨e, he⟩ := ih (fun y hy => h y (by simp [hy])) (after i x.1.length)
      (by rw [after_data, hi', List.drop_left' rfl])
    refine ⟨e, .cons ?_ (h2 i _ hi') he⟩
    rw [hi']; intro hc; exact h1 (List.append_eq_nil_iff.mp hc).1

theorem perm_flatten_length {l l' : List Bytes} (h : l.Perm l') : l.flatten.length = l'.flatten.length := by
  induction h with
  | nil => rfl
  | cons x _ ih => simp [ih]
  | swap x y l => simp; omega
  | trans _ _ h1 h2 => exact h1.trans h2

/-- An accepted DER object with another content of the same length. -/
theorem der_other_content {i r : Input} {a : Any} (h : parseDerAny i = .ok (r, a)) :
    ∃ hd, i.data = hd ++ a.data.data ++ r.data ∧ ∀ (j : Input) (c rest : Bytes),
      c.length = a.data.data.length → j.data = hd ++ c ++ rest →
      ∃ a', parseDerAny j = .ok (after j (hd.length + c.length), a') ∧ a'.data.data = c ∧
        SameHdr a.header a'.header := by
  obtain ⟨r1, n, h1, h2, hle, h3, h4⟩ := parseDerAny_ok.mp h
  obtain ⟨e1, h5, h6, h7⟩ := parseHeader_local h1
  have hd : a.data.data = r1.data.take n := by rw [h4]; simp [first]
  refine ⟨e1, by rw [h5, hd, h3]; simp [after], fun j c rest hc hj => ?_⟩
  have hcn : c.length = n := by rw [hc, hd]; simp [Nat.min_eq_left hle]
  refine ⟨⟨{ a.header with rawHeader := a.header.rawHeader.map (·.rebase i.start j.start) },
    first (after j e1.length) n⟩, ?_, ?_, ⟨rfl, rfl, rfl, rfl, rfl⟩⟩
  · refine parseDerAny_ok.mpr ⟨_, n, h7 j (c ++ rest) (by rw [hj]; simp), h2, ?_, ?_, rfl⟩
    · rw [after_data, hj]; simp; omega
    · rw [hcn]; simp
  · show (first (after j e1.length) n).data = c
    simp only [first, after_data]
    rw [hj, List.append_assoc, List.drop_left' rfl, ← hcn, List.take_left' rfl]

/-- **C118** The DER parsers of `SetOf`, `BTreeSet` and `HashSet` do not look at the order of the components: if
an encoding is accepted, it consists of the encodings of the items, and with these in any other order it is
accepted too, with the same items in that order, hence with the same set. -/
theorem C118_any_order (p : Parser α) (hp : OnlyBytes p.parseDer) {i r : Input} {vs : SetOf α}
    (h : (setOfP anyDer.parseDer p).parseDer i = .ok (r, vs)) :
    ∃ (hd : Bytes) (ps : List (Bytes × α)),
      i.data = hd ++ (ps.map (·.1)).flatten ++ r.data ∧ ps.map (·.2) = vs.items ∧
      (∀ x ∈ ps, ∃ e, p.parseDer (Input.fromSlice x.1) = .ok (e, x.2) ∧ e.data = []) ∧
      ∀ qs : List (Bytes × α), qs.Perm ps → ∀ (j : Input) (rest : Bytes), j.data = hd ++ (qs.map (·.1)).flatten ++ rest →
        (∃ r', (setOfP anyDer.parseDer p).parseDer j = .ok (r', ⟨qs.map (·.2)⟩) ∧ r'.data = rest) ∧
        (∀ S : SetImpl α σ, ∃ r' s, (setP S anyDer.parseDer p).parseDer j = .ok (r', s) ∧ r'.data = rest ∧
          S.eqv s (S.ofList vs.items)) := by
  obtain ⟨a, e, h1, h2, h3, h4⟩ := (C31_set_of_accepts (α := α)).2.1 p i r vs |>.mp h
  obtain ⟨ps, h5, h6, h7⟩ := repeats_pieces hp h4
  obtain ⟨hd, h8, h9⟩ := der_other_content h1
  refine ⟨hd, ps, by rw [h8, h5], h6, ?_, fun qs hq j rest hj => ?_⟩
  · intro x hx
    refine ⟨_, (h7 x hx).2 (Input.fromSlice x.1) [] (by simp [Input.fromSlice]), ?_⟩
    simp [Input.fromSlice]
  · obtain ⟨a', g1, g2, g3⟩ := h9 j (qs.map (·.1)).flatten rest
      (by rw [h5]; exact perm_flatten_length (hq.map _)) hj
    obtain ⟨e', he'⟩ := pieces_repeats (fun x hx => h7 x (hq.mem_iff.mp hx)) a'.data g2
    have hr : (after j (hd.length + (qs.map (·.1)).flatten.length)).data = rest := by
      rw [after_data, hj, List.drop_left' (by simp)]
    have ht : a'.header.tag = 17 := by rw [← g3.2.2.1]; exact h2
    have hc : a'.header.constructed = true := by rw [← g3.2.1]; exact h3
    refine ⟨⟨_, ((C31_set_of_accepts (α := α)).2.1 p _ _ _).mpr ⟨a', e', g1, ht, hc, he'⟩, hr⟩, fun S => ?_⟩
    refine ⟨_, S.ofList (qs.map (·.2)), parseDer_ok.mpr ⟨a', e', g1, tagIs_iff.mpr ht,
      map_content.mpr ⟨_, setItemsDer_content.mpr ⟨hc, he'⟩, rfl⟩⟩, hr, ?_⟩
    rw [S.eqv_iff]
    intro x
    rw [S.mem, S.mem, ← h6]
    exact (hq.map _).mem_iff

/-- A case: 1, 2 and 2, 1. -/
example : (setOfP anyDer.parseDer (uintDer 4)).parseDer (Input.fromSlice [0x31, 6, 2, 1, 1, 2, 1, 2]) =
      .ok (⟨[], 8, 8⟩, ⟨[1, 2]⟩) ∧
    (setOfP anyDer.parseDer (uintDer 4)).parseDer (Input.fromSlice [0x31, 6, 2, 1, 2, 2, 1, 1]) =
      .ok (⟨[], 8, 8⟩, ⟨[2, 1]⟩) ∧ OnlyBytes (uintDer 4).parseDer := by
  refine ⟨by decide +kernel, by decide +kernel, ?_⟩
  exact ((C65_only_consumed_bytes (α := Unit)).1 4).2.1

end Asn1

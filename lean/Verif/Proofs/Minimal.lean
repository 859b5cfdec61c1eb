import Verif.Proofs.Encoder
import Verif.Props.Header
/-!
# Minimal identifier and length octets are unique
-/
namespace Asn1
open Spec Wr

theorem base128_pos {xs : Bytes} (hz : ∀ x t, xs = x :: t → x.toNat ≠ 128)
    (hx : ∀ b ∈ xs, 128 ≤ b.toNat) (hne : xs ≠ []) : 1 ≤ base128 xs := by
  match xs with
  | [] => exact absurd rfl hne
  | x :: t =>
    rw [base128_cons]
    have h1 := hz x t rfl
    have h2 := hx x List.mem_cons_self
    have h3 := x.toNat_lt
    have : 1 ≤ x.toNat % 128 := by omega
    have h4 : 1 * 1 ≤ x.toNat % 128 * 128 ^ t.length :=
      Nat.mul_le_mul this (Nat.pow_pos (by omega))
    omega

theorem base128_unique : ∀ (n : Nat) (xs ys : Bytes), xs.length ≤ n →
    (∀ b ∈ xs, 128 ≤ b.toNat) → (∀ b ∈ ys, 128 ≤ b.toNat) →
    (∀ x t, xs = x :: t → x.toNat ≠ 128) → (∀ x t, ys = x :: t → x.toNat ≠ 128) →
    base128 xs = base128 ys → xs = ys := by
  intro n
  induction n with
  | zero =>
    intro xs ys hn hx hy zx zy h
    obtain rfl : xs = [] := List.eq_nil_of_length_eq_zero (by omega)
    by_cases hy0 : ys = []
    · exact hy0.symm
    · have := base128_pos zy hy hy0
      have h0 : base128 [] = 0 := rfl
      omega
  | succ n ih =>
    intro xs ys hn hx hy zx zy h
    rcases List.eq_nil_or_concat xs with rfl | ⟨xs, x, rfl⟩
    · by_cases hy0 : ys = []
      · exact hy0.symm
      · have := base128_pos zy hy hy0
        have h0 : base128 [] = 0 := rfl
        omega
    · rcases List.eq_nil_or_concat ys with rfl | ⟨ys, y, rfl⟩
      · have := base128_pos zx hx (by simp)
        have h0 : base128 [] = 0 := rfl
        omega
      · simp only [List.concat_eq_append] at *
        rw [base128_concat, base128_concat] at h
        have hx1 := hx x (by simp)
        have hy1 := hy y (by simp)
        have := x.toNat_lt
        have := y.toNat_lt
        have e1 : xs = ys := by
          refine ih xs ys (by simp at hn; omega) (fun b hb => hx b (by simp [hb]))
            (fun b hb => hy b (by simp [hb])) ?_ ?_ (by omega)
          · rintro a t rfl; exact zx a _ rfl
          · rintro a t rfl; exact zy a _ rfl
        have e2 : x = y := by rw [byte_eq_iff]; omega
        rw [e1, e2]

/-- The encoder's identifier octets are those of X.690. -/
theorem identOctets_x690 (c : Class) (p : Bool) {t : Nat} (ht : t < 2 ^ 32) :
    X690Ident c p t (identOctets c p t) := by
  rcases (writeTag_spec c p t ht).2 with ⟨h, b, e, hb⟩ | ⟨h, b, hi, last, e, hb, h1, h2, h3, h4⟩
  · rw [e]; exact .low b h hb
  · rw [e]
    refine .high b _ hb ⟨hi, last, rfl, h1, h2⟩ h h3.symm ?_
    intro x xs hx hx0
    cases hi with
    | nil => simp at hx; rw [hx.1] at h2; omega
    | cons y ys =>
      simp at hx
      obtain ⟨rfl, rfl⟩ := hx
      rcases h4 with h4 | h4
      · simp at h4
      · have h5 : base128 (y :: (ys ++ [last])) < 128 ^ (ys.length + 1) := by
          rw [base128_cons, hx0]
          have := base128_lt (ys ++ [last])
          simpa using this
        rw [List.cons_append] at h3
        rw [h3] at h5
        simp at h4 h5
        omega

/-- Identifier octets of X.690 are unique. -/
theorem x690_unique {c : Class} {p : Bool} {t : Nat} {id id' : Bytes} (h : X690Ident c p t id)
    (h' : X690Ident c p t id') : id = id' := by
  cases h with
  | low b h1 hb =>
    cases h' with
    | low b' _ hb' => rw [(byte_eq_iff b b').mpr (by omega)]
    | high _ _ _ _ h31 _ _ => omega
  | high b bs hb hg h31 ht hz =>
    cases h' with
    | low _ h1 _ => omega
    | high b' bs' hb' hg' _ ht' hz' =>
      have e1 : b = b' := (byte_eq_iff b b').mpr (by omega)
      obtain ⟨hi, last, rfl, g1, g2⟩ := hg
      obtain ⟨hi', last', rfl, g1', g2'⟩ := hg'
      rw [base128_concat] at ht ht'
      have e2 : last = last' := by rw [byte_eq_iff]; omega
      have e3 : hi = hi' := by
        refine base128_unique hi.length hi hi' (Nat.le_refl _) g1 g1' ?_ ?_ (by omega)
        · rintro a t rfl; exact hz a _ rfl
        · rintro a t rfl; exact hz' a _ rfl
      rw [e1, e2, e3]

theorem lenOctets_der {n : Nat} (hn : n < 2 ^ 64) : DerLen n (lenOctets (.definite n)) := by
  rcases (writeLength_spec (.definite n) (by intro m hm; simp at hm; omega)).2 with
    ⟨h, _⟩ | ⟨m, h, ⟨h1, b, e, hb⟩ | ⟨h1, b, x, xs, e, hb, hx, _, hv⟩⟩
  · simp at h
  · simp at h; subst h; rw [e]; exact .short b h1 hb
  · simp at h; subst h; rw [e]; exact .long b x xs h1 (by simpa using hb) hx hv

theorem beNat_lead {x : UInt8} {xs : Bytes} (hx : x.toNat ≠ 0) :
    256 ^ xs.length ≤ beNat (x :: xs) := by
  rw [beNat_cons]
  have : 1 * 256 ^ xs.length ≤ x.toNat * 256 ^ xs.length := Nat.mul_le_mul_right _ (by omega)
  omega

theorem derLen_unique {n : Nat} {l l' : Bytes} (h : DerLen n l) (h' : DerLen n l') : l = l' := by
  cases h with
  | short b h1 hb =>
    cases h' with
    | short b' _ hb' => rw [(byte_eq_iff b b').mpr (by omega)]
    | long _ _ _ h2 _ _ _ => omega
  | long b x xs h1 hb hx hv =>
    cases h' with
    | short _ h2 _ => omega
    | long b' x' xs' _ hb' hx' hv' =>
      have g1 := beNat_lead (xs := xs) hx
      have g2 := beNat_lead (xs := xs') hx'
      have g3 := beNat_lt (x :: xs)
      have g4 := beNat_lt (x' :: xs')
      simp only [List.length_cons] at g3 g4 hb hb'
      have hl : xs.length = xs'.length := by
        have a1 := (Nat.pow_lt_pow_iff_right (by omega : 1 < 256)).mp
          (by omega : 256 ^ xs.length < 256 ^ (xs'.length + 1))
        have a2 := (Nat.pow_lt_pow_iff_right (by omega : 1 < 256)).mp
          (by omega : 256 ^ xs'.length < 256 ^ (xs.length + 1))
        omega
      have e1 : b = b' := (byte_eq_iff b b').mpr (by omega)
      have e2 : x :: xs = x' :: xs' := beNat_inj (by simp [hl]) (by omega)
      rw [e1, e2]

end Asn1

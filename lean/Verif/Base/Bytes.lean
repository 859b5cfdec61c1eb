/-!
# Bytes and big-endian numbers

Vocabulary shared by the model and the specifications: byte strings are `List UInt8`,
`beNat` is the number denoted by a big-endian byte string, `toBE n v` the `n` low-order bytes
of `v` in big-endian order (Rust's `from_be_bytes` / `to_be_bytes`).
-/
namespace Asn1

instance {ε α : Type} [DecidableEq ε] [DecidableEq α] : DecidableEq (Except ε α)
  | .ok a, .ok b => if h : a = b then isTrue (by rw [h]) else isFalse (by simpa using h)
  | .error a, .error b => if h : a = b then isTrue (by rw [h]) else isFalse (by simpa using h)
  | .ok _, .error _ => isFalse (by simp)
  | .error _, .ok _ => isFalse (by simp)

/-- A byte string (`&[u8]`, `Vec<u8>`, `Cow<[u8]>`). -/
abbrev Bytes := List UInt8

/-- Number denoted by a big-endian byte string (`from_be_bytes`). -/
def beNat (bs : Bytes) : Nat := bs.foldl (fun a b => a * 256 + b.toNat) 0

/-- The `n` low-order bytes of `v`, most significant first (`to_be_bytes`). -/
def toBE : Nat → Nat → Bytes
  | 0, _ => []
  | n + 1, v => toBE n (v / 256) ++ [UInt8.ofNat v]

theorem foldl_be (bs : Bytes) (a : Nat) :
    bs.foldl (fun a b => a * 256 + b.toNat) a = a * 256 ^ bs.length + beNat bs := by
  induction bs generalizing a with
  | nil => simp [beNat]
  | cons b bs ih =>
    simp only [List.foldl_cons, List.length_cons, beNat]
    rw [ih, ih (0 * 256 + b.toNat)]
    simp only [Nat.add_mul, Nat.pow_succ, Nat.zero_mul, Nat.zero_add]
    rw [Nat.mul_assoc a, Nat.mul_comm 256, Nat.add_assoc]

@[simp] theorem beNat_nil : beNat [] = 0 := rfl

theorem beNat_cons (b : UInt8) (bs : Bytes) :
    beNat (b :: bs) = b.toNat * 256 ^ bs.length + beNat bs := by
  have := foldl_be bs (0 * 256 + b.toNat)
  simp only [beNat, List.foldl_cons] at *
  rw [this]; simp

theorem beNat_append (xs ys : Bytes) :
    beNat (xs ++ ys) = beNat xs * 256 ^ ys.length + beNat ys := by
  simp only [beNat, List.foldl_append]
  exact foldl_be ys _

@[simp] theorem beNat_singleton (b : UInt8) : beNat [b] = b.toNat := by simp [beNat]

theorem beNat_concat (xs : Bytes) (b : UInt8) : beNat (xs ++ [b]) = beNat xs * 256 + b.toNat := by
  rw [beNat_append]; simp

theorem beNat_lt (bs : Bytes) : beNat bs < 256 ^ bs.length := by
  induction bs with
  | nil => simp
  | cons b bs ih =>
    rw [beNat_cons, List.length_cons, Nat.pow_succ, Nat.mul_comm (256 ^ _)]
    have hb : b.toNat < 256 := b.toNat_lt
    have : b.toNat * 256 ^ bs.length + 256 ^ bs.length ≤ 256 * 256 ^ bs.length := by
      have := Nat.mul_le_mul_right (256 ^ bs.length) (Nat.succ_le_of_lt hb)
      rw [Nat.succ_mul] at this; exact this
    omega

@[simp] theorem toBE_length (n v : Nat) : (toBE n v).length = n := by
  induction n generalizing v with
  | zero => rfl
  | succ n ih => simp [toBE, ih]

theorem ofNat_toNat_mod (v : Nat) : (UInt8.ofNat v).toNat = v % 256 := by
  simp [UInt8.toNat_ofNat']

theorem beNat_toBE (n v : Nat) : beNat (toBE n v) = v % 256 ^ n := by
  induction n generalizing v with
  | zero => simp [toBE, Nat.mod_one]
  | succ n ih =>
    rw [toBE, beNat_concat, ih, ofNat_toNat_mod, Nat.pow_succ, Nat.mul_comm (256 ^ n),
      Nat.mod_mul]
    omega

theorem beNat_toBE_of_lt {n v : Nat} (h : v < 256 ^ n) : beNat (toBE n v) = v := by
  rw [beNat_toBE, Nat.mod_eq_of_lt h]

theorem toBE_beNat (bs : Bytes) : toBE bs.length (beNat bs) = bs := by
  have key : ∀ (n : Nat) (bs : Bytes), bs.length = n → toBE n (beNat bs) = bs := by
    intro n
    induction n with
    | zero => intro bs h; simp at h; simp [h, toBE]
    | succ n ih =>
      intro bs h
      rcases List.eq_nil_or_concat bs with rfl | ⟨xs, b, rfl⟩
      · simp at h
      · have hl : xs.length = n := by simpa using h
        have hb : b.toNat < 256 := b.toNat_lt
        rw [List.concat_eq_append, beNat_concat, toBE]
        have h1 : (beNat xs * 256 + b.toNat) / 256 = beNat xs := by omega
        have h2 : UInt8.ofNat (beNat xs * 256 + b.toNat) = b := by
          apply UInt8.toNat_inj.mp
          rw [ofNat_toNat_mod]; omega
        rw [h1, h2, ih xs hl]
  exact key bs.length bs rfl

/-- Byte strings of equal length denoting the same number are equal. -/
theorem beNat_inj {xs ys : Bytes} (hl : xs.length = ys.length) (h : beNat xs = beNat ys) :
    xs = ys := by
  rw [← toBE_beNat xs, ← toBE_beNat ys, hl, h]

theorem toNat_shiftRight (b : UInt8) (k : Nat) (hk : k < 8) :
    (b >>> UInt8.ofNat k).toNat = b.toNat / 2 ^ k := by
  rw [UInt8.toNat_shiftRight, ofNat_toNat_mod, Nat.mod_eq_of_lt (by omega : k < 256),
    Nat.mod_eq_of_lt hk, Nat.shiftRight_eq_div_pow]

end Asn1

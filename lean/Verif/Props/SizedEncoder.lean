import Verif.Proofs.SizedEncoder
/-!
# C138: lengths that do not fit `usize`
-/
namespace Asn1
open Spec

variable {α : Type} {u : Arith} {t : ToBer α} {s : SizedToBer α} {p : α → Nat}

/-- **C138** (partial) If the contents of the values inside and some bytes for each header are fewer than `2 ^ bits`,
then it does not matter how many bits `usize` has, and whether overflows are checked: the lengths are the ones of
unbounded numbers, and the encoder makes the same calls of the writer with the same bytes and returns the same result,
whatever the writer accepts. Missing: the larger values, for which it is false (`C138_checked`,
`C138_wraps_deviation`). -/
theorem C138_fits_partial (h : Sized u t s p) (v : α) (hv : p v < 2 ^ u.bits) :
    s.contentLen v = some (t.contentLen v) ∧ s.totalLen u v = some (t.totalLen v) ∧
    s.toVec u v = t.toVec v ∧
    ∀ (wr : Wr.Writer) hist, (s.encode u v).runFaulty wr hist = (t.encode v).runFaulty wr hist := by
  have hf := sized_follows h
  refine ⟨hf.len v hv, hf.total v hv, ?_, fun wr hist => ?_⟩
  · unfold SizedToBer.toVec ToBer.toVec
    rw [hf.encode v hv]
    split <;> simp_all
  · rw [hf.encode v hv]

/-- A `Vec` of structs with an OCTET STRING behind an EXPLICIT tag and an IMPLICIT INTEGER, on 16 bits: three items of a
few bytes each. -/
example : ∃ s p, Sized ⟨16, false⟩ (listToBer 16 (structToBer 16 (.cons (.explicit .contextSpecific 0) octetToBer
      (.cons (.implicit .contextSpecific 1) (uintToBer 4) .nil)))) s p ∧
    p [([1, 2, 3], 5, ()), ([], 70000, ()), ([9], 0, ())] < 2 ^ 16 ∧
    (s.toVec ⟨16, false⟩ [([1, 2, 3], 5, ()), ([], 70000, ()), ([9], 0, ())]).isOk = true :=
  ⟨_, _, .list 16 (.struct 16 (.cons _ (.leaf .octetString) (.cons _ (.leaf (.uint 4)) .nil))),
    by decide +kernel, by decide +kernel⟩

/-- **C138** A build with overflow checks, on any number of bits: against any writer, the encoder does what the one with
unbounded numbers does, or it panics, and until then it has written a part of the same bytes. -/
theorem C138_checked (hc : u.checked = true) (h : Sized u t s p) (v : α) (wr : Wr.Writer) (hist : List Bytes) :
    (s.encode u v).runFaulty wr hist = (t.encode v).runFaulty wr hist ∨
    (((s.encode u v).runFaulty wr hist).2 = .error .panic ∧
      ((s.encode u v).runFaulty wr hist).1 <+: ((t.encode v).runFaulty wr hist).1) :=
  stops_run ((sized_follows h).encodeStop hc v) wr hist

/-- **C138** The lengths too. -/
theorem C138_checked_length (hc : u.checked = true) (h : Sized u t s p) (v : α) :
    s.contentLen v = none ∨ s.contentLen v = some (t.contentLen v) :=
  (sized_follows h).lenStop hc v

/-- Both happen, on five bits: eight NULLs, and sixteen. -/
example : ((SizedToBer.items ⟨5, true⟩ 16 id (.leaf ⟨5, true⟩ nullToBer)).toVec ⟨5, true⟩
      (List.replicate 8 ())).isOk = true ∧
    (SizedToBer.items ⟨5, true⟩ 16 id (.leaf ⟨5, true⟩ nullToBer)).toVec ⟨5, true⟩ (List.replicate 16 ()) =
      .error .panic := by decide +kernel

/-! ### Sums of lengths -/

theorem lengths_checked {l : α → Nat} (hc : u.checked = true) (vs : List α)
    (hl : ∀ v ∈ vs, s.totalLen u v = some (.definite (l v))) (acc : Nat) (ha : acc < 2 ^ u.bits) :
    s.lengthItems u vs (.definite acc) =
      if acc + (vs.map l).sum < 2 ^ u.bits then some (.definite (acc + (vs.map l).sum)) else none := by
  induction vs generalizing acc with
  | nil => simp [SizedToBer.lengthItems, ha]
  | cons v vs ih =>
    unfold SizedToBer.lengthItems
    rw [hl v (List.mem_cons_self ..)]
    show ((u.fit (acc + l v)).map Length.definite).bind _ = _
    simp only [List.map_cons, List.sum_cons]
    by_cases hf : acc + l v < 2 ^ u.bits
    · rw [fit_ok hf]
      show s.lengthItems u vs (.definite (acc + l v)) = _
      rw [ih (fun v hv => hl v (List.mem_cons_of_mem _ hv)) _ hf, Nat.add_assoc]
    · unfold Arith.fit
      rw [if_neg hf, if_pos hc, if_neg (by omega)]; rfl

theorem fit_wraps (hc : u.checked = false) (n : Nat) : u.fit n = some (n % 2 ^ u.bits) := by
  unfold Arith.fit
  by_cases h : n < 2 ^ u.bits
  · rw [if_pos h, Nat.mod_eq_of_lt h]
  · rw [if_neg h, if_neg (by rw [hc]; decide)]

theorem lengths_wrap {l : α → Nat} (hc : u.checked = false) (vs : List α)
    (hl : ∀ v ∈ vs, s.totalLen u v = some (.definite (l v))) (acc : Nat) (ha : acc < 2 ^ u.bits) :
    s.lengthItems u vs (.definite acc) = some (.definite ((acc + (vs.map l).sum) % 2 ^ u.bits)) := by
  induction vs generalizing acc with
  | nil => simp [SizedToBer.lengthItems, Nat.mod_eq_of_lt ha]
  | cons v vs ih =>
    unfold SizedToBer.lengthItems
    rw [hl v (List.mem_cons_self ..)]
    show ((u.fit (acc + l v)).map Length.definite).bind _ = _
    rw [fit_wraps hc]
    show s.lengthItems u vs (.definite ((acc + l v) % 2 ^ u.bits)) = _
    rw [ih (fun v hv => hl v (List.mem_cons_of_mem _ hv)) _ (Nat.mod_lt _ (Nat.two_pow_pos _))]
    simp only [List.map_cons, List.sum_cons, Nat.mod_add_mod, Nat.add_assoc]

/-- **C138** The length of a `Vec`, `SequenceOf`, `SetOf`, array, `BTreeSet` or `HashSet` whose items have lengths that
fit: with overflow checks, there is a panic exactly if the sum does not fit; without, the length is the sum modulo
`2 ^ bits`. -/
theorem C138_sum {σ : Type} (tag : Nat) (toList : σ → List α) (c : σ) (l : α → Nat)
    (hl : ∀ v ∈ toList c, s.totalLen u v = some (.definite (l v))) :
    (u.checked = true → (SizedToBer.items u tag toList s).contentLen c =
      if ((toList c).map l).sum < 2 ^ u.bits then some (.definite ((toList c).map l).sum) else none) ∧
    (u.checked = false → (SizedToBer.items u tag toList s).contentLen c =
      some (.definite (((toList c).map l).sum % 2 ^ u.bits))) := by
  refine ⟨fun hc => ?_, fun hc => ?_⟩
  · have := lengths_checked hc (toList c) hl 0 (Nat.two_pow_pos _)
    rwa [Nat.zero_add] at this
  · have := lengths_wrap hc (toList c) hl 0 (Nat.two_pow_pos _)
    rwa [Nat.zero_add] at this

/-- NULLs have two bytes each. -/
theorem null_total (hb : 5 ≤ u.bits) : (SizedToBer.leaf u nullToBer).totalLen u () = some (.definite 2) := by
  have h5 : 2 ^ 5 ≤ 2 ^ u.bits := Nat.pow_le_pow_right (by omega) hb
  show ((u.fit 0).map Length.definite).bind _ = _
  rw [fit_ok (by omega)]
  show (u.add 0 2).map Length.definite = _
  rw [add_ok (by omega)]; rfl

/-! ### Vectors of NULLs -/

theorem sized_null (hb : 5 ≤ u.bits) : Wr.Writes ((SizedToBer.leaf u nullToBer).encode u ()) [5, 0] 2 := by
  have h5 : 2 ^ 5 ≤ 2 ^ u.bits := Nat.pow_le_pow_right (by omega) hb
  have hf : Follows u nullToBer (.leaf u nullToBer) _ := follows_leaf .null
  rw [hf.encode () (show 18 < 2 ^ u.bits by omega)]
  exact (by decide +kernel : (nullToBer.encode ()).exec = ([5, 0], .ok 2))

theorem nulls_write (hc : u.checked = false) (hb : 5 ≤ u.bits) (k acc : Nat) :
    ∃ n, Wr.Writes ((SizedToBer.leaf u nullToBer).writeItems u (List.replicate k ()) acc)
      (List.replicate k [5, 0]).flatten n := by
  induction k generalizing acc with
  | zero => exact ⟨acc, rfl⟩
  | succ k ih =>
    obtain ⟨n, hn⟩ := ih ((acc + 2) % 2 ^ u.bits)
    refine ⟨n, ?_⟩
    rw [List.replicate_succ, List.replicate_succ, List.flatten_cons]
    refine (sized_null hb).bind ?_
    show Wr.Writes (Wr.ofOption (u.fit (acc + 2)) >>= _) _ _
    rw [fit_wraps hc]
    exact hn

/-- **C138** (deviation) A release build, on any number of bits (five or more): the encoding of `vec![(); 1 << (w - 1)]`
starts with a header that announces an empty SEQUENCE, and the `2 ^ w` bytes of the NULLs follow it; there is no error. A
debug build panics after the tag. -/
theorem C138_wraps_deviation (w : Nat) (hw : 4 ≤ w) :
    (SizedToBer.items ⟨w + 1, false⟩ 16 id (.leaf ⟨w + 1, false⟩ nullToBer)).toVec ⟨w + 1, false⟩
      (List.replicate (2 ^ w) ()) = .ok ([0x30, 0x00] ++ (List.replicate (2 ^ w) [5, 0]).flatten) ∧
    ((SizedToBer.items ⟨w + 1, true⟩ 16 id (.leaf ⟨w + 1, true⟩ nullToBer)).encode ⟨w + 1, true⟩
      (List.replicate (2 ^ w) ())).exec = ([0x30], .error .panic) := by
  have hsum : ∀ (a : Nat), (((List.replicate a ()).map fun _ => 2).sum) = 2 * a := by
    intro a
    simp [Nat.mul_comm]
  have hpow : 2 * 2 ^ w = 2 ^ (w + 1) := by rw [Nat.pow_succ, Nat.mul_comm]
  have htot : ∀ b : Bool, ∀ v ∈ List.replicate (2 ^ w) (), (SizedToBer.leaf ⟨w + 1, b⟩ nullToBer).totalLen ⟨w + 1, b⟩ v =
      some (.definite 2) := fun b v _ => null_total (u := ⟨w + 1, b⟩) (show 5 ≤ w + 1 by omega)
  constructor
  · have hlen := (C138_sum (u := ⟨w + 1, false⟩) 16 id (List.replicate (2 ^ w) ()) (fun _ => 2) (htot false)).2 rfl
    simp only [id] at hlen
    rw [hsum, hpow, Nat.mod_self] at hlen
    obtain ⟨n, hn⟩ := nulls_write (u := ⟨w + 1, false⟩) rfl (show 5 ≤ w + 1 by omega) (2 ^ w) 0
    have hh : Wr.Writes ((SizedToBer.items ⟨w + 1, false⟩ 16 id (.leaf ⟨w + 1, false⟩ nullToBer)).writeHeader
        ⟨w + 1, false⟩ (List.replicate (2 ^ w) ())) [0x30, 0x00] (2 % 2 ^ (w + 1)) := by
      unfold SizedToBer.writeHeader
      rw [hlen]
      refine Wr.Writes.bind (bs := [0x30]) (cs := [0x00]) (a := 1)
        (by decide +kernel : (EncoderKind.constructed.writeTagInfo .universal true 16).exec = ([0x30], .ok 1)) ?_
      rw [option_some]
      refine (Wr.Writes.bind (bs := [0x00]) (cs := []) (a := 1)
        (by decide +kernel : (writeLength (.definite 0)).exec = ([0x00], .ok 1)) ?_)
      show Wr.Writes (Wr.ofOption (Arith.fit _ 2)) _ _
      rw [fit_wraps rfl]; rfl
    have he : Wr.Writes ((SizedToBer.items ⟨w + 1, false⟩ 16 id (.leaf ⟨w + 1, false⟩ nullToBer)).encode
        ⟨w + 1, false⟩ (List.replicate (2 ^ w) ())) ([0x30, 0x00] ++ ((List.replicate (2 ^ w) [5, 0]).flatten ++ []))
        ((2 % 2 ^ (w + 1) + n) % 2 ^ (w + 1)) := by
      refine hh.bind (hn.bind ?_)
      show Wr.Writes (Wr.ofOption (Arith.fit _ _)) _ _
      rw [fit_wraps rfl]; rfl
    unfold SizedToBer.toVec
    rw [show (SizedToBer.encode _ _ _).exec = _ from he, List.append_nil]
  · have hlen := (C138_sum (u := ⟨w + 1, true⟩) 16 id (List.replicate (2 ^ w) ()) (fun _ => 2) (htot true)).1 rfl
    simp only [id] at hlen
    rw [hsum, hpow, if_neg (by show ¬ 2 ^ (w + 1) < 2 ^ (w + 1); omega)] at hlen
    unfold SizedToBer.encode SizedToBer.writeHeader
    rw [hlen]
    have ht : (EncoderKind.constructed.writeTagInfo .universal true 16).exec = ([0x30], .ok 1) := by decide +kernel
    have ht' : (((SizedToBer.items ⟨w + 1, true⟩ 16 id (.leaf ⟨w + 1, true⟩ nullToBer)).encoder).writeTagInfo
      ((SizedToBer.items ⟨w + 1, true⟩ 16 id (.leaf ⟨w + 1, true⟩ nullToBer)).tagInfo (List.replicate (2 ^ w) ())).1
      ((SizedToBer.items ⟨w + 1, true⟩ 16 id (.leaf ⟨w + 1, true⟩ nullToBer)).tagInfo (List.replicate (2 ^ w) ())).2.1
      ((SizedToBer.items ⟨w + 1, true⟩ 16 id (.leaf ⟨w + 1, true⟩ nullToBer)).tagInfo
        (List.replicate (2 ^ w) ())).2.2).exec = ([0x30], .ok 1) := ht
    simp only [Wr.exec_bind, ht']
    rfl

/-- The smallest case, computed. -/
example : (SizedToBer.items ⟨5, false⟩ 16 id (.leaf ⟨5, false⟩ nullToBer)).toVec ⟨5, false⟩ (List.replicate 16 ()) =
    .ok ([0x30, 0x00] ++ (List.replicate 16 [5, 0]).flatten) := by decide +kernel

end Asn1

import Verif.Model.Oid
import Verif.Spec.Oid
import Verif.Proofs.Minimal
/-!
# Sub-identifiers
-/
namespace Asn1
open Spec

/-- The `k` low septets, most significant first. -/
def septets : Nat → Nat → Bytes
  | 0, _ => []
  | k + 1, id =>
    (UInt8.ofNat ((id >>> (7 * k)) &&& 0x7f) ||| (if k = 0 then 0 else 0x80)) :: septets k id

theorem encodeArc_eq (id : Nat) : encodeArc id = septets (max ((bitLen id + 6) / 7) 1) id := by
  have : ∀ k, (List.range k).map (fun i =>
      UInt8.ofNat ((id >>> (7 * (k - 1 - i))) &&& 0x7f) ||| (if i = k - 1 then 0 else 0x80))
      = septets k id := by
    intro k
    induction k with
    | zero => rfl
    | succ k ih =>
      rw [List.range_succ_eq_map, List.map_cons, List.map_map, septets, ← ih]
      congr 1
      · simp
        cases k <;> simp
      · apply List.map_congr_left
        intro i hi
        simp only [List.mem_range] at hi
        simp only [Function.comp]
        have e1 : k + 1 - 1 - i.succ = k - 1 - i := by omega
        have e2 : (i.succ = k + 1 - 1) = (i = k - 1) := by apply propext; omega
        rw [e1]
        simp only [e2]
  exact this _

theorem septByte (n : Nat) (last : Bool) :
    let b := UInt8.ofNat (n &&& 0x7f) ||| (if last then 0 else 0x80)
    b.toNat % 128 = n % 128 ∧ (if last then b.toNat < 128 else 128 ≤ b.toNat) := by
  have h1 : n &&& 0x7f = n % 128 := Nat.and_two_pow_sub_one_eq_mod n 7
  have h2 : ∀ (k : Fin 128) (l : Bool),
      (UInt8.ofNat k.val ||| (if l then 0 else 0x80)).toNat % 128 = k.val ∧
      (if l then (UInt8.ofNat k.val ||| (if l then 0 else 0x80)).toNat < 128
        else 128 ≤ (UInt8.ofNat k.val ||| (if l then 0 else 0x80)).toNat) := by decide +kernel
  simp only [h1]
  exact h2 ⟨n % 128, Nat.mod_lt _ (by decide)⟩ last

theorem shift7 (id k : Nat) : id >>> (7 * k) = id / 128 ^ k := by
  rw [Nat.shiftRight_eq_div_pow, Nat.pow_mul]

theorem septets_length (k id : Nat) : (septets k id).length = k := by
  induction k with
  | zero => rfl
  | succ k ih => simp [septets, ih]

theorem septets_base (k id : Nat) : base128 (septets k id) = id % 128 ^ k := by
  induction k with
  | zero => simp [septets, base128, Nat.mod_one]
  | succ k ih =>
    have := (septByte (id >>> (7 * k)) (decide (k = 0))).1
    simp only [decide_eq_true_eq] at this
    rw [septets, base128_cons, this, ih, septets_length, shift7, Nat.pow_succ,
      Nat.mod_mul (a := 128 ^ k), Nat.mul_comm, Nat.add_comm]

theorem septets_group (k id : Nat) (hk : 1 ≤ k) : IsGroup (septets k id) := by
  induction k with
  | zero => omega
  | succ k ih =>
    have := (septByte (id >>> (7 * k)) (decide (k = 0))).2
    simp only [decide_eq_true_eq] at this
    by_cases h0 : k = 0
    · subst h0
      exact ⟨[], _, rfl, by simp, by simpa using this⟩
    · obtain ⟨init, last, e, h1, h2⟩ := ih (by omega)
      rw [if_neg h0] at this
      refine ⟨_ :: init, last, by rw [septets, e]; rfl, ?_, h2⟩
      intro b hb
      simp only [List.mem_cons] at hb
      rcases hb with rfl | hb
      · exact this
      · exact h1 b hb

theorem bitLen_lt (v : Nat) : v < 2 ^ bitLen v := by
  unfold bitLen
  split
  · subst v; decide
  · exact Nat.lt_log2_self

theorem le_bitLen {v : Nat} (h : v ≠ 0) : 2 ^ (bitLen v - 1) ≤ v := by
  unfold bitLen
  rw [if_neg h]; exact Nat.log2_self_le h

theorem encodeArc_subId (id : Nat) : SubId id (encodeArc id) := by
  rw [encodeArc_eq]
  generalize hk : max ((bitLen id + 6) / 7) 1 = k
  have hb := bitLen_lt id
  have hlt : id < 128 ^ k := by
    have : 2 ^ bitLen id ≤ 2 ^ (7 * k) := Nat.pow_le_pow_right (by decide) (by omega)
    rw [Nat.pow_mul] at this
    have e : (2 ^ 7 : Nat) = 128 := rfl
    rw [e] at this; omega
  refine ⟨septets_group k id (by omega), by rw [septets_base]; exact Nat.mod_eq_of_lt hlt, ?_⟩
  intro x xs hx
  obtain ⟨k, rfl⟩ : ∃ j, k = j + 1 := ⟨k - 1, by omega⟩
  rw [septets] at hx
  obtain ⟨rfl, -⟩ := List.cons.inj hx
  have := septByte (id >>> (7 * k)) (decide (k = 0))
  simp only [decide_eq_true_eq] at this
  obtain ⟨g1, g2⟩ := this
  generalize (UInt8.ofNat (id >>> (7 * k) &&& 0x7f) ||| (if k = 0 then 0 else 0x80)) = x at g1 g2 ⊢
  by_cases h0 : k = 0
  · rw [if_pos h0] at g2; omega
  · rw [if_neg h0] at g2
    have hid : id ≠ 0 := by rintro rfl; simp [bitLen] at hk; omega
    have h1 := le_bitLen hid
    have h2 : 2 ^ (7 * k) ≤ 2 ^ (bitLen id - 1) := Nat.pow_le_pow_right (by decide) (by omega)
    rw [Nat.pow_mul] at h2
    have e : (2 ^ 7 : Nat) = 128 := rfl
    rw [e] at h2
    have h3 : 1 ≤ id / 128 ^ k := (Nat.le_div_iff_mul_le (Nat.pow_pos (by decide))).mpr (by omega)
    have h4 : id / 128 ^ k < 128 := Nat.div_lt_of_lt_mul (by rw [← Nat.pow_succ]; exact hlt)
    rw [shift7, Nat.mod_eq_of_lt h4] at g1
    omega

theorem subId_unique {n : Nat} {bs bs' : Bytes} (h : SubId n bs) (h' : SubId n bs') : bs = bs' := by
  obtain ⟨⟨hi, last, rfl, g1, g2⟩, hv, hz⟩ := h
  obtain ⟨⟨hi', last', rfl, g1', g2'⟩, hv', hz'⟩ := h'
  rw [base128_concat] at hv hv'
  have e2 : last = last' := by rw [byte_eq_iff]; omega
  have e3 : hi = hi' := by
    refine base128_unique hi.length hi hi' (Nat.le_refl _) g1 g1' ?_ ?_ (by omega)
    · rintro a t rfl; exact hz a _ rfl
    · rintro a t rfl; exact hz' a _ rfl
  rw [e2, e3]

theorem encodeRelative_subIds (ids : List Nat) : SubIds ids (encodeRelative ids) := by
  refine ⟨ids.map encodeArc, ?_, by simp [encodeRelative, List.flatMap]⟩
  induction ids with
  | nil => exact .nil
  | cons a ids ih => exact .cons (encodeArc_subId a) ih

theorem subId_length {n : Nat} {bs : Bytes} (h : SubId n bs) :
    1 ≤ bs.length ∧ n < 128 ^ bs.length ∧ (bs.length = 1 ∨ 128 ^ (bs.length - 1) ≤ n) := by
  obtain ⟨⟨hi, last, rfl, g1, g2⟩, hv, hz⟩ := h
  refine ⟨by simp, by rw [← hv]; exact base128_lt _, ?_⟩
  cases hi with
  | nil => left; rfl
  | cons x xs =>
    right
    have h1 := hz x _ rfl
    have h2 := g1 x List.mem_cons_self
    have h3 := x.toNat_lt
    have h4 : 1 ≤ x.toNat % 128 := by omega
    rw [List.cons_append, base128_cons] at hv
    simp at hv ⊢
    have : 1 * 128 ^ (xs.length + 1) ≤ x.toNat % 128 * 128 ^ (xs.length + 1) :=
      Nat.mul_le_mul_right _ h4
    omega

/-- Sub-identifiers below `2^63` are those of at most nine octets. -/
theorem subId_nine {n : Nat} {bs : Bytes} (h : SubId n bs) : bs.length ≤ 9 ↔ n < 2 ^ 63 := by
  obtain ⟨h1, h2, h3⟩ := subId_length h
  have e : (128 ^ 9 : Nat) = 2 ^ 63 := rfl
  constructor
  · intro hl
    have : 128 ^ bs.length ≤ 128 ^ 9 := Nat.pow_le_pow_right (by decide) hl
    omega
  · intro hn
    rcases h3 with h3 | h3
    · omega
    · by_cases hl : bs.length ≤ 9
      · exact hl
      · have : 128 ^ 9 ≤ 128 ^ (bs.length - 1) := Nat.pow_le_pow_right (by decide) (by omega)
        omega

theorem top7 (o : UInt8) : (o >>> 7 = 0) ↔ o.toNat < 128 := by
  revert o; apply forall_byte; decide +kernel

theorem low7 (o : UInt8) : (o &&& 0x7f).toNat = o.toNat % 128 := by
  revert o; apply forall_byte; decide +kernel

theorem arcLoop_group (wrap : Nat → Nat) (hi : Bytes) (last : UInt8) (rest : Bytes)
    (h1 : ∀ b ∈ hi, 128 ≤ b.toNat) (h2 : last.toNat < 128) (res n : Nat)
    (hw : ∀ x, x ≤ res * 128 ^ (hi.length + 1) + base128 (hi ++ [last]) → wrap x = x) :
    arcLoop wrap ((hi ++ [last]) ++ rest) res n =
      (res * 128 ^ (hi.length + 1) + base128 (hi ++ [last]), n + hi.length + 1) := by
  induction hi generalizing res n with
  | nil =>
    rw [List.nil_append, List.singleton_append, arcLoop]
    simp only [List.nil_append, List.length_nil, Nat.zero_add, Nat.pow_one] at hw ⊢
    have hb : base128 [last] = last.toNat % 128 := by simp [base128]
    rw [if_pos ((top7 last).mpr h2), low7, Nat.shiftLeft_eq, hw (res * 2 ^ 7) (by omega), hb]
  | cons b hi ih =>
    have hb : 128 ≤ b.toNat := h1 b List.mem_cons_self
    have hne : ¬ (b >>> 7 = 0) := fun h => by have := (top7 b).mp h; omega
    rw [List.cons_append, base128_cons] at hw
    rw [List.cons_append, List.cons_append, arcLoop, base128_cons]
    simp only [List.length_cons, List.length_append, List.length_nil, Nat.zero_add] at hw ⊢
    rw [if_neg hne, low7, Nat.shiftLeft_eq]
    have hp : 1 ≤ 128 ^ (hi.length + 1) := Nat.pow_pos (by decide)
    have e : (2 ^ 7 : Nat) = 128 := rfl
    have hle : res * 2 ^ 7 ≤ res * 128 ^ (hi.length + 1 + 1) := by
      rw [e, Nat.pow_succ]
      exact Nat.mul_le_mul_left _ (by omega)
    rw [hw _ (by omega)]
    have key : (res * 2 ^ 7 + b.toNat % 128) * 128 ^ (hi.length + 1)
        = res * 128 ^ (hi.length + 1 + 1) + b.toNat % 128 * 128 ^ (hi.length + 1) := by
      rw [Nat.add_mul, e, Nat.mul_assoc, ← Nat.pow_succ']
    rw [ih (fun x hx => h1 x (List.mem_cons_of_mem _ hx)) _ _ (by
      intro x hx; exact hw x (by rw [key] at hx; omega)), key]
    simp only [Prod.mk.injEq]
    omega

theorem next_end (wrap : Nat → Nat) (o : Oid) (first : Bool) :
    (SubIter.mk o o.asn1.length first).next wrap = (none, ⟨o, o.asn1.length, first⟩) := by
  obtain ⟨l, rel⟩ := o
  cases l with
  | nil => rfl
  | cons b0 bs => simp [SubIter.next]

theorem next_loop (wrap : Nat → Nat) (o : Oid) (pos : Nat) (first : Bool)
    (hpos : pos < o.asn1.length) (hst : o.relative = true ∨ (first = true ∧ 0 < pos)) :
    (SubIter.mk o pos first).next wrap =
      (some (arcLoop wrap (o.asn1.drop pos) 0 0).1,
        ⟨o, pos + (arcLoop wrap (o.asn1.drop pos) 0 0).2, first⟩) := by
  obtain ⟨l, rel⟩ := o
  cases l with
  | nil => simp at hpos
  | cons b0 bs =>
    simp only [SubIter.next]
    rw [if_neg (by simp at hpos ⊢; omega)]
    rcases hst with hst | ⟨hst, hp⟩
    · simp at hst; subst hst; simp
    · subst hst
      cases rel
      · simp
        intro h; omega
      · simp

/-- Reading sub-identifiers one after the other. -/
theorem collect_subIds (wrap : Nat → Nat) (o : Oid) {ns : List Nat} {parts : List Bytes}
    (h : Pointwise SubId ns parts) (hw : ∀ n ∈ ns, ∀ x ≤ n, wrap x = x) (pos fuel : Nat)
    (first : Bool) (hst : o.relative = true ∨ (first = true ∧ 0 < pos))
    (hpos : pos ≤ o.asn1.length) (hd : o.asn1.drop pos = parts.flatten) (hf : ns.length < fuel) :
    SubIter.collect wrap fuel ⟨o, pos, first⟩ = some ns := by
  induction h generalizing pos fuel with
  | nil =>
    obtain ⟨fuel, rfl⟩ : ∃ f, fuel = f + 1 := ⟨fuel - 1, by omega⟩
    have : pos = o.asn1.length := by
      have := congrArg List.length hd
      simp at this; omega
    rw [SubIter.collect, this, next_end]
  | @cons n part ns parts hn ht ih =>
    obtain ⟨fuel, rfl⟩ : ∃ f, fuel = f + 1 := ⟨fuel - 1, by omega⟩
    have hn' := hn
    obtain ⟨⟨hi, last, rfl, g1, g2⟩, hv, hz⟩ := hn
    have hlen := congrArg List.length hd
    simp only [List.length_drop, List.flatten_cons, List.length_append, List.length_cons,
      List.length_nil] at hlen
    have hloop := arcLoop_group wrap hi last parts.flatten g1 g2 0 0 (by
      intro x hx
      rw [hv] at hx
      exact hw n List.mem_cons_self x (by omega))
    have hl : arcLoop wrap (o.asn1.drop pos) 0 0 = (n, hi.length + 1) := by
      rw [hd, List.flatten_cons, hloop, hv]; simp
    rw [SubIter.collect, next_loop wrap o pos first (by omega) hst, hl]
    simp only
    rw [ih (fun m hm => hw m (List.mem_cons_of_mem _ hm)) (pos + (hi.length + 1)) fuel
      (by rcases hst with h | h
          · exact .inl h
          · exact .inr ⟨h.1, by omega⟩) (by omega) ?_ (by simp at hf; omega)]
    · rfl
    · rw [← List.drop_drop, hd, List.flatten_cons, List.drop_left' (by simp)]

/-- The fold of `iter` over whole groups. -/
theorem maxBits_parts {ns : List Nat} {parts : List Bytes} (h : Pointwise SubId ns parts) :
    maxBits parts.flatten > 64 ↔ ¬ ∀ n ∈ ns, n < 2 ^ 63 := by
  let f : Nat × Nat → UInt8 → Nat × Nat := fun s c =>
    if c >>> 7 = 0 then (max s.1 (s.2 + 7), 0) else (s.1, s.2 + 7)
  have hgroup : ∀ (hi : Bytes) (last : UInt8), (∀ b ∈ hi, 128 ≤ b.toNat) → last.toNat < 128 →
      ∀ m c, (hi ++ [last]).foldl f (m, c) = (max m (c + 7 * (hi.length + 1)), 0) := by
    intro hi last h1 h2
    induction hi with
    | nil =>
      intro m c
      simp only [List.nil_append, List.foldl_cons, List.foldl_nil, f]
      rw [if_pos ((top7 last).mpr h2)]; simp
    | cons b hi ih =>
      intro m c
      have hb := h1 b List.mem_cons_self
      have hne : ¬ (b >>> 7 = 0) := fun h => by have := (top7 b).mp h; omega
      rw [List.cons_append, List.foldl_cons]
      show List.foldl f (if b >>> 7 = 0 then _ else _) _ = _
      rw [if_neg hne, ih (fun x hx => h1 x (List.mem_cons_of_mem _ hx))]
      simp only [List.length_cons, Prod.mk.injEq, and_true]
      congr 1; omega
  have hall : ∀ m, (parts.flatten.foldl f (m, 0)).1 > 64 ↔ m > 64 ∨ ¬ ∀ n ∈ ns, n < 2 ^ 63 := by
    induction h with
    | nil => intro m; simp
    | @cons n part ns parts hn ht ih =>
      intro m
      have h9 := subId_nine hn
      obtain ⟨⟨hi, last, rfl, g1, g2⟩, hv, hz⟩ := hn
      rw [List.flatten_cons, List.foldl_append, hgroup hi last g1 g2, ih]
      simp only [List.length_append, List.length_cons, List.length_nil] at h9
      simp only [List.mem_cons, forall_eq_or_imp, Classical.not_and_iff_not_or_not]
      rw [← h9]
      constructor
      · rintro (h | h)
        · by_cases hm : m > 64
          · exact .inl hm
          · exact .inr (.inl (by omega))
        · exact .inr (.inr h)
      · rintro (h | h | h)
        · exact .inl (by omega)
        · exact .inl (by omega)
        · exact .inr h
  have := hall 0
  unfold maxBits
  rw [this]; simp

/-- Two lists of sub-identifiers: one's octets are a prefix of the other's exactly when the
numbers are. -/
theorem subIds_prefix {ns ms : List Nat} {ps qs : List Bytes} (h : Pointwise SubId ns ps)
    (h' : Pointwise SubId ms qs) : ps.flatten <+: qs.flatten ↔ ns <+: ms := by
  have hsplit : ∀ (hi hi' : Bytes) (l l' : UInt8) (r r' : Bytes), (∀ b ∈ hi, 128 ≤ b.toNat) →
      (∀ b ∈ hi', 128 ≤ b.toNat) → l.toNat < 128 → l'.toNat < 128 →
      (hi ++ [l]) ++ r = (hi' ++ [l']) ++ r' → hi = hi' ∧ l = l' ∧ r = r' := by
    intro hi
    induction hi with
    | nil =>
      intro hi' l l' r r' _ h2 h3 h4 e
      cases hi' with
      | nil => simp at e; exact ⟨rfl, e.1, e.2⟩
      | cons b hi' =>
        simp at e
        have := h2 b List.mem_cons_self
        rw [← e.1] at this; omega
    | cons a hi ih =>
      intro hi' l l' r r' h1 h2 h3 h4 e
      cases hi' with
      | nil =>
        simp at e
        have := h1 a List.mem_cons_self
        rw [e.1] at this; omega
      | cons b hi' =>
        simp only [List.cons_append, List.cons.injEq] at e
        obtain ⟨e1, e2, e3⟩ := ih hi' l l' r r' (fun x hx => h1 x (List.mem_cons_of_mem _ hx))
          (fun x hx => h2 x (List.mem_cons_of_mem _ hx)) h3 h4 e.2
        exact ⟨by rw [e.1, e1], e2, e3⟩
  induction h generalizing ms qs with
  | nil => simp
  | @cons n p ns ps hn ht ih =>
    cases h' with
    | nil =>
      have := (subId_length hn).1
      constructor
      · rintro ⟨t, e⟩
        have := congrArg List.length e
        simp only [List.flatten_cons, List.length_append, List.flatten_nil, List.length_nil] at this
        omega
      · rintro ⟨t, e⟩; simp at e
    | @cons m q ms qs hm ht' =>
      rw [List.flatten_cons, List.flatten_cons]
      have key : p ++ ps.flatten <+: q ++ qs.flatten ↔ n = m ∧ ps.flatten <+: qs.flatten := by
        constructor
        · rintro ⟨t, e⟩
          have hn' := hn
          have hm' := hm
          obtain ⟨⟨hi, last, rfl, g1, g2⟩, hv, hz⟩ := hn
          obtain ⟨⟨hi', last', rfl, g1', g2'⟩, hv', hz'⟩ := hm
          rw [List.append_assoc] at e
          obtain ⟨rfl, rfl, e3⟩ := hsplit _ _ _ _ _ _ g1 g1' g2 g2' e
          exact ⟨by rw [← hv, ← hv'], t, e3⟩
        · rintro ⟨rfl, h⟩
          rw [subId_unique hn hm]
          exact (List.prefix_append_right_inj q).mpr h
      rw [key, List.cons_prefix_cons]
      exact and_congr_right fun _ => ih ht'

end Asn1

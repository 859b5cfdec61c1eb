import Verif.Props.OidText
/-!
# Iterating over the arcs of arbitrary contents (C103)

Decoders accept any non-empty content of an OBJECT IDENTIFIER, well formed or not; here is what
iterating over it gives.
-/
namespace Asn1
open Spec

theorem groups_exist : ∀ bs : Bytes, ∃ gs, Groups bs gs := by
  have step : ∀ (n : Nat) (bs : Bytes), bs.length ≤ n → ∃ gs, Groups bs gs := by
    intro n
    induction n with
    | zero =>
      intro bs h
      obtain rfl : bs = [] := List.eq_nil_of_length_eq_zero (by omega)
      exact ⟨_, .nil⟩
    | succ n ih =>
      intro bs h
      have split : ∀ bs : Bytes, (∀ b ∈ bs, 128 ≤ b.toNat) ∨
          ∃ g rest, bs = g ++ rest ∧ IsGroup g ∧ rest.length < bs.length := by
        intro bs
        induction bs with
        | nil => exact .inl fun b hb => by cases hb
        | cons b bs ihb =>
          by_cases hb : b.toNat < 128
          · exact .inr ⟨[b], bs, rfl, ⟨[], b, rfl, (fun _ h => by cases h), hb⟩, by simp⟩
          · rcases ihb with h | ⟨g, rest, rfl, ⟨i, l, rfl, h1, h2⟩, h3⟩
            · refine .inl fun x hx => ?_
              rcases List.mem_cons.mp hx with rfl | hx
              · omega
              · exact h x hx
            · refine .inr ⟨b :: (i ++ [l]), rest, rfl, ⟨b :: i, l, rfl, fun x hx => ?_, h2⟩, ?_⟩
              · rcases List.mem_cons.mp hx with rfl | hx
                · omega
                · exact h1 x hx
              · simp only [List.length_cons]; omega
      rcases split bs with hc | ⟨g, rest, rfl, hg, hl⟩
      · by_cases he : bs = []
        · exact ⟨[], he ▸ .nil⟩
        · exact ⟨[bs], .cut bs he hc⟩
      · obtain ⟨gs, hgs⟩ := ih rest (by omega)
        exact ⟨_, .next g rest gs hg hgs⟩
  exact fun bs => step bs.length bs (Nat.le_refl _)

/-- The arithmetic of a number type that keeps the low bits. -/
def LowBits (W : Nat → Nat) : Prop := W 0 = 0 ∧ ∀ x d, d < 128 → W (W x * 128) + d = W (x * 128 + d)

theorem lowBits_id : LowBits id := ⟨rfl, fun _ _ _ => rfl⟩

theorem lowBits_u64 : LowBits (· % 2 ^ 64) := by
  refine ⟨rfl, fun x d hd => ?_⟩
  have e : (2 : Nat) ^ 64 = 18446744073709551616 := by decide
  simp only [e]
  omega

theorem arcLoop_high {W : Nat → Nat} (hW : LowBits W) (hi rest : Bytes)
    (h : ∀ b ∈ hi, 128 ≤ b.toNat) (x n : Nat) :
    arcLoop W (hi ++ rest) (W x) n =
      arcLoop W rest (W (x * 128 ^ hi.length + base128 hi)) (n + hi.length) := by
  induction hi generalizing x n with
  | nil => simp [base128]
  | cons b hi ih =>
    have hb := h b List.mem_cons_self
    rw [List.cons_append, arcLoop]
    rw [if_neg (fun hc => by have := (top7 b).mp hc; omega), low7, Nat.shiftLeft_eq,
      show (2 : Nat) ^ 7 = 128 from rfl, hW.2 x _ (Nat.mod_lt _ (by decide)),
      ih (fun y hy => h y (List.mem_cons_of_mem _ hy)), base128_cons, List.length_cons]
    have e : (x * 128 + b.toNat % 128) * 128 ^ hi.length + base128 hi =
        x * 128 ^ (hi.length + 1) + (b.toNat % 128 * 128 ^ hi.length + base128 hi) := by
      rw [Nat.add_mul, Nat.mul_assoc, ← Nat.pow_succ', Nat.add_assoc]
    rw [e, Nat.add_right_comm, Nat.add_assoc n]

theorem arcLoop_any_group {W : Nat → Nat} (hW : LowBits W) {g : Bytes} (hg : IsGroup g) (rest : Bytes) :
    arcLoop W (g ++ rest) 0 0 = (W (base128 g), g.length) := by
  obtain ⟨hi, l, rfl, h1, h2⟩ := hg
  rw [List.append_assoc]
  have := arcLoop_high hW hi ([l] ++ rest) h1 0 0
  rw [hW.1] at this
  rw [this, List.singleton_append, arcLoop]
  rw [if_pos ((top7 l).mpr h2), low7, Nat.shiftLeft_eq, show (2 : Nat) ^ 7 = 128 from rfl,
    hW.2 _ _ (Nat.mod_lt _ (by decide)), base128_concat]
  simp only [List.length_append, List.length_singleton, Nat.zero_mul, Nat.zero_add]

theorem arcLoop_cut {W : Nat → Nat} (hW : LowBits W) {g : Bytes} (hg : ∀ b ∈ g, 128 ≤ b.toNat) :
    arcLoop W g 0 0 = (W (base128 g), g.length) := by
  have := arcLoop_high hW g [] hg 0 0
  rw [hW.1, List.append_nil] at this
  rw [this, arcLoop]
  simp

theorem collect_groups {W : Nat → Nat} (hW : LowBits W) (o : Oid) {bs : Bytes} {gs : List Bytes}
    (h : Groups bs gs) (pos fuel : Nat) (first : Bool)
    (hst : o.relative = true ∨ (first = true ∧ 0 < pos)) (hpos : pos ≤ o.asn1.length)
    (hd : o.asn1.drop pos = bs) (hf : bs.length < fuel) :
    SubIter.collect W fuel ⟨o, pos, first⟩ = some (gs.map fun g => W (base128 g)) := by
  induction h generalizing pos fuel with
  | nil =>
    obtain ⟨fuel, rfl⟩ : ∃ f, fuel = f + 1 := ⟨fuel - 1, by omega⟩
    have : pos = o.asn1.length := by
      have := congrArg List.length hd
      simp at this; omega
    rw [SubIter.collect, this, next_end]
    rfl
  | cut g hne hg =>
    obtain ⟨fuel, rfl⟩ : ∃ f, fuel = f + 1 := ⟨fuel - 1, by omega⟩
    have hlen := congrArg List.length hd
    rw [List.length_drop] at hlen
    have hg0 := List.length_pos_iff.mpr hne
    rw [SubIter.collect, next_loop W o pos first (by omega) hst, hd, arcLoop_cut hW hg]
    simp only
    obtain ⟨fuel, rfl⟩ : ∃ f, fuel = f + 1 := ⟨fuel - 1, by omega⟩
    rw [show pos + g.length = o.asn1.length by omega, SubIter.collect, next_end]
    rfl
  | next g rest gs hg _ ih =>
    obtain ⟨fuel, rfl⟩ : ∃ f, fuel = f + 1 := ⟨fuel - 1, by omega⟩
    have hlen := congrArg List.length hd
    rw [List.length_drop, List.length_append] at hlen
    have hg0 : 0 < g.length := by
      obtain ⟨i, l, rfl, _⟩ := hg
      simp
    rw [List.length_append] at hf
    rw [SubIter.collect, next_loop W o pos first (by omega) hst, hd, arcLoop_any_group hW hg]
    simp only
    rw [ih (pos + g.length) fuel (by
      rcases hst with h | h
      · exact .inl h
      · exact .inr ⟨h.1, by omega⟩) (by omega)
      (by rw [← List.drop_drop, hd, List.drop_left' rfl]) (by omega)]
    rfl

theorem collect_relative {W : Nat → Nat} (hW : LowBits W) {bs : Bytes} {gs : List Bytes}
    (h : Groups bs gs) :
    SubIter.collect W (bs.length + 2) ⟨⟨bs, true⟩, 0, false⟩ = some (gs.map fun g => W (base128 g)) :=
  collect_groups hW ⟨bs, true⟩ h 0 _ false (.inl rfl) (Nat.zero_le _) rfl (by omega)

theorem collect_absolute {W : Nat → Nat} (hW : LowBits W) (f : UInt8) {bs : Bytes} {gs : List Bytes}
    (h : Groups bs gs) (h0 : ¬ (f = 0 ∧ bs = [])) :
    SubIter.collect W (bs.length + 3) ⟨⟨f :: bs, false⟩, 0, false⟩ =
      some (f.toNat / 40 :: f.toNat % 40 :: gs.map fun g => W (base128 g)) := by
  rw [show bs.length + 3 = (bs.length + 1) + 1 + 1 from rfl, SubIter.collect, SubIter.next]
  simp only [List.length_cons, Nat.zero_ne_add_one, if_false, Bool.not_false, if_true]
  rw [SubIter.collect, SubIter.next]
  simp only [List.length_cons, Nat.zero_ne_add_one, if_false, Bool.not_false, if_true, Bool.not_true,
    Bool.false_eq_true]
  rw [if_neg h0]
  simp only
  rw [collect_groups hW ⟨f :: bs, false⟩ h 1 _ true (.inr ⟨rfl, by omega⟩) (by simp) rfl (by omega)]
  rfl

/-- The fold of `iter`. -/
theorem maxBits_groups {bs : Bytes} {gs : List Bytes} (h : Groups bs gs) :
    maxBits bs > 64 ↔ ∃ g ∈ gs, IsGroup g ∧ 10 ≤ g.length := by
  let f : Nat × Nat → UInt8 → Nat × Nat := fun s c =>
    if c >>> 7 = 0 then (max s.1 (s.2 + 7), 0) else (s.1, s.2 + 7)
  have hhigh : ∀ (hi : Bytes), (∀ b ∈ hi, 128 ≤ b.toNat) →
      ∀ m c, hi.foldl f (m, c) = (m, c + 7 * hi.length) := by
    intro hi h1
    induction hi with
    | nil => intro m c; rfl
    | cons b hi ih =>
      intro m c
      have hb := h1 b List.mem_cons_self
      rw [List.foldl_cons]
      show List.foldl f (if b >>> 7 = 0 then _ else _) _ = _
      rw [if_neg (fun h => by have := (top7 b).mp h; omega),
        ih (fun x hx => h1 x (List.mem_cons_of_mem _ hx))]
      simp only [List.length_cons, Prod.mk.injEq, true_and]
      omega
  have hall : ∀ m, (bs.foldl f (m, 0)).1 > 64 ↔ m > 64 ∨ ∃ g ∈ gs, IsGroup g ∧ 10 ≤ g.length := by
    induction h with
    | nil => intro m; simp
    | cut g hne hg =>
      intro m
      rw [hhigh g hg]
      simp only [List.mem_singleton, exists_eq_left]
      refine ⟨.inl, fun h => h.elim id fun ⟨⟨i, l, e, _, h2⟩, _⟩ => ?_⟩
      have := hg l (by rw [e]; simp)
      omega
    | next g rest gs hg _ ih =>
      intro m
      have hg' := hg
      obtain ⟨hi, l, rfl, h1, h2⟩ := hg'
      rw [List.foldl_append, List.foldl_append, hhigh hi h1]
      have e : List.foldl f (m, 0 + 7 * hi.length) [l] = (max m (7 * hi.length + 7), 0) := by
        show (if l >>> 7 = 0 then _ else _) = _
        rw [if_pos ((top7 l).mpr h2), Nat.zero_add]
      rw [e, ih]
      simp only [List.mem_cons, exists_eq_or_imp, List.length_append, List.length_singleton]
      constructor
      · rintro (h | h)
        · by_cases hm : m > 64
          · exact .inl hm
          · exact .inr (.inl ⟨hg, by omega⟩)
        · exact .inr (.inr h)
      · rintro (h | h | h)
        · exact .inl (by omega)
        · exact .inl (by omega)
        · exact .inr h
  have := hall 0
  unfold maxBits
  rw [this]; simp

/-- **C103** (partial) Iterating over the arcs of any content. The octets (all of them for a
relative OID, those after the first for an absolute one) fall into groups in one way; `iter_bigint`
yields one number for each group, in order, after the quotient and the rest by 40 of the first octet
of an absolute OID; `iter` refuses exactly the contents with a complete group of ten octets or more,
and otherwise yields the same numbers modulo `2^64`. Missing: `iter` should refuse also a last group
that is cut short and too long (`C103_cut_deviation`). -/
theorem C103_iteration_partial (bs : Bytes) :
    (∃ gs, Groups bs gs) ∧ ∀ gs, Groups bs gs →
      ((Oid.mk bs true).iterBigint = some (gs.map base128)) ∧
      ((∃ g ∈ gs, IsGroup g ∧ 10 ≤ g.length) → (Oid.mk bs true).iter = none) ∧
      ((¬ ∃ g ∈ gs, IsGroup g ∧ 10 ≤ g.length) →
        (Oid.mk bs true).iter = some (gs.map fun g => base128 g % 2 ^ 64)) ∧
      ∀ f : UInt8, ¬ (f = 0 ∧ bs = []) →
        (Oid.mk (f :: bs) false).iterBigint = some (f.toNat / 40 :: f.toNat % 40 :: gs.map base128) ∧
        ((∃ g ∈ gs, IsGroup g ∧ 10 ≤ g.length) → (Oid.mk (f :: bs) false).iter = none) ∧
        ((¬ ∃ g ∈ gs, IsGroup g ∧ 10 ≤ g.length) → (Oid.mk (f :: bs) false).iter =
          some (f.toNat / 40 :: f.toNat % 40 :: gs.map fun g => base128 g % 2 ^ 64)) := by
  refine ⟨groups_exist bs, fun gs h => ⟨collect_relative lowBits_id h, fun hb => ?_, fun hb => ?_,
    fun f hf => ⟨collect_absolute lowBits_id f h hf, fun hb => ?_, fun hb => ?_⟩⟩⟩
  · exact if_pos ((maxBits_groups h).mpr hb)
  · exact (if_neg fun hm => hb ((maxBits_groups h).mp hm)).trans (collect_relative lowBits_u64 h)
  · exact if_pos ((maxBits_groups h).mpr hb)
  · exact (if_neg fun hm => hb ((maxBits_groups h).mp hm)).trans (collect_absolute lowBits_u64 f h hf)

/-- Groups of 2a 86 48 80 01 83, the last one cut. -/
example : Groups [0x86, 0x48, 0x80, 0x01, 0x83] [[0x86, 0x48], [0x80, 0x01], [0x83]] :=
  .next [0x86, 0x48] _ _ ⟨[0x86], 0x48, rfl, by decide, by decide⟩
    (.next [0x80, 0x01] _ _ ⟨[0x80], 0x01, rfl, by decide, by decide⟩
      (.cut [0x83] (by simp) (by decide)))

/-- **C103** The contents left out above: no octet, and the single octet 0 of an absolute OID. -/
theorem C103_short_contents :
    (Oid.mk [] false).iterBigint = some [] ∧ (Oid.mk [] false).iter = some [] ∧
    (Oid.mk [0] false).iterBigint = some [0] ∧ (Oid.mk [0] false).iter = some [0] := by
  decide +kernel

/-- **C103** The two iterators agree on every content whose last octet is below 128, when `iter`
gives something: nothing is lost. -/
theorem C103_iterators_agree (o : Oid) (l : List Nat) (hl : o.iter = some l)
    (ht : ∀ i b, o.asn1 = i ++ [b] → b.toNat < 128) : o.iterBigint = some l := by
  obtain ⟨asn1, rel⟩ := o
  have key : ∀ bs gs, Groups bs gs → (∀ i b, bs = i ++ [b] → b.toNat < 128) →
      (¬ ∃ g ∈ gs, IsGroup g ∧ 10 ≤ g.length) →
      gs.map (fun g => base128 g % 2 ^ 64) = gs.map base128 := by
    intro bs gs h
    induction h with
    | nil => intro _ _; rfl
    | cut g hne hg =>
      intro ht _
      obtain ⟨i, b, rfl⟩ : ∃ i b, g = i ++ [b] :=
        ⟨_, _, (List.dropLast_concat_getLast hne).symm⟩
      have := ht i b rfl
      have := hg b (by simp)
      omega
    | next g rest gs hg hr ih =>
      intro ht hn
      have hlen : g.length ≤ 9 := by
        by_cases h : 10 ≤ g.length
        · exact absurd ⟨g, List.mem_cons_self, hg, h⟩ hn
        · omega
      have h1 : base128 g < 128 ^ 9 :=
        Nat.lt_of_lt_of_le (base128_lt g) (Nat.pow_le_pow_right (by decide) hlen)
      have e : (128 : Nat) ^ 9 ≤ 2 ^ 64 := by decide
      rw [List.map_cons, List.map_cons, Nat.mod_eq_of_lt (by omega),
        ih (fun i b hb => ht (g ++ i) b (by rw [hb, List.append_assoc]))
          fun ⟨x, hx, hx2⟩ => hn ⟨x, List.mem_cons_of_mem _ hx, hx2⟩]
  cases rel with
  | true =>
    obtain ⟨⟨gs, hg⟩, hall⟩ := C103_iteration_partial asn1
    obtain ⟨h1, h2, h3, _⟩ := hall gs hg
    by_cases hb : ∃ g ∈ gs, IsGroup g ∧ 10 ≤ g.length
    · rw [h2 hb] at hl; cases hl
    · rw [h3 hb, key asn1 gs hg ht hb] at hl
      rw [h1, hl]
  | false =>
    cases asn1 with
    | nil => rw [C103_short_contents.2.1] at hl; rw [C103_short_contents.1, hl]
    | cons f bs =>
      by_cases h0 : f = 0 ∧ bs = []
      · obtain ⟨rfl, rfl⟩ := h0
        rw [C103_short_contents.2.2.2] at hl; rw [C103_short_contents.2.2.1, hl]
      · obtain ⟨⟨gs, hg⟩, hall⟩ := C103_iteration_partial bs
        obtain ⟨h1, h2, h3⟩ := (hall gs hg).2.2.2 f h0
        by_cases hb : ∃ g ∈ gs, IsGroup g ∧ 10 ≤ g.length
        · rw [h2 hb] at hl; cases hl
        · rw [h3 hb, key bs gs hg (fun i b hi => ht (f :: i) b (by rw [hi]; rfl)) hb] at hl
          rw [h1, hl]

/-- A case: 1.2.840. -/
example : (Oid.mk [0x2a, 0x86, 0x48] false).iterBigint = some [1, 2, 840] :=
  C103_iterators_agree _ _ (by decide +kernel) (by
    intro i b h
    have := congrArg List.getLast? h
    simp at this
    rw [← this]; decide)

/-- **C103** A last group cut short: `iter` yields a number whose high bits are lost. -/
theorem C103_cut_deviation : ∃ bs : Bytes, bs.length = 11 ∧ (Oid.mk (0x2a :: bs) false).iter = some [1, 2, 0] ∧
    (Oid.mk (0x2a :: bs) false).iterBigint = some [1, 2, 2 ^ 70] :=
  ⟨[0x81, 0x80, 0x80, 0x80, 0x80, 0x80, 0x80, 0x80, 0x80, 0x80, 0x80], by decide +kernel⟩

/-- **C103** Every content has a text, whatever the build. -/
theorem C103_text (o : Oid) : (∃ t, o.toIdString = some t) ∧ ∃ t, o.toIdStringU64 = some t := by
  have h : ∃ l, o.iterBigint = some l := by
    obtain ⟨asn1, rel⟩ := o
    cases rel with
    | true =>
      obtain ⟨⟨gs, hg⟩, hall⟩ := C103_iteration_partial asn1
      exact ⟨_, (hall gs hg).1⟩
    | false =>
      cases asn1 with
      | nil => exact ⟨_, C103_short_contents.1⟩
      | cons f bs =>
        by_cases h0 : f = 0 ∧ bs = []
        · obtain ⟨rfl, rfl⟩ := h0; exact ⟨_, C103_short_contents.2.2.1⟩
        · obtain ⟨⟨gs, hg⟩, hall⟩ := C103_iteration_partial bs
          exact ⟨_, ((hall gs hg).2.2.2 f h0).1⟩
  obtain ⟨l, hl⟩ := h
  refine ⟨⟨_, by rw [Oid.toIdString, hl]; rfl⟩, ?_⟩
  cases hi : o.iter with
  | none => exact ⟨_, by rw [Oid.toIdStringU64, hi]⟩
  | some l => exact ⟨_, by rw [Oid.toIdStringU64, hi]⟩

/-- **C60** The announced length on any content: the number of octets below 128, which is the number
of arcs for relative OIDs whose last group is complete, and one less otherwise. -/
theorem C60_relative_any (bs : Bytes) (gs : List Bytes) (h : Groups bs gs) :
    ((∀ g ∈ gs, IsGroup g) → (Oid.mk bs true).iterLen = gs.length) ∧
    ((¬ ∀ g ∈ gs, IsGroup g) → (Oid.mk bs true).iterLen + 1 = gs.length) := by
  show ((∀ g ∈ gs, IsGroup g) → (bs.filter (fun b : UInt8 => b >>> 7 = 0)).length = gs.length) ∧
    ((¬ ∀ g ∈ gs, IsGroup g) → (bs.filter (fun b : UInt8 => b >>> 7 = 0)).length + 1 = gs.length)
  have hhigh : ∀ hi : Bytes, (∀ b ∈ hi, 128 ≤ b.toNat) →
      hi.filter (fun b : UInt8 => b >>> 7 = 0) = [] := by
    intro hi h1
    rw [List.filter_eq_nil_iff]
    intro b hb hc
    have := h1 b hb
    have := (top7 b).mp (by simpa using hc)
    omega
  induction h with
  | nil => exact ⟨fun _ => rfl, fun h => absurd (fun g hg => by cases hg) h⟩
  | cut g hne hg =>
    refine ⟨fun h => ?_, fun _ => by rw [hhigh g hg]; rfl⟩
    obtain ⟨i, l, rfl, _, h2⟩ := h g List.mem_cons_self
    have := hg l (by simp)
    omega
  | next g rest gs hg _ ih =>
    obtain ⟨hi, l, rfl, h1, h2⟩ := hg
    have e : ((hi ++ [l]) ++ rest).filter (fun b : UInt8 => b >>> 7 = 0) =
        l :: rest.filter (fun b : UInt8 => b >>> 7 = 0) := by
      rw [List.filter_append, List.filter_append, hhigh hi h1, List.nil_append]
      have : [l].filter (fun b : UInt8 => b >>> 7 = 0) = [l] := by
        rw [List.filter_cons, if_pos (by simpa using (top7 l).mpr h2)]; rfl
      rw [this]; rfl
    rw [e, List.length_cons, List.length_cons]
    refine ⟨fun h => by rw [ih.1 fun x hx => h x (List.mem_cons_of_mem _ hx)], fun h => ?_⟩
    rw [← ih.2 fun h' => h fun x hx => ?_]
    rcases List.mem_cons.mp hx with rfl | hx
    · exact ⟨hi, l, rfl, h1, h2⟩
    · exact h' x hx

/-- A case: groups of one and two octets. -/
example : Groups [5, 0x86, 0x48] [[5], [0x86, 0x48]] ∧ (Oid.mk [5, 0x86, 0x48] true).iterLen = 2 :=
  ⟨.next [5] _ _ ⟨[], 5, rfl, by simp, by decide⟩ (.next [0x86, 0x48] [] [] ⟨[0x86], 0x48, rfl, by decide, by decide⟩ .nil),
    by decide +kernel⟩

end Asn1

import Verif.Spec.RecursiveValue
import Verif.Props.Recursive
import Verif.Props.BuiltValue
/-!
# Values of types that contain themselves (C137)
-/
namespace Asn1
open Spec
variable {ρ : Type}

/-! ### One encoder -/

/-- The encoder that makes `n` calls of itself. -/
def encCalls (E : ToBer ρ → ToBer ρ) (base : ToBer ρ) : Nat → ToBer ρ
  | 0 => base
  | n + 1 => E (encCalls E base n)

theorem sameAt_symm {v : ρ} {t t' : ToBer ρ} (h : SameAt v t t') : SameAt v t' t :=
  ⟨h.1.symm, h.2.1.symm, h.2.2.1.symm, h.2.2.2.symm⟩

theorem sameAt_trans {v : ρ} {t t' t'' : ToBer ρ} (h : SameAt v t t') (h' : SameAt v t' t'') : SameAt v t t'' :=
  ⟨h.1.trans h'.1, h.2.1.trans h'.2.1, h.2.2.1.trans h'.2.2.1, h.2.2.2.trans h'.2.2.2⟩

theorem eq_of_same {t t' : ToBer ρ} (he : t.encoder = t'.encoder) (h : ∀ v, SameAt v t t') : t = t' := by
  have h1 : t.contentLen = t'.contentLen := funext fun v => (h v).2.1
  have h2 : t.tagInfo = t'.tagInfo := funext fun v => (h v).2.2.1
  have h3 : t.writeContent = t'.writeContent := funext fun v => (h v).2.2.2
  cases t; cases t'
  simp only at he h1 h2 h3
  rw [he, h1, h2, h3]

theorem encCalls_same {size : ρ → Nat} {E : ToBer ρ → ToBer ρ} (hE : Descends size E) (b c : ToBer ρ) (k : Nat) :
    ∀ (v : ρ) (n m : Nat), size v < k → k ≤ n → k ≤ m → SameAt v (encCalls E b n) (encCalls E c m) := by
  induction k with
  | zero => intro v n m hv; omega
  | succ k ih =>
    intro v n m hv hn hm
    obtain ⟨n, rfl⟩ : ∃ n', n = n' + 1 := ⟨n - 1, by omega⟩
    obtain ⟨m, rfl⟩ : ∃ m', m = m' + 1 := ⟨m - 1, by omega⟩
    exact hE.2 _ _ v fun u hu => ih u n m (by omega) (by omega) (by omega)

theorem encCalls_fixed {E : ToBer ρ → ToBer ρ} {t : ToBer ρ} (ht : t = E t) (n : Nat) : encCalls E t n = t := by
  induction n with
  | zero => rfl
  | succ n ih =>
    show E (encCalls E t n) = t
    rw [ih, ← ht]

/-- **C137** The definition of a type in terms of itself determines its encoder, if what is done with a value
depends on smaller values only. -/
theorem C137_one_encoder {size : ρ → Nat} {E : ToBer ρ → ToBer ρ} (hE : Descends size E) :
    ∃ t, t = E t ∧ ∀ t', t' = E t' → t' = t := by
  let base : ToBer ρ := ⟨.generic, fun _ => .indefinite, fun _ => (.universal, true, 16), fun _ => pure 0⟩
  let sol : ToBer ρ := ⟨(E base).encoder, fun v => (encCalls E base (size v + 1)).contentLen v,
    fun v => (encCalls E base (size v + 1)).tagInfo v, fun v => (encCalls E base (size v + 1)).writeContent v⟩
  have hs : ∀ v n, size v < n → SameAt v sol (encCalls E base n) := by
    intro v n hn
    have h := encCalls_same hE base base (size v + 1) v (size v + 1) n (by omega) (by omega) (by omega)
    refine ⟨?_, h.2.1, h.2.2.1, h.2.2.2⟩
    rw [← h.1]
    exact hE.1 _ _
  refine ⟨sol, eq_of_same (hE.1 _ _) fun v => ?_, fun t' ht => eq_of_same (by rw [ht]; exact hE.1 _ _) fun v => ?_⟩
  · exact sameAt_trans (hs v (size v + 1) (by omega)) (sameAt_symm (hE.2 _ _ v fun u hu => hs u (size v) hu))
  · have h := encCalls_same hE t' base (size v + 1) v (size v + 1) (size v + 1) (by omega) (by omega) (by omega)
    rw [encCalls_fixed ht] at h
    exact sameAt_trans h (sameAt_symm (hs v _ (by omega)))

/-! ### A type -/

theorem twig_self (real : Bool) : SelfType real Twig true (twigF .ber) (twigF .der) :=
  .named (fun v : Tup [Nat, List Twig] => Twig.mk v.1 v.2.1)
    (.struct 16 (.required .untagged (.built (.universal (.uint 4 (by decide)))) (.required .untagged (.vec .self) .nil)))

theorem twigs_same {t t' : ToBer ρ} (vs : List ρ) (h : ∀ v ∈ vs, SameAt v t t') :
    t.lengthItems vs = t'.lengthItems vs ∧ ∀ acc, t.writeItems vs acc = t'.writeItems vs acc := by
  have hl : ∀ v ∈ vs, t.totalLen v = t'.totalLen v := fun v hv => by
    unfold ToBer.totalLen
    rw [(h v hv).2.1, (h v hv).2.2.1]
  have hw : ∀ v ∈ vs, t.encode v = t'.encode v := fun v hv => by
    unfold ToBer.encode ToBer.writeHeader
    rw [(h v hv).1, (h v hv).2.1, (h v hv).2.2.1, (h v hv).2.2.2]
  refine ⟨?_, ?_⟩
  · unfold ToBer.lengthItems
    rw [List.map_congr_left hl]
  · clear hl h
    induction vs with
    | nil => intro acc; rfl
    | cons v vs ih =>
      intro acc
      unfold ToBer.writeItems
      rw [hw v (List.mem_cons_self ..)]
      have := ih fun u hu => hw u (List.mem_cons_of_mem _ hu)
      simp only [this]

theorem twig_descends : Descends (fun v : Twig => sizeOf v) twigE := by
  refine ⟨fun _ _ => rfl, fun t t' v h => ?_⟩
  obtain ⟨l, ts⟩ := v
  obtain ⟨h1, h2⟩ := twigs_same (t := t) (t' := t') ts fun u hu => h u (by
    have := List.sizeOf_lt_of_mem hu
    show sizeOf u < sizeOf (Twig.mk l ts)
    simp only [Twig.mk.sizeOf_spec]
    omega)
  refine ⟨rfl, ?_, rfl, ?_⟩
  · show EncFields.len _ _ _ = EncFields.len _ _ _
    simp only [EncFields.len, FieldTag.addLen, ToBer.totalLen, listToBer, Twig.fields, h1]
  · show EncFields.write _ _ _ = EncFields.write _ _ _
    simp only [EncFields.write, FieldTag.write, ToBer.encode, ToBer.writeHeader, listToBer, Twig.fields, h1, h2]

theorem add_definite {a b : Length} {n : Nat} (h : a.add b = .definite n) :
    ∃ x y, a = .definite x ∧ b = .definite y ∧ x + y = n := by
  cases a with
  | indefinite => cases h
  | definite x =>
    cases b with
    | indefinite => cases h
    | definite y => injection h with h; exact ⟨x, y, rfl, rfl, h⟩

theorem total_definite {t : ToBer ρ} {v : ρ} {n : Nat} (h : t.totalLen v = .definite n) :
    ∃ k, k ≤ n ∧ t.contentLen v = .definite k := by
  unfold ToBer.totalLen berTotalLength at h
  cases hc : t.contentLen v with
  | indefinite => rw [hc] at h; cases h
  | definite k =>
    rw [hc] at h
    simp only [Length.addNat] at h
    injection h with h
    exact ⟨k, by omega, rfl⟩

theorem sum_definite (ls : List Length) (a : Length) (n : Nat) (h : ls.foldl Length.add a = .definite n) :
    (∃ x, x ≤ n ∧ a = .definite x) ∧ ∀ l ∈ ls, ∃ k, k ≤ n ∧ l = .definite k := by
  induction ls generalizing a with
  | nil => exact ⟨⟨n, Nat.le_refl _, h⟩, by simp⟩
  | cons l ls ih =>
    obtain ⟨⟨x, hx, h1⟩, h2⟩ := ih _ h
    obtain ⟨y, z, h3, h4, h5⟩ := add_definite h1
    refine ⟨⟨y, by omega, h3⟩, fun l' hl' => ?_⟩
    rcases List.mem_cons.mp hl' with rfl | hl'
    · exact ⟨z, by omega, h4⟩
    · exact h2 l' hl'

theorem values_of {t : ToBer ρ} {pb pd : Parser ρ} (vs : List ρ) (h : ∀ v ∈ vs, Value true t pb pd v v) :
    Values t pb pd vs vs := by
  induction vs with
  | nil => exact .nil
  | cons v vs ih =>
    exact .cons (h v (List.mem_cons_self ..)) (ih fun u hu => h u (List.mem_cons_of_mem _ hu))

theorem twig_value {t : ToBer Twig} {pb pd : Parser Twig} (ht : t = twigE t) (hb : pb = twigF .ber pb)
    (hd : pd = twigF .der pd) (n : Nat) : ∀ x : Twig, sizeOf x < n → x.Valid → SmallContent t x →
      Value true t pb pd x x := by
  induction n with
  | zero => intro x hx; omega
  | succ n ih =>
    intro x hx hv hs
    obtain ⟨l, ts⟩ := x
    obtain ⟨hl, hts⟩ := hv
    have hs' : SmallContent (twigE t) (.mk l ts) := by rw [← ht]; exact hs
    obtain ⟨m, hm, hlt⟩ := hs'
    have hm' : ((Length.definite 0).add ((uintToBer 4).totalLen l)).add ((listToBer 16 t).totalLen ts) = .definite m := hm
    obtain ⟨a, b, h1, h2, h3⟩ := add_definite hm'
    obtain ⟨_, a', _, h1', h3'⟩ := add_definite h1
    obtain ⟨k, hk, h4⟩ := total_definite h2
    obtain ⟨k', hk', h4'⟩ := total_definite h1'
    have h5 : (ts.map t.totalLen).foldl Length.add (.definite 0) = .definite k := h4
    obtain ⟨_, h6⟩ := sum_definite _ _ _ h5
    have hvals : Values t pb pd ts ts := values_of ts fun u hu => by
      obtain ⟨j, hj, h7⟩ := h6 _ (List.mem_map_of_mem hu)
      obtain ⟨j', hj', h8⟩ := total_definite h7
      refine ih u ?_ (hts u hu) ⟨j', h8, by omega⟩
      have := List.sizeOf_lt_of_mem hu
      simp only [Twig.mk.sizeOf_spec] at hx
      omega
    have key : Value true (twigE t) (twigF .ber pb) (twigF .der pd) (.mk l ts) (.mk l ts) := by
      refine Value.named Twig.fields (fun v : Tup [Nat, List Twig] => Twig.mk v.1 v.2.1) (.mk l ts) ?_
        (w := (l, ts, ()))
      refine .struct 16 (by decide) ?_ rfl ⟨m, hm, hlt⟩
      refine .required .untagged trivial (.universal (c := uintC 4) (.uint 4 (by decide) (by simpa using hl))
        ⟨k', h4', by omega⟩) (by rintro ⟨_, _, h⟩; cases h) (by simp) ?_
      exact .required .untagged trivial (.vec hvals ⟨k, h4, by omega⟩) (by rintro ⟨_, _, h⟩; cases h) (by simp) .nil
    rwa [← ht, ← hb, ← hd] at key

/-- **C137** (partial) Every value of `struct Twig { label: u32, twigs: Vec<Twig> }`, nested in any way, with fewer than
`2^24` bytes of content: what is written is one object, the lengths announced and returned are right, and it comes
back as this value through `parse_ber` and `parse_der`, whatever follows. Missing: other types that contain
themselves; for each value of one, `C83_roundtrip_partial` applies in the same way. -/
theorem C137_roundtrip_partial {t : ToBer Twig} {pb pd : Parser Twig} (ht : t = twigE t) (hb : pb = twigF .ber pb)
    (hd : pd = twigF .der pd) (x : Twig) (hv : x.Valid) (hs : SmallContent t x) :
    LengthsRight t x ∧ InputBack t pb.parseBer x x ∧ InputBack t pd.parseDer x x := by
  have h := twig_value ht hb hd _ x (Nat.lt_succ_self _) hv hs
  exact ⟨(C83_one_object h).1, C83_roundtrip_partial h⟩

/-- A case: a twig with two twigs, the second of which has one. -/
def twigCase : Twig := .mk 7 [.mk 8 [], .mk 9 [.mk 300 []]]

theorem twigCase_valid : twigCase.Valid := by
  refine .mk (by decide) fun t h => ?_
  rcases List.mem_cons.mp h with rfl | h
  · exact .mk (by decide) (by simp)
  · rcases List.mem_cons.mp h with rfl | h
    · refine .mk (by decide) fun t h => ?_
      rcases List.mem_cons.mp h with rfl | h
      · exact .mk (by decide) (by simp)
      · cases h
    · cases h

example : ∃ t pb pd, t = twigE t ∧ pb = twigF .ber pb ∧ pd = twigF .der pd ∧ SmallContent t twigCase ∧
    t.toVec twigCase = .ok [0x30, 27, 2, 1, 7, 0x30, 22, 0x30, 5, 2, 1, 8, 0x30, 0,
      0x30, 13, 2, 1, 9, 0x30, 8, 0x30, 6, 2, 2, 1, 0x2c, 0x30, 0] ∧ InputBack t pd.parseDer twigCase twigCase := by
  obtain ⟨t, ht, _⟩ := C137_one_encoder twig_descends
  obtain ⟨⟨pb, hb, _⟩, pd, hd, _⟩ := C136_one_parser (twig_self false)
  let base : ToBer Twig := ⟨.generic, fun _ => .indefinite, fun _ => (.universal, true, 16), fun _ => pure 0⟩
  have h4 : SameAt twigCase (encCalls twigE base (sizeOf twigCase + 1)) t := by
    have := encCalls_same twig_descends base t (sizeOf twigCase + 1) twigCase _ (sizeOf twigCase + 1)
      (Nat.lt_succ_self _) (Nat.le_refl _) (Nat.le_refl _)
    rwa [encCalls_fixed ht] at this
  have hs : SmallContent t twigCase := ⟨27, by rw [← h4.2.1]; decide +kernel, by decide⟩
  refine ⟨t, pb, pd, ht, hb, hd, hs, ?_, (C137_roundtrip_partial ht hb hd _ twigCase_valid hs).2.2⟩
  have : t.toVec twigCase = (encCalls twigE base (sizeOf twigCase + 1)).toVec twigCase := by
    unfold ToBer.toVec ToBer.encode ToBer.writeHeader
    rw [h4.1, h4.2.1, h4.2.2.1, h4.2.2.2]
  rw [this]
  decide +kernel

/-! ### A CHOICE -/

theorem query_self (real : Bool) : SelfType real Query true (queryF .ber) (queryF .der) :=
  .named Query.ofVariant
    (.choice .implicit (.cons 0 (.vec .self) (.cons 1 (.vec .self) (.cons 7 (.built (.universal .octetString)) .nil))))

theorem query_descends : Descends (fun v : Query => sizeOf v) queryE := by
  refine ⟨fun _ _ => rfl, fun t t' v h => ?_⟩
  cases v with
  | all qs =>
    obtain ⟨h1, h2⟩ := twigs_same (t := t) (t' := t') qs fun u hu => h u (by
      have := List.sizeOf_lt_of_mem hu
      show sizeOf u < sizeOf (Query.all qs)
      simp only [Query.all.sizeOf_spec]
      omega)
    exact ⟨rfl, h1, rfl, h2 0⟩
  | some qs =>
    obtain ⟨h1, h2⟩ := twigs_same (t := t) (t' := t') qs fun u hu => h u (by
      have := List.sizeOf_lt_of_mem hu
      show sizeOf u < sizeOf (Query.some qs)
      simp only [Query.some.sizeOf_spec]
      omega)
    exact ⟨rfl, h1, rfl, h2 0⟩
  | present b => exact ⟨rfl, rfl, rfl, rfl⟩

theorem query_values {t : ToBer Query} {pb pd : Parser Query} (qs : List Query) {m : Nat}
    (hm : (listToBer 16 t).contentLen qs = .definite m) (hlt : m < 2 ^ 24)
    (ih : ∀ u ∈ qs, SmallContent t u → Value false t pb pd u u) : Values t pb pd qs qs := by
  have h5 : (qs.map t.totalLen).foldl Length.add (.definite 0) = .definite m := hm
  obtain ⟨_, h6⟩ := sum_definite _ _ _ h5
  suffices h : ∀ l : List Query, (∀ u ∈ l, u ∈ qs) → Values t pb pd l l from h qs fun _ h => h
  intro l
  induction l with
  | nil => intro _; exact .nil
  | cons v l ihl =>
    intro hl
    obtain ⟨j, hj, h7⟩ := h6 _ (List.mem_map_of_mem (hl v (List.mem_cons_self ..)))
    obtain ⟨j', hj', h8⟩ := total_definite h7
    exact .cons (ih v (hl v (List.mem_cons_self ..)) ⟨j', h8, by omega⟩)
      (ihl fun u hu => hl u (List.mem_cons_of_mem _ hu))

theorem query_value {t : ToBer Query} {pb pd : Parser Query} (ht : t = queryE t) (hb : pb = queryF .ber pb)
    (hd : pd = queryF .der pd) (n : Nat) : ∀ x : Query, sizeOf x < n → SmallContent t x →
      Value false t pb pd x x := by
  induction n with
  | zero => intro x hx; omega
  | succ n ih =>
    intro x hx hs
    have hs' : SmallContent (queryE t) x := by rw [← ht]; exact hs
    obtain ⟨m, hm, hlt⟩ := hs'
    have key : Value false (queryE t) (queryF .ber pb) (queryF .der pd) x x := by
      cases x with
      | all qs =>
        have hv := query_values (pb := pb) (pd := pd) qs (t := t) hm hlt fun u hu hsu => ih u (by
          have := List.sizeOf_lt_of_mem hu
          simp only [Query.all.sizeOf_spec] at hx
          omega) hsu
        exact Value.named Query.variant Query.ofVariant (.all qs)
          (.choice .implicit (.here (by decide) rfl (.vec hv ⟨m, hm, hlt⟩) fun _ => rfl) ⟨m, hm, hlt⟩)
      | some qs =>
        have hv := query_values (pb := pb) (pd := pd) qs (t := t) hm hlt fun u hu hsu => ih u (by
          have := List.sizeOf_lt_of_mem hu
          simp only [Query.some.sizeOf_spec] at hx
          omega) hsu
        exact Value.named Query.variant Query.ofVariant (.some qs)
          (.choice .implicit (.there (show ¬ _ = 0 by rw [if_neg (by decide)]; decide) (show ¬ _ = 0 by rw [if_neg (by decide)]; decide)
            (.here (by decide) rfl (.vec hv ⟨m, hm, hlt⟩) fun _ => rfl)) ⟨m, hm, hlt⟩)
      | present b =>
        exact Value.named Query.variant Query.ofVariant (.present b)
          (.choice .implicit (.there (show ¬ _ = 0 by rw [if_neg (by decide)]; decide) (show ¬ _ = 0 by rw [if_neg (by decide)]; decide)
            (.there (show ¬ _ = 1 by rw [if_neg (by decide)]; decide) (show ¬ _ = 1 by rw [if_neg (by decide)]; decide)
            (.here (by decide) rfl (.universal (c := octetC) .octetString ⟨m, hm, hlt⟩) fun _ => rfl)))
            ⟨m, hm, hlt⟩)
    rwa [← ht, ← hb, ← hd] at key

/-- **C137** (partial) The same for a CHOICE that contains itself,
`enum Query { All(Vec<Query>), Some(Vec<Query>), Present(OctetString) }` with IMPLICIT tags: every value nested in any
way, with fewer than `2^24` bytes of content, is written as one object with the announced lengths and comes back
through `parse_ber` and `parse_der`, whatever follows. -/
theorem C137_choice_roundtrip_partial {t : ToBer Query} {pb pd : Parser Query} (ht : t = queryE t)
    (hb : pb = queryF .ber pb) (hd : pd = queryF .der pd) (x : Query) (hs : SmallContent t x) :
    LengthsRight t x ∧ InputBack t pb.parseBer x x ∧ InputBack t pd.parseDer x x := by
  have h := query_value ht hb hd _ x (Nat.lt_succ_self _) hs
  exact ⟨(C83_one_object h).1, C83_roundtrip_partial h⟩

/-- A case: `(&(a)(|(b)))`. -/
def queryCase : Query := .all [.present [0x61], .some [.present [0x62]]]

example : ∃ t pb pd, t = queryE t ∧ pb = queryF .ber pb ∧ pd = queryF .der pd ∧ SmallContent t queryCase ∧
    t.toVec queryCase = .ok [0xa0, 8, 0x87, 1, 0x61, 0xa1, 3, 0x87, 1, 0x62] ∧
    InputBack t pb.parseBer queryCase queryCase := by
  obtain ⟨t, ht, _⟩ := C137_one_encoder query_descends
  obtain ⟨⟨pb, hb, _⟩, pd, hd, _⟩ := C136_one_parser (query_self false)
  let base : ToBer Query := ⟨.generic, fun _ => .indefinite, fun _ => (.universal, true, 16), fun _ => pure 0⟩
  have h4 : SameAt queryCase (encCalls queryE base (sizeOf queryCase + 1)) t := by
    have := encCalls_same query_descends base t (sizeOf queryCase + 1) queryCase _ (sizeOf queryCase + 1)
      (Nat.lt_succ_self _) (Nat.le_refl _) (Nat.le_refl _)
    rwa [encCalls_fixed ht] at this
  have hs : SmallContent t queryCase := ⟨8, by rw [← h4.2.1]; decide +kernel, by decide⟩
  refine ⟨t, pb, pd, ht, hb, hd, hs, ?_, (C137_choice_roundtrip_partial ht hb hd _ hs).2.1⟩
  have : t.toVec queryCase = (encCalls queryE base (sizeOf queryCase + 1)).toVec queryCase := by
    unfold ToBer.toVec ToBer.encode ToBer.writeHeader
    rw [h4.1, h4.2.1, h4.2.2.1, h4.2.2.2]
  rw [this]
  decide +kernel

end Asn1

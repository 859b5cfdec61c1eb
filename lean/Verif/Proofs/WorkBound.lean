import Verif.Proofs.WorkTyped
/-!
# Bounds on the number of headers read
-/
namespace Asn1
open Spec
variable {α β : Type}

theorem tick_bind_error {x : Tick α} {f : α → Tick β} {e : PErr} (h : x.1 = .error e) :
    x >>= f = ((.error e, x.2) : Tick β) := by
  obtain ⟨y, n⟩ := x
  cases h
  rfl

theorem tick_bind_ok {x : Tick α} {f : α → Tick β} {a : α} (h : x.1 = .ok a) :
    x >>= f = (((f a).1, x.2 + (f a).2) : Tick β) := by
  obtain ⟨y, n⟩ := x
  cases h
  rfl

/-- A parser which reads at most `K` headers for every two bytes it takes, and `o` more; `K` more if it fails. -/
structure Cost (K o : Nat) (i : Input) (x : Tick (Input × α)) : Prop where
  ok : ∀ r v, x.1 = .ok (r, v) → r.data.length ≤ i.data.length ∧
    2 * x.2 + K * r.data.length ≤ K * i.data.length + 2 * o
  err : ∀ e, x.1 = .error e → 2 * x.2 ≤ K * (i.data.length + 2) + 2 * o

/-- A content parser which reads at most `K` headers for every two bytes of the content, and `K` more. -/
def Linear (K : Nat) (p : CParser α) : Prop := ∀ h i, 2 * (p.content h i).2 ≤ K * (i.data.length + 2)

theorem cost_total {K o : Nat} {i : Input} {x : Tick (Input × α)} (h : Cost K o i x) :
    2 * x.2 ≤ K * (i.data.length + 2) + 2 * o := by
  cases hx : x.1 with
  | error e => exact h.err e hx
  | ok z =>
    have := h.ok z.1 z.2 hx
    rw [Nat.mul_add]
    omega

theorem cost_mono {K K' o o' : Nat} {i : Input} {x : Tick (Input × α)} (h : Cost K o i x) (hk : K ≤ K') (ho : o ≤ o') :
    Cost K' o' i x := by
  refine ⟨fun r v hx => ?_, fun e hx => ?_⟩
  · obtain ⟨h1, h2⟩ := h.ok r v hx
    refine ⟨h1, ?_⟩
    obtain ⟨d, rfl⟩ : ∃ d, K' = K + d := ⟨K' - K, by omega⟩
    have h3 : d * r.data.length ≤ d * i.data.length := Nat.mul_le_mul_left _ h1
    rw [Nat.add_mul, Nat.add_mul]
    omega
  · have h1 := h.err e hx
    have h2 : K * (i.data.length + 2) ≤ K' * (i.data.length + 2) := Nat.mul_le_mul_right _ hk
    omega

theorem cost_pure {K o : Nat} {i : Input} (v : α) : Cost K o i (pure (i, v) : Tick (Input × α)) := by
  refine ⟨fun r w hx => ?_, fun e hx => nomatch hx⟩
  have h1 := congrArg Prod.fst (Except.ok.inj hx)
  simp only at h1
  subst h1
  refine ⟨Nat.le_refl _, ?_⟩
  show 2 * 0 + _ ≤ _
  omega

theorem cost_free_error {K o : Nat} {i : Input} (e : PErr) : Cost K o i (Tick.free (.error e) : Tick (Input × α)) :=
  ⟨fun _ _ hx => (nomatch hx), fun _ _ => Nat.zero_le _⟩

theorem cost_bind {K o o' : Nat} {i : Input} {x : Tick (Input × α)} {f : Input × α → Tick (Input × β)}
    (hx : Cost K o i x) (hf : ∀ r v, x.1 = .ok (r, v) → Cost K o' r (f (r, v))) : Cost K (o + o') i (x >>= f) := by
  cases hy : x.1 with
  | error e =>
    rw [tick_bind_error hy]
    refine ⟨fun _ _ h => (nomatch h), fun e' _ => ?_⟩
    have := hx.err e hy
    simp only
    omega
  | ok z =>
    obtain ⟨r, v⟩ := z
    rw [tick_bind_ok hy]
    obtain ⟨h1, h2⟩ := hx.ok r v hy
    refine ⟨fun r' w h => ?_, fun e h => ?_⟩
    · obtain ⟨h3, h4⟩ := (hf r v hy).ok r' w h
      refine ⟨by omega, ?_⟩
      show 2 * (_ + _) + _ ≤ _
      omega
    · have h3 := (hf r v hy).err e h
      rw [Nat.mul_add K] at h3 ⊢
      show 2 * (_ + _) ≤ _
      omega

/-- The result changed, not the rest. -/
theorem cost_map {K o : Nat} {i : Input} {x : Tick (Input × α)} (hx : Cost K o i x) (f : α → β) :
    Cost K o i (x >>= fun z => (pure (z.1, f z.2) : Tick (Input × β))) :=
  cost_bind (o' := 0) hx fun _ v _ => cost_pure (f v)

theorem linear_mono {K K' : Nat} {p : CParser α} (h : Linear K p) (hk : K ≤ K') : Linear K' p :=
  fun hd i => Nat.le_trans (h hd i) (Nat.mul_le_mul_right _ hk)

theorem linear_of_cost {K o : Nat} {p : CParser α} (h : ∀ hd i, Cost K o i (p.content hd i)) : Linear (K + o) p := by
  intro hd i
  have h1 := cost_total (h hd i)
  have h2 : o * 2 ≤ o * (i.data.length + 2) := Nat.mul_le_mul_left _ (by omega)
  rw [Nat.add_mul]
  omega

theorem linear_leaf (p : Parser α) (K : Nat) : Linear K (CParser.leaf p) := fun _ _ => Nat.zero_le _

/-- The count of something done with a result, when the first part reads nothing. -/
theorem count_free {x : Except PErr α} {f : α → Tick β} {B : Nat} (h : ∀ a, x = .ok a → 2 * (f a).2 ≤ B) :
    2 * (Tick.free x >>= f).2 ≤ B := by
  cases hx : x with
  | error e => exact Nat.zero_le _
  | ok a =>
    have := h a hx
    rw [tick_bind_ok (x := Tick.free (.ok a)) rfl]
    show 2 * (0 + _) ≤ _
    omega

/-- Of something whose result is only converted. -/
theorem count_then {x : Tick α} {f : α → Tick β} {B : Nat} (hx : 2 * x.2 ≤ B) (hf : ∀ a, (f a).2 = 0) :
    2 * (x >>= f).2 ≤ B := by
  cases hy : x.1 with
  | error e => rw [tick_bind_error hy]; exact hx
  | ok a =>
    rw [tick_bind_ok hy]
    have := hf a
    simp only
    omega

theorem count_ite {c : Prop} [Decidable c] {x y : Tick α} {B : Nat} (h1 : 2 * x.2 ≤ B) (h2 : 2 * y.2 ≤ B) :
    2 * (if c then x else y).2 ≤ B := by
  split
  · exact h1
  · exact h2

theorem linear_map {K : Nat} {p : CParser α} (h : Linear K p) (f : α → β) : Linear K (p.map f) :=
  fun hd i => count_then (h hd i) fun _ => rfl

theorem linear_primitive {K : Nat} {p : CParser α} (h : Linear K p) : Linear K p.primitive :=
  fun hd i => count_free fun _ _ => h hd i

theorem linear_strict {K : Nat} {p : CParser α} (h : Linear K p) (m : Rules) : Linear K (p.strict m) := by
  cases m
  · exact h
  · exact linear_primitive h

theorem headerDer_len {i r : Input} {h : Header} (hp : parseHeaderDer i = .ok (r, h)) :
    2 + r.data.length ≤ i.data.length := header_len (parseHeaderDer_ok.mp hp).1

theorem header_rules_len {m : Rules} {i r : Input} {h : Header} (hp : m.header i = .ok (r, h)) :
    2 + r.data.length ≤ i.data.length := by
  cases m
  · exact header_len hp
  · exact headerDer_len hp

/-- What comes after the header of an object, and the content of it. -/
theorem cost_object {K : Nat} {i rem : Input} {g : Input × Input → Tick (Input × α)} {y : Tick (Input × Input)}
    (hl : 2 + rem.data.length ≤ i.data.length)
    (hy : Counted rem (y : PRes Input × Nat)) (hd : ∀ r d, y.1 = .ok (r, d) → r.data.length + d.data.length ≤ rem.data.length)
    (hg : ∀ r d, 2 * (g (r, d)).2 ≤ K * (d.data.length + 2)) (hr : ∀ r d r' v, (g (r, d)).1 = .ok (r', v) → r' = r) :
    (∀ r v, (y >>= g).1 = .ok (r, v) → r.data.length + 2 ≤ i.data.length ∧
      2 * (1 + (y >>= g).2) + (K + 1) * r.data.length ≤ (K + 1) * i.data.length) ∧
    2 * (1 + (y >>= g).2) ≤ (K + 1) * (i.data.length + 2) := by
  cases hx : y.1 with
  | error e =>
    rw [tick_bind_error hx]
    refine ⟨fun _ _ h => (nomatch h), ?_⟩
    have h1 := hy.err e hx
    have h2 : 1 * (i.data.length + 2) ≤ (K + 1) * (i.data.length + 2) := Nat.mul_le_mul_right _ (by omega)
    simp only
    omega
  | ok z =>
    obtain ⟨r, d⟩ := z
    rw [tick_bind_ok hx]
    have h1 := hy.ok r d hx
    have h2 := hd r d hx
    have h3 := hg r d
    have key : 2 * (1 + (y.2 + (g (r, d)).2)) + (K + 1) * r.data.length ≤ (K + 1) * i.data.length := by
      obtain ⟨c, hc⟩ : ∃ c, i.data.length = r.data.length + c := ⟨i.data.length - r.data.length, by omega⟩
      have h4 : K * (d.data.length + 2) ≤ K * c := Nat.mul_le_mul_left _ (by omega)
      rw [hc, Nat.mul_add (K + 1), Nat.add_mul K 1 c]
      omega
    refine ⟨fun r' v h => ?_, ?_⟩
    · obtain rfl := hr r d r' v h
      exact ⟨by omega, key⟩
    · simp only
      rw [Nat.mul_add (K + 1)]
      omega

theorem counted_free {x : PRes α} {i : Input} (h : ∀ r v, x = .ok (r, v) → r.data.length ≤ i.data.length) :
    Counted i ((Tick.free x : Tick (Input × α)) : PRes α × Nat) :=
  ⟨fun r v hx => by have := h r v hx; show 2 * 0 + _ ≤ _; omega, fun _ _ => Nat.zero_le _⟩

theorem takeS_len {n : Nat} {i r d : Input} (h : takeS n i = .ok (r, d)) :
    r.data.length + d.data.length ≤ i.data.length := by
  rw [takeS_eq] at h
  split at h
  · injection h with h
    injection h with h1 h2
    subst h1 h2
    simp [List.length_drop, List.length_take]
    omega
  · simp at h

theorem cost_parse_len {K : Nat} {p : CParser α} (hp : Linear K p) (m : Rules) (i : Input) :
    (∀ r v, (p.parse m i).1 = .ok (r, v) → r.data.length + 2 ≤ i.data.length ∧
      2 * (p.parse m i).2 + (K + 1) * r.data.length ≤ (K + 1) * i.data.length) ∧
    2 * (p.parse m i).2 ≤ (K + 1) * (i.data.length + 2) := by
  have h0 : 2 * 1 ≤ (K + 1) * (i.data.length + 2) :=
    Nat.le_trans (by omega) (Nat.mul_le_mul_right (k := i.data.length + 2) (show 1 ≤ K + 1 by omega))
  cases m with
  | ber =>
    unfold CParser.parse
    simp only
    cases hh : parseHeader i with
    | error e => exact ⟨fun _ _ h => (nomatch h), h0⟩
    | ok x =>
      obtain ⟨rem, h⟩ := x
      rw [tick_bind_ok (x := Tick.one (.ok (rem, h))) rfl]
      show (∀ r v, _ = _ → _ ∧ 2 * (1 + _) + _ ≤ _) ∧ 2 * (1 + _) ≤ _
      simp only
      by_cases hb : (!p.acceptTag h.tag) = true
      · rw [if_pos hb]
        exact ⟨fun _ _ h => (nomatch h), h0⟩
      · rw [if_neg hb]
        refine cost_object (header_len hh) (berContentCount_ok _ _ _).2 (fun r d hd => ?_) (fun r d => ?_)
          (fun r d r' v hv => ?_)
        · exact berContent_len ((berContentCount_ok _ _ _).1.symm.trans hd)
        · exact count_then (hp h d) fun _ => rfl
        · rw [tick_bind_fst] at hv
          obtain ⟨z, _, h2⟩ := bind_eq_ok.mp hv
          exact (congrArg Prod.fst (Except.ok.inj h2)).symm
  | der =>
    unfold CParser.parse
    simp only
    cases hh : parseHeaderDer i with
    | error e => exact ⟨fun _ _ h => (nomatch h), h0⟩
    | ok x =>
      obtain ⟨rem, h⟩ := x
      rw [tick_bind_ok (x := Tick.one (.ok (rem, h))) rfl]
      show (∀ r v, _ = _ → _ ∧ 2 * (1 + _) + _ ≤ _) ∧ 2 * (1 + _) ≤ _
      simp only
      cases hL : definiteInner h.length i with
      | error e => exact ⟨fun _ _ h => (nomatch h), h0⟩
      | ok l =>
        have e0 : ∀ f : Nat → Tick (Input × α), (Tick.free (.ok l) >>= f) = f l := fun f => by
          rw [tick_bind_ok (x := Tick.free (.ok l)) rfl]
          exact tick_ext rfl (Nat.zero_add _)
        rw [e0]
        by_cases hb : (!p.acceptTag h.tag) = true
        · rw [if_pos hb]
          exact ⟨fun _ _ h => (nomatch h), h0⟩
        · rw [if_neg hb]
          refine cost_object (headerDer_len hh) (counted_free fun r d hd => ?_) (fun r d hd => ?_) (fun r d => ?_)
            (fun r d r' v hv => ?_)
          · have := takeS_len hd
            omega
          · exact takeS_len hd
          · exact count_then (hp h d) fun _ => rfl
          · rw [tick_bind_fst] at hv
            obtain ⟨z, _, h2⟩ := bind_eq_ok.mp hv
            exact (congrArg Prod.fst (Except.ok.inj h2)).symm

theorem cost_parse {K : Nat} {p : CParser α} (hp : Linear K p) (m : Rules) (i : Input) :
    Cost (K + 1) 0 i (p.parse m i) := by
  obtain ⟨h1, h2⟩ := cost_parse_len hp m i
  refine ⟨fun r v h => ?_, fun e _ => h2⟩
  obtain ⟨h3, h4⟩ := h1 r v h
  exact ⟨by omega, h4⟩

/-! ### Iterators -/

theorem linear_anyC (m : Rules) : Linear 0 m.anyC := by cases m <;> exact linear_leaf _ 0

theorem iterParse_len {m : Rules} {i r : Input} {a : Any} (h : m.anyParse i = .ok (r, a)) :
    2 + r.data.length + a.data.data.length ≤ i.data.length := by
  cases m
  · exact berAny_len ((congrFun anyBer_parseBer i).symm.trans h)
  · exact derAny_len ((congrFun anyDer_parseDer i).symm.trans h)

theorem nextTick_le (m : Rules) (it : AnyIter) : 2 * (nextTick m it).2 ≤ it.input.data.length + 2 := by
  unfold nextTick
  simp only
  split
  · omega
  · have := (cost_parse_len (linear_anyC m) m it.input).2
    omega

theorem nextTick_obj {m : Rules} {it it' : AnyIter} {s : Input} {a : Any}
    (h : (nextTick m it).1 = .ok (some (.obj s a), it')) :
    2 * (nextTick m it).2 + it'.input.data.length ≤ it.input.data.length := by
  unfold nextTick at h ⊢
  simp only at h ⊢
  unfold AnyIter.next at h
  split at h
  · simp at h
  · rename_i hc
    rw [if_neg hc]
    cases hq : m.anyParse it.input with
    | error e =>
      rw [hq] at h
      cases e <;> simp at h
    | ok y =>
      obtain ⟨rem, obj⟩ := y
      rw [hq] at h
      simp only at h
      split at h
      · cases h
      · obtain ⟨d, _, h⟩ := bind_eq_ok.mp h
        injection h with h; injection h with h1 h2
        subst h2
        have := ((cost_parse_len (linear_anyC m) m it.input).1 rem obj ((plain_anyParse m it.input).trans hq)).2
        simp only
        omega

theorem forIterTick_le {σ : Type} {m : Rules} {K : Nat} {f : σ → Any → Tick (Bool × σ)}
    (hf : ∀ s a, 2 * (f s a).2 ≤ K * (a.data.data.length + 2)) : ∀ fuel (it : AnyIter) s,
    2 * (forIterTick m f fuel it s).2 ≤ (K + 1) * (it.input.data.length + 2) := by
  intro fuel
  induction fuel with
  | zero => exact fun it s => Nat.zero_le _
  | succ n ih =>
    intro it s
    have hle := nextTick_le m it
    have hle' : 2 * (nextTick m it).2 ≤ (K + 1) * (it.input.data.length + 2) :=
      Nat.le_trans hle (Nat.le_mul_of_pos_left _ (Nat.succ_pos K))
    unfold forIterTick
    cases hn : (nextTick m it).1 with
    | error e => rw [tick_bind_error hn]; exact hle'
    | ok x =>
      rw [tick_bind_ok hn]
      obtain ⟨o, it1⟩ := x
      cases o with
      | none => simp only; exact hle'
      | some o =>
        cases o with
        | err j e => simp only; exact hle'
        | obj sp a =>
          have h3 := nextTick_obj hn
          have h4 := next_len (parse := m.anyParse) (it := it) (fun _ _ _ => iterParse_len) hn
          have h5 := hf s a
          simp only
          have key : 2 * ((nextTick m it).2 + (f s a).2) + (K + 1) * (it1.input.data.length + 2) ≤
              (K + 1) * (it.input.data.length + 2) := by
            have h6 := h4.2 sp a rfl
            obtain ⟨c, hc⟩ : ∃ c, it.input.data.length = it1.input.data.length + c :=
              ⟨it.input.data.length - it1.input.data.length, by omega⟩
            have h7 : K * (a.data.data.length + 2) ≤ K * c := Nat.mul_le_mul_left _ (by omega)
            have e : (K + 1) * (it.input.data.length + 2) = (K + 1) * (it1.input.data.length + 2) + (K * c + c) := by
              rw [hc, show it1.input.data.length + c + 2 = (it1.input.data.length + 2) + c by omega, Nat.mul_add,
                Nat.add_mul K 1 c, Nat.one_mul]
            omega
          cases hy : (f s a).1 with
          | error e => rw [tick_bind_error hy]; simp only; omega
          | ok z =>
            rw [tick_bind_ok hy]
            obtain ⟨b, s1⟩ := z
            cases b with
            | false =>
              show 2 * ((nextTick m it).2 + ((f s a).2 + 0)) ≤ _
              omega
            | true =>
              have := ih it1 s1
              simp only [if_true]
              omega

theorem collectTick_le {K : Nat} {p : CParser α} (hp : Linear K p) (m : Rules) (i : Input) :
    2 * (collectTick m (AnyIter.new i) p).2 ≤ (K + 1) * (i.data.length + 2) := by
  refine count_then (forIterTick_le (fun l a => ?_) _ (AnyIter.new i) []) fun _ => rfl
  exact count_ite (Nat.zero_le _) (count_then (hp a.header a.data) fun _ => rfl)

/-! ### Strings -/

theorem segContentTick_len {h : Header} {i r d : Input} (hs : (segContentTick h i).1 = .ok (r, d)) :
    d.data.length ≤ i.data.length := by
  unfold segContentTick at hs
  split at hs
  · exact inside_len (berContent_data ((berContentCount_ok _ _ _).1.symm.trans hs))
  · exact inside_len (takeSplit_data hs)

theorem segContentTick_count (h : Header) (i : Input) : (segContentTick h i).2 = 0 := by
  unfold segContentTick
  split
  · rename_i hd
    exact berContentCount_primitive (.inl hd)
  · rfl

theorem segmentedTick_le {acc : Nat → Bool} {e : α} {ap : α → α → α} {leaf : Header → Input → PRes α} :
    ∀ n h i, 2 * (segmentedTick acc e ap leaf n h i).2 ≤ n * (i.data.length + 2) := by
  intro n
  induction n with
  | zero => exact fun h i => Nat.zero_le _
  | succ n ih =>
    intro h i
    unfold segmentedTick
    refine count_ite (Nat.zero_le _) ?_
    split
    · cases hx : (segContentTick h i).1 with
      | error e => rw [tick_bind_error hx, segContentTick_count]; exact Nat.zero_le _
      | ok z =>
        obtain ⟨rem, data⟩ := z
        have hd := segContentTick_len hx
        rw [tick_bind_ok hx, segContentTick_count]
        have h7 : (n + 1) * (data.data.length + 2) ≤ (n + 1) * (i.data.length + 2) :=
          Nat.mul_le_mul_left _ (by omega)
        have h8 : 2 * (forIterTick .ber (segStepTick acc ap (fun h i => segmentedTick acc e ap leaf n h i))
            (data.len + 1) (AnyIter.new data) e).2 ≤ (n + 1) * (data.data.length + 2) := by
          refine forIterTick_le (fun v a => ?_) _ (AnyIter.new data) e
          unfold segStepTick
          exact count_ite (Nat.zero_le _) (count_ite (Nat.zero_le _) (count_ite (Nat.zero_le _)
            (count_then (ih a.header a.data) fun _ => rfl)))
        have h9 := Nat.le_trans h8 h7
        show 2 * (0 + _) ≤ _
        rw [Nat.zero_add]
        exact count_then h9 fun _ => rfl
    · rename_i hcon
      have c2 := berContentCount_primitive (i := i) (d := MAX_RECURSION) (.inr (Bool.eq_false_iff.mpr hcon))
      refine count_then (by rw [show (Tick.of (berContentCount h i MAX_RECURSION)).2 = 0 from c2]; exact Nat.zero_le _)
        fun x => ?_
      have := count_free (x := leaf h x.2) (f := fun z => (pure (x.1, z.2) : Tick (Input × α))) (B := 0)
        (fun _ _ => Nat.le_refl 0)
      exact Nat.eq_zero_of_le_zero (by simp only at this ⊢; omega)

theorem octetsTick_le (h : Header) (i : Input) : 2 * (octetsTick h i).2 ≤ 5 * (i.data.length + 2) :=
  segmentedTick_le 5 h i

theorem linear_octets : Linear 5 CParser.octets := fun h i => count_ite (Nat.zero_le _) (octetsTick_le h i)

theorem linear_bits : Linear 5 CParser.bits := fun h i => count_ite (Nat.zero_le _) (segmentedTick_le 5 h i)

theorem linear_text (k : StrKind) : Linear 5 (CParser.text k) := fun h i =>
  count_then (count_ite (Nat.zero_le _) (octetsTick_le h i)) fun _ => rfl

theorem linear_wide (tag : Nat) (of : Input → Bytes → PRes Text) : Linear 5 (CParser.wide tag of) := fun h i =>
  count_then (count_ite (Nat.zero_le _) (octetsTick_le h i)) fun _ => rfl

/-! ### Containers and tags -/

theorem linear_vec {K : Nat} {p : CParser α} (hp : Linear K p) (m : Rules) : Linear (K + 1) (CParser.vec m p) :=
  fun _ i => count_free fun _ _ => count_ite (Nat.zero_le _) (collectTick_le hp m i)

theorem linear_setItems {K : Nat} {p : CParser α} (hp : Linear K p) (m : Rules) :
    Linear (K + 1) (CParser.setItems m p) :=
  fun _ i => count_free fun _ _ => collectTick_le hp m i

theorem linear_array {K : Nat} {p : CParser α} (hp : Linear K p) (m : Rules) (N : Nat) :
    Linear (K + 1) (CParser.array N m p) :=
  fun h i => count_then (linear_vec hp m h i) fun _ => rfl

theorem linear_explicit {K : Nat} {p : CParser α} (hp : Linear K p) (m : Rules) (cls : Class) (tag : Nat) :
    Linear (K + 1) (CParser.explicit m cls tag p) :=
  fun _ i => count_free fun _ _ => count_ite (Nat.zero_le _) (count_ite (Nat.zero_le _)
    (count_then (cost_parse_len hp m i).2 fun _ => rfl))

theorem linear_implicit {K : Nat} {p : CParser α} (hp : Linear K p) (cls : Class) (tag : Nat) :
    Linear K (CParser.implicit cls tag p) :=
  fun h i => count_ite (Nat.zero_le _) (count_then (hp h i) fun _ => rfl)

/-! ### Fields -/

theorem optionContentTick_le {K : Nat} {p : CParser α} (hp : Linear K p) (h : Header) (i : Input) :
    2 * (optionContentTick p h i).2 ≤ (K + 1) * (i.data.length + 2) := by
  refine count_ite (Nat.zero_le _) ?_
  obtain ⟨h1, h2⟩ := berContentCount_ok h i MAX_RECURSION
  have h3 : K * 0 + 1 * (i.data.length + 2) ≤ (K + 1) * (i.data.length + 2) := by
    rw [Nat.add_mul]; omega
  cases hx : (berContentCount h i MAX_RECURSION).1 with
  | error e =>
    rw [tick_bind_error (x := Tick.of (berContentCount h i MAX_RECURSION)) hx]
    have := h2.err e hx
    show 2 * (berContentCount h i MAX_RECURSION).2 ≤ _
    omega
  | ok z =>
    obtain ⟨r, d⟩ := z
    rw [tick_bind_ok (x := Tick.of (berContentCount h i MAX_RECURSION)) hx]
    have h4 := h2.ok r d hx
    have h5 := berContent_len (h1.symm.trans hx)
    have h6 : 2 * (p.content h d >>= fun z => (pure (r, some z.2) : Tick (Input × Option α))).2 ≤
        K * (d.data.length + 2) := count_then (hp h d) fun _ => rfl
    have h7 : K * (d.data.length + 2) ≤ K * (i.data.length + 2) := Nat.mul_le_mul_left _ (by omega)
    show 2 * ((berContentCount h i MAX_RECURSION).2 +
      (p.content h d >>= fun z => (pure (r, some z.2) : Tick (Input × Option α))).2) ≤ _
    rw [Nat.add_mul]
    omega

theorem cost_option {K : Nat} {p : CParser α} (hp : Linear K p) (m : Rules) (i : Input) :
    Cost (K + 2) 1 i (optionTick m p i) := by
  unfold optionTick
  split
  · exact cost_pure none
  · have h0 : 2 * 1 ≤ (K + 2) * (i.data.length + 2) + 2 * 1 := by omega
    cases hh : m.header i with
    | error e => exact ⟨fun _ _ h => (nomatch h), fun _ _ => h0⟩
    | ok x =>
      obtain ⟨rem, h⟩ := x
      rw [tick_bind_ok (x := Tick.one (.ok (rem, h))) rfl]
      simp only
      by_cases hb : (!p.acceptTag h.tag) = true
      · rw [if_pos hb]
        refine ⟨fun r v hx => ?_, fun e hx => (nomatch hx)⟩
        have h1 := congrArg Prod.fst (Except.ok.inj hx)
        simp only at h1
        subst h1
        refine ⟨Nat.le_refl _, ?_⟩
        show 2 * (1 + 0) + _ ≤ _
        omega
      · rw [if_neg hb]
        obtain ⟨h1, h2⟩ := cost_object (K := K + 1) (i := i) (rem := rem)
          (y := Tick.of (berContentCount h rem MAX_RECURSION))
          (g := fun x => match x with
            | (rem, data) => do
              let (_, obj) ← optionContentTick p h data
              pure (rem, obj))
          (header_rules_len hh) (berContentCount_ok _ _ _).2
          (fun r d hd => berContent_len ((berContentCount_ok _ _ _).1.symm.trans hd))
          (fun r d => count_then (optionContentTick_le hp h d) fun _ => rfl)
          (fun r d r' v hv => by
            simp only at hv
            rw [tick_bind_fst] at hv
            obtain ⟨z, _, h2⟩ := bind_eq_ok.mp hv
            exact (congrArg Prod.fst (Except.ok.inj h2)).symm)
        refine ⟨fun r v hx => ?_, fun e hx => ?_⟩
        · obtain ⟨h3, h4⟩ := h1 r v hx
          refine ⟨by omega, ?_⟩
          exact Nat.le_trans h4 (Nat.le_add_right _ _)
        · exact Nat.le_trans h2 (Nat.le_add_right _ _)

theorem cost_tagged {K : Nat} {p : CParser (TaggedValue α)} (hp : Linear K p) (m : Rules) (i : Input) :
    Cost (K + 1) 0 i (taggedTick m p i) := cost_map (cost_parse hp m i) _

theorem cost_optTagged {K : Nat} {p : CParser (TaggedValue α)} (hp : Linear K p) (m : Rules) (n : Nat) (i : Input) :
    Cost (K + 2) 1 i (optTaggedTick m n p i) := by
  unfold optTaggedTick
  split
  · exact cost_pure none
  · have h0 : 2 * 1 ≤ (K + 2) * (i.data.length + 2) + 2 * 1 := by omega
    cases hh : m.header i with
    | error e => exact ⟨fun _ _ h => (nomatch h), fun _ _ => h0⟩
    | ok x =>
      obtain ⟨rem, h⟩ := x
      rw [tick_bind_ok (x := Tick.one (.ok (rem, h))) rfl]
      simp only
      split
      · have hc := cost_mono (cost_map (cost_parse hp m i) (fun t => some t.inner)) (show K + 1 ≤ K + 2 by omega)
          (Nat.le_refl 0)
        refine ⟨fun r v hx => ?_, fun e hx => ?_⟩
        · obtain ⟨h1, h2⟩ := hc.ok r v hx
          refine ⟨h1, ?_⟩
          show 2 * (1 + _) + _ ≤ _
          have h3 : (p.parse m i >>= fun z => (pure (z.1, some z.2.inner) : Tick (Input × Option α))).2 =
            (p.parse m i >>= fun x => match x with
              | (rem, t) => (pure (rem, some t.inner) : Tick (Input × Option α))).2 := rfl
          rw [h3] at h2
          omega
        · have h2 := hc.err e hx
          show 2 * (1 + _) ≤ _
          have h3 : (p.parse m i >>= fun z => (pure (z.1, some z.2.inner) : Tick (Input × Option α))).2 =
            (p.parse m i >>= fun x => match x with
              | (rem, t) => (pure (rem, some t.inner) : Tick (Input × Option α))).2 := rfl
          rw [h3] at h2
          omega
      · refine ⟨fun r v hx => ?_, fun e hx => (nomatch hx)⟩
        have h1 := congrArg Prod.fst (Except.ok.inj hx)
        simp only at h1
        subst h1
        refine ⟨Nat.le_refl _, ?_⟩
        show 2 * (1 + 0) + _ ≤ _
        omega

theorem cost_optional {K : Nat} {p : CParser α} (hp : Linear K p) (m : Rules) (tag : FieldTag) (i : Input) :
    Cost (K + 2 + tagLayers tag) 1 i (optionalTick m tag p i) := by
  cases tag with
  | untagged => exact cost_option hp m i
  | explicit cls n => exact cost_optTagged (linear_explicit hp m cls n) m n i
  | implicit cls n => exact cost_optTagged (linear_implicit hp cls n) m n i

theorem cost_required {K : Nat} {p : CParser α} (hp : Linear K p) (m : Rules) (tag : FieldTag) (i : Input) :
    Cost (K + 1 + tagLayers tag) 0 i (requiredTick m tag p i) := by
  cases tag with
  | untagged => exact cost_parse hp m i
  | explicit cls n => exact cost_tagged (linear_explicit hp m cls n) m i
  | implicit cls n => exact cost_tagged (linear_implicit hp cls n) m i

/-! ### EMBEDDED PDV -/

theorem cost_context {K : Nat} {p : CParser α} (hp : Linear K p) (tag : Nat) (i : Input) :
    Cost (K + 1) 0 i (contextTick tag p i) := cost_parse (linear_implicit hp _ tag) .ber i

theorem pdvPairTick_le (p : Parser α) (q : Parser β) (i : Input) :
    2 * (pdvPairTick (CParser.leaf p) (CParser.leaf q) i).2 ≤ i.data.length + 2 := by
  have h1 := cost_context (linear_leaf p 0) 0 i
  unfold pdvPairTick
  cases hx : (contextTick 0 (CParser.leaf p) i).1 with
  | error e =>
    rw [tick_bind_error hx]
    have := h1.err e hx
    simp only
    omega
  | ok z =>
    obtain ⟨r, v⟩ := z
    rw [tick_bind_ok hx]
    have h2 := h1.ok r v hx
    have h3 := cost_total (cost_context (linear_leaf q 0) 1 r)
    have h4 : 2 * (contextTick 1 (CParser.leaf q) r >>= fun z => (pure (v.inner, z.2.inner) : Tick (α × β))).2 ≤
      (0 + 1) * (r.data.length + 2) + 2 * 0 := count_then h3 fun _ => rfl
    show 2 * ((contextTick 0 (CParser.leaf p) i).2 +
      (contextTick 1 (CParser.leaf q) r >>= fun z => (pure (v.inner, z.2.inner) : Tick (α × β))).2) ≤ _
    omega

theorem pdvIdentificationTick_le (a : Any) : 2 * (pdvIdentificationTick a).2 ≤ a.data.data.length + 2 := by
  unfold pdvIdentificationTick
  exact count_ite (count_then (pdvPairTick_le _ _ _) fun _ => rfl)
    (count_ite (count_then (pdvPairTick_le _ _ _) fun _ => rfl) (Nat.zero_le _))

theorem context_any_len {i r : Input} {t : TaggedValue Any}
    (h : (contextTick 0 (CParser.leaf anyBer) i).1 = .ok (r, t)) :
    2 + r.data.length + t.inner.data.data.length ≤ i.data.length := by
  rw [plain_context (plain_leaf anyBer)] at h
  obtain ⟨a, x, h1, _, h2⟩ := parseBer_ok.mp h
  have h3 := berAny_len h1
  unfold implicitP at h2
  simp only at h2
  split at h2
  · simp [nomErr] at h2
  · obtain ⟨⟨r', a'⟩, h4, h5⟩ := bind_eq_ok.mp h2
    have h6 := congrArg Prod.snd (Except.ok.inj h5)
    simp only at h6
    subst h6
    have h7 : a'.data.data.length ≤ a.data.data.length := by
      unfold anyBer at h4
      simp only at h4
      split at h4
      all_goals
        obtain ⟨⟨r2, d⟩, h8, h9⟩ := bind_eq_ok.mp h4
        have h10 := congrArg Prod.snd (Except.ok.inj h9)
        simp only at h10
        subst h10
        have := takeS_len h8
        simp only
        omega
    show 2 + _ + a'.data.data.length ≤ _
    omega

theorem cost_tail {K o n n' : Nat} {i r : Input} {y : Tick (Input × α)} (hy : Cost K o r y)
    (hr : r.data.length ≤ i.data.length) (hn : 2 * (n + n') + K * r.data.length ≤ K * i.data.length) :
    Cost K o i ((y.1, n + (n' + y.2)) : Tick (Input × α)) := by
  refine ⟨fun r' v h => ?_, fun e h => ?_⟩
  · obtain ⟨h1, h2⟩ := hy.ok r' v h
    refine ⟨by omega, ?_⟩
    show 2 * (n + (n' + y.2)) + _ ≤ _
    omega
  · have := hy.err e h
    show 2 * (n + (n' + y.2)) ≤ _
    rw [Nat.mul_add K] at this ⊢
    omega

theorem linear_pdv : Linear 8 CParser.pdv := by
  refine linear_of_cost (K := 7) (o := 1) fun hd i => ?_
  unfold CParser.pdv
  simp only
  have h1 := cost_context (linear_leaf anyBer 0) 0 i
  cases hx : (contextTick 0 (CParser.leaf anyBer) i).1 with
  | error e =>
    rw [tick_bind_error hx]
    refine ⟨fun _ _ h => (nomatch h), fun _ _ => ?_⟩
    have := h1.err e hx
    simp only
    omega
  | ok z =>
    obtain ⟨r, t⟩ := z
    rw [tick_bind_ok hx]
    simp only
    have h2 := h1.ok r t hx
    have h3 := context_any_len hx
    have h4 := pdvIdentificationTick_le t.inner
    cases hy : (pdvIdentificationTick t.inner).1 with
    | error e =>
      rw [tick_bind_error hy]
      refine ⟨fun _ _ h => (nomatch h), fun _ _ => ?_⟩
      simp only
      omega
    | ok ident =>
      rw [tick_bind_ok hy]
      simp only
      have hc : Cost 7 (1 + 0) r
          (optionTick .ber (CParser.implicit .contextSpecific 1 (CParser.text objectDescriptorK)) r >>= fun x =>
            contextTick 2 (CParser.leaf sliceBer) x.1 >>= fun y =>
              (pure (y.1, (⟨ident, x.2.map (·.inner), y.2.inner⟩ : EmbeddedPdv)) : Tick (Input × EmbeddedPdv))) := by
        refine cost_bind (cost_option (linear_implicit (linear_text _) _ _) .ber r) fun r' v _ => ?_
        exact cost_mono (K := 1) (K' := 7) (o' := 0) (cost_map (cost_context (linear_leaf sliceBer 0) 2 r')
          (fun t => (⟨ident, v.map (·.inner), t.inner⟩ : EmbeddedPdv))) (by omega) (Nat.le_refl 0)
      exact cost_tail hc (by omega) (by omega) 
/-! ### Every type -/

mutual

theorem linear_ty (m : Rules) : {α : Type} → (t : Ty α) → Linear t.layers (t.counter m)
  | _, .leaf pb pd _ => by cases m <;> exact linear_leaf _ _
  | _, .octetString => linear_strict linear_octets m
  | _, .bitString => linear_strict linear_bits m
  | _, .text k => linear_strict (linear_text k) m
  | _, .string => by
    cases m
    · exact linear_text utf8StringK
    · exact linear_leaf _ _
  | _, .bmpString => linear_strict (linear_wide _ _) m
  | _, .universalString => linear_strict (linear_wide _ _) m
  | _, .embeddedPdv => linear_pdv
  | _, .vec t => linear_vec (linear_ty m t) m
  | _, .sequenceOf t => linear_map (linear_vec (linear_ty m t) m) _
  | _, .setOf t => linear_map (linear_setItems (linear_ty m t) m) _
  | _, .set S t => linear_map (linear_setItems (linear_ty m t) m) _
  | _, .array N t => linear_array (linear_ty m t) m N
  | _, .tuple ts => linear_of_cost (K := ts.layers) (o := 0) fun _ i => cost_tys m ts i
  | _, .explicit cls tag t => linear_explicit (linear_ty m t) m cls tag
  | _, .implicit cls tag t => linear_implicit (linear_ty m t) cls tag
  | _, .struct tag fs => fun _ i => count_free fun _ _ => by
    have h1 := cost_total (cost_fields m fs i)
    have h2 : fs.options * 2 ≤ fs.options * (i.data.length + 2) := Nat.mul_le_mul_left _ (by omega)
    show 2 * (fs.run m i).2 ≤ (fs.layers + fs.options) * _
    rw [Nat.add_mul]
    omega
  | _, .choice k vs => by
    intro h i
    cases k with
    | explicit => exact count_free fun _ _ => linear_variants m .explicit vs h i
    | implicit => exact linear_variants m .implicit vs h i
    | untagged => exact linear_variants m .untagged vs h i
  | _, .alias t => linear_map (linear_ty m t) _

theorem cost_tys (m : Rules) : {Ts : List Type} → (ts : Tys Ts) → (i : Input) → Cost ts.layers 0 i (ts.run m i)
  | _, .nil, _ => cost_pure ()
  | _, .cons t ts, i => cost_bind (o := 0) (o' := 0)
      (cost_mono (cost_parse (linear_ty m t) m i) (Nat.le_max_left _ _) (Nat.le_refl _)) fun r v _ =>
        cost_map (cost_mono (cost_tys m ts r) (Nat.le_max_right _ _) (Nat.le_refl _)) _

theorem cost_fields (m : Rules) : {Ts : List Type} → (fs : FieldTys Ts) → (i : Input) →
    Cost fs.layers fs.options i (fs.run m i)
  | _, .nil, _ => cost_pure ()
  | _, .required tag t fs, i => by
    have := cost_bind (o := 0) (o' := fs.options)
      (f := fun z => (fs.run m z.1 >>= fun w => (pure (w.1, (z.2, w.2)) : Tick _)))
      (cost_mono (cost_required (linear_ty m t) m tag i) (Nat.le_max_left _ fs.layers) (Nat.le_refl _)) fun r v _ =>
        cost_map (cost_mono (cost_fields m fs r) (Nat.le_max_right _ _) (Nat.le_refl _)) _
    rw [Nat.zero_add] at this
    exact this
  | _, .optional tag t fs, i => by
    have := cost_bind (o := 1) (o' := fs.options)
      (f := fun z => (fs.run m z.1 >>= fun w => (pure (w.1, (z.2, w.2)) : Tick _)))
      (cost_mono (cost_optional (linear_ty m t) m tag i) (Nat.le_max_left _ fs.layers) (Nat.le_refl _)) fun r v _ =>
        cost_map (cost_mono (cost_fields m fs r) (Nat.le_max_right _ _) (Nat.le_refl _)) _
    rw [Nat.add_comm 1] at this
    exact this
  | _, .default tag x t fs, i => by
    have := cost_bind (o := 1) (o' := fs.options)
      (f := fun z => (fs.run m z.1 >>= fun w => (pure (w.1, (z.2.getD x, w.2)) : Tick _)))
      (cost_mono (cost_optional (linear_ty m t) m tag i) (Nat.le_max_left _ fs.layers) (Nat.le_refl _)) fun r v _ =>
        cost_map (cost_mono (cost_fields m fs r) (Nat.le_max_right _ _) (Nat.le_refl _)) _
    rw [Nat.add_comm 1] at this
    exact this

theorem linear_variants (m : Rules) (k : ChoiceKind) : {Ts : List Type} → (vs : VariantTys Ts) → (h : Header) →
    (i : Input) → 2 * (vs.content m k h i).2 ≤ vs.layers * (i.data.length + 2)
  | _, .nil, _, _ => Nat.zero_le _
  | _, .cons tag t vs, h, i => by
    have h1 : 2 * (variantTick m k (t.counter m) h i).2 ≤ (t.layers + 1) * (i.data.length + 2) := by
      cases k with
      | explicit => exact (cost_parse_len (linear_ty m t) m i).2
      | implicit => exact Nat.le_trans (linear_ty m t h i) (Nat.mul_le_mul_right _ (Nat.le_succ _))
      | untagged => exact Nat.le_trans (linear_ty m t h i) (Nat.mul_le_mul_right _ (Nat.le_succ _))
    have h2 := linear_variants m k vs h i
    exact count_ite
      (count_then (Nat.le_trans h1 (Nat.mul_le_mul_right _ (Nat.le_max_left _ _))) fun _ => rfl)
      (count_then (Nat.le_trans h2 (Nat.mul_le_mul_right _ (Nat.le_max_right _ _))) fun _ => rfl)

end

end Asn1

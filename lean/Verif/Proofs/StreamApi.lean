import Verif.Proofs.StreamReader
import Verif.Props.BuiltValue
/-!
# The functions of the crate as parsing functions of a reader
-/
namespace Asn1
open Spec

variable {α β : Type}

/-! ### Bytes that end within a tag -/

theorem part_header {i : Input} (h : PartOfTag i.data) : parseHeader i = .error (.error i .invalidTag) := by
  obtain ⟨b, v, h1, h2, h3, h4⟩ := h
  have h0 : beU8 i = .ok (after i 1, b) := by
    rw [beU8_ok]; rw [h1]; simp [after, h1]
  have loop : ∀ (v : Bytes) (rem : Input) (fuel c cnt : Nat), rem.data = v → (∀ c ∈ v, 128 ≤ c.toNat) →
      v.length < fuel → tagLoop i fuel rem c cnt = .error (.error i .invalidTag) := by
    intro v
    induction v with
    | nil =>
      intro rem fuel c cnt hr _ hf
      cases fuel with
      | zero => simp at hf
      | succ fuel =>
        unfold tagLoop beU8; rw [hr]; rfl
    | cons x v ih =>
      intro rem fuel c cnt hr hv hf
      cases fuel with
      | zero => simp at hf
      | succ fuel =>
        unfold tagLoop
        have hb : beU8 rem = .ok (after rem 1, x) := by rw [beU8_ok, hr]; simp [after, hr]
        rw [hb]
        simp only
        split
        · rfl
        · rw [if_neg]
          · exact ih _ _ _ _ (by simp [after, hr]) (fun c hc => hv c (List.mem_cons_of_mem _ hc))
              (by simp at hf; omega)
          · intro h
            have := (and80_eq x).mp h
            have := hv x (by simp); omega
  unfold parseHeader
  rw [h0]
  simp only [bind_ok]
  obtain ⟨c, hc⟩ := Option.ne_none_iff_exists'.mp (Class.tryFrom_ne b)
  rw [hc]
  simp only
  unfold parseTag
  simp only
  rw [if_pos]
  · rw [loop v (after i 1) _ _ _ (by simp [after, h1]) h3 (by simp [after, h1])]
    rfl
  · apply UInt8.toNat_inj.mp
    rw [UInt8.toNat_and, show (31 : UInt8).toNat = 2 ^ 5 - 1 from rfl, Nat.and_two_pow_sub_one_eq_mod]
    exact h2

theorem cut_loop {d : Nat} (hone : ∀ i : Input, EndsInTag d i.data →
      ∃ j, oneElem (d + 1) i = .error (.error j .invalidTag)) (items : List Bytes) (rest : Bytes)
    (hi : ∀ it ∈ items, Elem LaxEoc d it ∧ ¬ LaxEoc it) (hr : EndsInTag d rest) :
    ∀ i : Input, i.data = items.flatten ++ rest →
      ∃ j, skipLoopL (fun i h => skipContent (d + 1) i h) i = .error (.error j .invalidTag) := by
  have hs := good_skipContent (d + 1)
  have step : ∀ j, skipLoopL (fun i h => skipContent (d + 1) i h) j =
      oneElem (d + 1) j >>= fun y => if y.2 then pure (y.1, false)
        else skipLoopL (fun i h => skipContent (d + 1) i h) y.1 := by
    intro j
    rw [skipLoopL_eq hs, oneElem]
    cases parseHeader j <;> rfl
  induction items with
  | nil =>
    intro i h
    obtain ⟨j, hj⟩ := hone i (by rw [h]; exact hr)
    exact ⟨j, by rw [step, hj]; rfl⟩
  | cons it items ih =>
    intro i h
    obtain ⟨h1, h2⟩ := hi it (by simp)
    have := (oneElem_ok d i (after i it.length)).mpr ⟨it, h1, h2, by simp [h], rfl⟩
    rw [step, this]
    simp only [bind_ok, Bool.false_eq_true, if_false]
    exact ih (fun x hx => hi x (List.mem_cons_of_mem _ hx)) _ (by simp [h])

theorem cut_elem (d : Nat) : ∀ i : Input, EndsInTag d i.data →
    ∃ j, oneElem (d + 1) i = .error (.error j .invalidTag) := by
  induction d with
  | zero =>
    intro i h
    exact ⟨i, by unfold oneElem; rw [part_header h]; rfl⟩
  | succ d ih =>
    intro i h
    rcases h with h | ⟨c, tag, id, len, items, rest, h1, h2, h3, h4, h5⟩
    · exact ⟨i, by unfold oneElem; rw [part_header h]; rfl⟩
    · have hp : parseHeader i = .ok (after i (id.length + len.length), ⟨c, true, tag, .indefinite, some id,
          some (first i (id.length + len.length))⟩) :=
        parseHeader_ok.mpr ⟨id, len, h1, h2, by simp [h5], rfl, rfl, rfl⟩
      unfold oneElem
      rw [hp]
      simp only [bind_ok]
      rw [skipContent_indef rfl]
      simp only [if_true]
      exact cut_loop ih items rest h3 h4 _ (by simp [h5])

theorem cut_any {d : Nat} {i : Input} (hd : d ≤ 49) (h : EndsInTag d i.data) :
    ∃ j, parseBerAny i = .error (.error j .invalidTag) := by
  obtain ⟨j, hj⟩ := cut_elem 49 i (endsInTag_mono hd h)
  rw [oneElem] at hj
  rcases bind_eq_err.mp hj with h1 | ⟨x, h1, h2⟩
  · exact ⟨j, bind_eq_err.mpr (.inl h1)⟩
  · refine ⟨j, bind_eq_err.mpr (.inr ⟨x, h1, bind_eq_err.mpr (.inl ?_)⟩)⟩
    rw [berContent_eq]
    exact bind_eq_err.mpr (.inl h2)

/-- An object with a definite length and one identifier octet is not cut within a tag. -/
theorem not_cut {m : Rules} {c : Class} {b : Bool} {tag n : Nat} {b0 : UInt8} {len content x y : Bytes}
    (h1 : Ident c b tag [b0]) (h2 : Len b (.definite n) len) (h : [b0] ++ len ++ content = x ++ y) : ¬ CutInTag m x := by
  have hp : ∀ x y, [b0] ++ len ++ content = x ++ y → ¬ PartOfTag x := by
    rintro x y h ⟨b', v, rfl, h3, _⟩
    simp at h
    obtain ⟨rfl, _⟩ := h
    cases h1 with
    | low _ ht hb =>
      rw [hb] at h3
      unfold identByte classBits at h3
      cases c <;> cases b <;> simp at h3 <;> omega
    | high _ bs hb hg =>
      obtain ⟨init, last, hl, _⟩ := hg
      simp at hl
  cases m
  · rintro ⟨d, hd⟩
    cases d with
    | zero => exact hp x y h hd
    | succ d =>
      rcases hd with hd | ⟨c', tag', id', len', items, rest, g1, g2, g3, g4, rfl⟩
      · exact hp x y h hd
      · have := header_unique h1 h2 g1 g2 (x := content) (x' := items.flatten ++ rest ++ y) (by
          rw [h]; simp)
        simp at this
  · exact hp x y h

/-! ### `parse_ber`, `parse_der` -/

theorem ext_slice (bs y : Bytes) : Input.fromSlice (bs ++ y) = extend (Input.fromSlice bs) y := by
  simp [Input.fromSlice, extend]

theorem cut_nil (m : Rules) : ¬ CutInTag m [] := by
  have hp : ¬ PartOfTag [] := by rintro ⟨_, _, h, _⟩; simp at h
  cases m
  · rintro ⟨d, h⟩
    cases d with
    | zero => exact hp h
    | succ d =>
      rcases h with h | ⟨c, tag, id, len, items, rest, g1, _, _, _, h⟩
      · exact hp h
      · cases g1 <;> simp at h
  · exact hp

theorem header_nil (m : Rules) : m.header (Input.fromSlice []) = .error (.incomplete 1) := by
  have : parseHeader (Input.fromSlice []) = .error (.incomplete 1) := by
    unfold parseHeader beU8; rfl
  cases m
  · exact this
  · show parseHeaderDer _ = _
    unfold parseHeaderDer; rw [this]; rfl

theorem steady_parse (m : Rules) (p : Parser α) : Steady (CutInTag m) (outcome (m.parse p)) where
  nil := ⟨1, by unfold outcome; rw [parse_staged, header_nil]; rfl⟩
  notNil := cut_nil m
  done x r v h := by
    unfold outcome at h
    rcases parse_cases m p x with ⟨e, r', a, h1, rfl, h3, h4⟩ | ⟨n, _, hn⟩ | ⟨j, e, hn, _⟩
    · rw [h4] at h
      cases hc : p.content a.header a.data with
      | error err => rw [hc] at h; cases err <;> simp [Bind.bind, Except.bind] at h
      | ok z =>
        rw [hc] at h
        simp only [bind_ok, Outcome.done.injEq, after_whole] at h
        obtain ⟨rfl, rfl⟩ := h
        refine ⟨e, by intro h0; rw [h0] at h1; simp at h1, rfl, fun y => ?_⟩
        unfold outcome
        rw [h4, hc]
        simp only [bind_ok, after_whole]
    · rw [hn] at h; simp at h
    · rw [hn] at h; simp at h
  failed x e h := by
    unfold outcome at h
    rcases parse_cases m p x with ⟨e', r', a, h1, rfl, h3, h4⟩ | ⟨n, _, hn⟩ | ⟨j, e', hn, hf⟩
    · rw [h4] at h
      refine .inr fun y => ?_
      unfold outcome
      rw [List.append_assoc, h4]
      cases hc : p.content a.header a.data with
      | error err => rw [hc] at h; cases err <;> simpa [Bind.bind, Except.bind] using h
      | ok z => rw [hc] at h; simp at h
    · rw [hn] at h; simp at h
    · rw [hn] at h
      simp only [Outcome.failed.injEq] at h
      rcases hf with ⟨_, g⟩ | g
      · exact .inl g
      · refine .inr fun y => ?_
        obtain ⟨j', g⟩ := g y
        unfold outcome; rw [g, ← h]

theorem truthful_parse {m : Rules} {p : Parser α}
    (hc : ∀ i r a n, m.any i = .ok (r, a) → p.content a.header a.data ≠ .error (.incomplete n)) :
    Truthful (outcome (m.parse p)) := by
  intro x n h
  unfold outcome at h
  rcases parse_cases m p x with ⟨e, r', a, h1, rfl, h3, h4⟩ | ⟨n', hn, hp⟩ | ⟨j, e, hn, _⟩
  · exfalso
    rw [h4] at h
    cases hcc : p.content a.header a.data with
    | ok z => rw [hcc] at h; simp at h
    | error err =>
      rw [hcc] at h
      cases err <;> simp [Bind.bind, Except.bind] at h
      exact hc _ _ _ _ (h3 []) hcc
  · rw [hp] at h
    simp only [Outcome.more.injEq] at h
    subst h
    obtain ⟨g1, g2⟩ := (good_any m).inc _ _ hn
    refine ⟨g1, fun y hy => ?_⟩
    have g3 := g2 y hy
    have hpx : m.parse p (Input.fromSlice (x ++ y)) = .error (.incomplete (n' - y.length)) := by
      rcases parse_cases m p (x ++ y) with ⟨e, r', a, _, k2, k3, _⟩ | ⟨n2, k1, k2⟩ | ⟨j, e, k1, k2⟩
      · exfalso
        have := k3 r'
        rw [← k2, ext_slice, g3] at this
        simp at this
      · rw [ext_slice, g3] at k1
        simp only [Except.error.injEq, PErr.incomplete.injEq] at k1
        rw [k2, k1]
      · exfalso
        -- an error of the header, or of its tag, would have been one before
        rw [parse_staged] at hp k1
        rw [ext_slice] at k1
        rw [any_staged] at hn g3
        cases hh : m.header (Input.fromSlice x) with
        | error err =>
          rw [hh] at hp
          have hp : (Except.error err : PRes α) = .error (.incomplete n') := hp
          injection hp with hp
          subst hp
          have := ((good_header m).inc _ _ hh).2 y hy
          rw [this] at k1
          have k1 : (Except.error (PErr.incomplete (n' - y.length)) : PRes α) = .error (.error j e) := k1
          simp at k1
        | ok z =>
          obtain ⟨r1, hd⟩ := z
          rw [hh] at hp hn
          rw [(good_header m).ext _ _ _ y hh] at k1
          simp only [bind_ok] at hp k1 hn
          cases ha : p.acceptTag hd.tag with
          | false => rw [ha] at hp; simp [nomErr] at hp
          | true =>
            rw [ha] at k1
            simp only [Bool.not_true, Bool.false_eq_true, if_false] at k1
            have hci : m.cont hd r1 = .error (.incomplete n') := by
              cases hcc : m.cont hd r1 with
              | ok z => rw [hcc] at hn; simp at hn
              | error err =>
                rw [hcc] at hn
                have hn : (Except.error err : PRes Any) = .error (.incomplete n') := hn
                injection hn with hn
                rw [hn]
            have := ((good_cont m hd).inc _ _ hci).2 y hy
            rw [this] at k1
            have k1 : (Except.error (PErr.incomplete (n' - y.length)) : PRes α) = .error (.error j e) := k1
            simp at k1
    unfold outcome
    rw [hpx]
  · rw [hn] at h; simp at h

theorem parse_anyP (m : Rules) : m.parse (match m with | .ber => anyBer | .der => anyDer) = m.any := by
  cases m
  · exact anyBer_parseBer
  · exact anyDer_parseDer

theorem steady_any (m : Rules) : Steady (CutInTag m) (outcome m.any) := by
  rw [← parse_anyP]; exact steady_parse m _

theorem truthful_any (m : Rules) : Truthful (outcome m.any) := by
  intro x n h
  unfold outcome at h
  have hn : m.any (Input.fromSlice x) = .error (.incomplete n) := by
    cases hc : m.any (Input.fromSlice x) with
    | ok z => rw [hc] at h; simp at h
    | error err => rw [hc] at h; cases err <;> simp at h; rw [h]
  obtain ⟨g1, g2⟩ := (good_any m).inc _ _ hn
  refine ⟨g1, fun y hy => ?_⟩
  unfold outcome
  rw [ext_slice, g2 y hy]

/-! ### `from_ber`, `from_der` -/

/-- The decoders on byte slices: the generic parser, then the conversion. -/
def sliceOf (m : Rules) (g : Any → Except SErr α) (bytes : Bytes) : Except SErr (Bytes × α) :=
  wrapBerParser m.any bytes >>= fun x => g x.2 >>= fun v => .ok (x.1, v)

theorem steady_slice (m : Rules) (g : Any → Except SErr α) : Steady (CutInTag m) (outcomeS (sliceOf m g)) := by
  have hany := steady_any m
  have hok : ∀ bs r a, outcome m.any bs = .done r a → sliceOf m g bs = (g a >>= fun v => .ok (r, v)) := by
    intro bs r a h
    unfold outcome at h
    unfold sliceOf wrapBerParser
    split at h <;> simp at h
    rename_i h1
    obtain ⟨rfl, rfl⟩ := h
    rw [h1]; rfl
  have hmore : ∀ bs n, outcome m.any bs = .more n → sliceOf m g bs = .error (.incomplete n) := by
    intro bs n h
    unfold outcome at h
    unfold sliceOf wrapBerParser
    split at h <;> simp at h
    rename_i h1
    rw [h1, h]; rfl
  have hfail : ∀ bs e, outcome m.any bs = .failed e → outcomeS (sliceOf m g) bs = .failed (e.map Error.ofInner) := by
    intro bs e h
    unfold outcome at h
    unfold outcomeS sliceOf wrapBerParser
    split at h <;> simp at h
    · rename_i h1
      rw [h1, ← h]; rfl
    · rename_i e' h0 h0' h1
      rw [h1, ← h]
      cases e' with
      | incomplete n => exact absurd rfl (h0 n)
      | error j e => exact absurd rfl (h0' j e)
      | panic => rfl
      | diverge => rfl
  refine ⟨?_, hany.notNil, ?_, ?_⟩
  · obtain ⟨n, hn⟩ := hany.nil
    exact ⟨n, by unfold outcomeS; rw [hmore _ _ hn]⟩
  · intro x r v h
    cases ha : outcome m.any x with
    | more n => unfold outcomeS at h; rw [hmore _ _ ha] at h; simp at h
    | failed e => rw [hfail _ _ ha] at h; simp at h
    | done r' a =>
      obtain ⟨e, h1, h2, h3⟩ := hany.done _ _ _ ha
      unfold outcomeS at h
      rw [hok _ _ _ ha] at h
      cases hg : g a with
      | error err => rw [hg] at h; cases err <;> simp [Bind.bind, Except.bind] at h
      | ok v' =>
        rw [hg] at h
        simp only [bind_ok, Outcome.done.injEq] at h
        obtain ⟨rfl, rfl⟩ := h
        refine ⟨e, h1, h2, fun y => ?_⟩
        unfold outcomeS
        rw [hok _ _ _ (h3 y), hg]
        rfl
  · intro x e h
    cases ha : outcome m.any x with
    | more n => unfold outcomeS at h; rw [hmore _ _ ha] at h; simp at h
    | failed e' =>
      rw [hfail _ _ ha] at h
      rcases hany.failed _ _ ha with k | k
      · exact .inl k
      · exact .inr fun y => by rw [hfail _ _ (k y), h]
    | done r' a =>
      obtain ⟨e', h1, h2, h3⟩ := hany.done _ _ _ ha
      refine .inr fun y => ?_
      unfold outcomeS at h ⊢
      rw [hok _ _ _ ha] at h
      rw [h2, List.append_assoc, hok _ _ _ (h3 _)]
      cases hg : g a with
      | error err => rw [hg] at h; cases err <;> simpa [Bind.bind, Except.bind] using h
      | ok v' => rw [hg] at h; simp at h

theorem truthful_slice {m : Rules} {g : Any → Except SErr α} (hs : ∀ a, Settled (g a)) :
    Truthful (outcomeS (sliceOf m g)) := by
  have key : ∀ bs n, outcomeS (sliceOf m g) bs = .more n ↔ outcome m.any bs = .more n := by
    intro bs n
    have h1 := wrap_bind m.any bs (fun x => g x.2 >>= fun v => .ok (x.1, v))
      (fun x => settled_bind (hs x.2) fun v => settled_ok _) n
    have h2 : outcomeS (sliceOf m g) bs = .more n ↔ sliceOf m g bs = .error (.incomplete n) := by
      unfold outcomeS
      cases h : sliceOf m g bs with
      | ok z => simp
      | error err => cases err <;> simp
    have h3 : outcome m.any bs = .more n ↔ m.any (Input.fromSlice bs) = .error (.incomplete n) := by
      unfold outcome
      cases h : m.any (Input.fromSlice bs) with
      | ok z => simp
      | error err => cases err <;> simp
    rw [h2, h3]
    exact h1
  intro x n h
  obtain ⟨h1, h2⟩ := truthful_any m x n ((key x n).mp h)
  exact ⟨h1, fun y hy => (key _ _).mpr (h2 y hy)⟩

theorem fromBer_slice (p : Parser α) : fromBer p = sliceOf .ber (tryFromAny p) := rfl

theorem fromDer_slice (p : Parser α) (check : Any → Except SErr Unit) :
    fromDer p check = sliceOf .der (fun a => check a >>= fun _ => tryFromAny p a) := by
  funext bs
  unfold fromDer sliceOf
  refine bind_congr_ok fun x _ => ?_
  obtain ⟨i, a⟩ := x
  simp only
  cases check a <;> rfl

/-! ### Objects that can be cut anywhere -/

variable {ε : Type}

theorem divisible {T : Bytes → Prop} {f : Bytes → Outcome ε α} (hf : Steady T f) {b : Bytes}
    (h : (∃ v, f b = .done [] v) ∨ ∃ n, f b = .more n) (hc : ∀ x y, b = x ++ y → y ≠ [] → ¬ T x) :
    Divisible f b := by
  intro x y e hxy hy hx
  rcases hf.failed _ _ hx with k | k
  · exact hc x y hxy hy k
  · have := k y
    rw [← hxy] at this
    rcases h with ⟨v, h⟩ | ⟨n, h⟩ <;> (rw [h] at this; simp at this)

end Asn1

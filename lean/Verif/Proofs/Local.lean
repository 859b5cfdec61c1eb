import Verif.Proofs.Back
/-!
# Parsing depends only on the bytes consumed, not on where they are
-/
namespace Asn1
open Spec

/-- Headers equal up to the span of the raw header. -/
def SameHdr (h h' : Header) : Prop :=
  h.cls = h'.cls ∧ h.constructed = h'.constructed ∧ h.tag = h'.tag ∧ h.length = h'.length ∧
    h.rawTag = h'.rawTag

theorem SameHdr.refl (h : Header) : SameHdr h h := ⟨rfl, rfl, rfl, rfl, rfl⟩
theorem SameHdr.symm {h h' : Header} (s : SameHdr h h') : SameHdr h' h :=
  ⟨s.1.symm, s.2.1.symm, s.2.2.1.symm, s.2.2.2.1.symm, s.2.2.2.2.symm⟩

/-- The same bytes at another position. -/
def Input.rebase (x : Input) (s s' : Nat) : Input := ⟨x.data, x.start - s + s', x.stop - s + s'⟩

/-- The same object at another position. -/
def Any.rebase (a : Any) (s s' : Nat) : Any :=
  ⟨{ a.header with rawHeader := a.header.rawHeader.map (·.rebase s s') }, a.data.rebase s s'⟩

theorem rebase_first {i j : Input} {k : Nat} (h : i.data.take k = j.data.take k) :
    (first i k).rebase i.start j.start = first j k := by
  simp [first, Input.rebase, h]; omega

theorem rebase_first_after {i j : Input} {m k : Nat}
    (h : (i.data.drop m).take k = (j.data.drop m).take k) :
    (first (after i m) k).rebase i.start j.start = first (after j m) k := by
  simp [first, after, Input.rebase, h]; omega

theorem parseHeader_local {i r : Input} {h : Header} (hp : parseHeader i = .ok (r, h)) :
    ∃ e, i.data = e ++ r.data ∧ r = after i e.length ∧ ∀ (j : Input) (rest : Bytes),
      j.data = e ++ rest → parseHeader j = .ok (after j e.length,
        { h with rawHeader := h.rawHeader.map (·.rebase i.start j.start) }) := by
  obtain ⟨id, len, h1, h2, h3, h4, h5, h6⟩ := parseHeader_ok.mp hp
  refine ⟨id ++ len, h3, by simpa using h4, fun j rest hj => parseHeader_ok.mpr
    ⟨id, len, h1, h2, ?_, by simp, h5, ?_⟩⟩
  · simp [hj]
  · simp only [h6, Option.map_some, Option.some.injEq]
    apply rebase_first
    rw [h3, hj, List.take_left' (by simp), List.take_left' (by simp)]

theorem berContent_local {hdr : Header} {i r data : Input} {d : Nat}
    (h : berContent hdr i (d + 1) = .ok (r, data)) :
    ∃ e k, k ≤ e.length ∧ i.data = e ++ r.data ∧ r = after i e.length ∧ data = first i k ∧
      ∀ (hdr' : Header) (j : Input) (rest : Bytes), hdr.length = hdr'.length →
        hdr.constructed = hdr'.constructed → j.data = e ++ rest →
        berContent hdr' j (d + 1) = .ok (after j e.length, first j k) := by
  rw [berContent_ok] at h
  cases hL : hdr.length with
  | definite n =>
    rw [hL] at h
    obtain ⟨h1, rfl, rfl⟩ := h
    have hlen : (i.data.take n).length = n := by simp [Nat.min_eq_left h1]
    refine ⟨i.data.take n, n, by omega, by simp [after], by rw [hlen], rfl,
      fun hdr' j rest hl hc hj => ?_⟩
    rw [berContent_ok, ← hl]
    refine ⟨?_, ?_, rfl⟩
    · rw [hj]; simp; omega
    · rw [hlen]
  | indefinite =>
    rw [hL] at h
    obtain ⟨h0, hd, items, eoc, h1, h2, h3, h4⟩ := h
    refine ⟨items.flatten ++ eoc, items.flatten.length + eoc.length - 2, by simp, h2,
      by simpa using h3, h4, fun hdr' j rest hl hc hj => ?_⟩
    rw [berContent_ok, ← hl]
    refine ⟨hc ▸ h0, hd, items, eoc, h1, ?_, ?_, rfl⟩
    · rw [after_data, hj, List.drop_left' rfl]
    · simp

theorem parseHeader_two {i r : Input} {h : Header} {e : Bytes} (hp : parseHeader i = .ok (r, h))
    (hr : r = after i e.length) : 2 ≤ e.length := by
  obtain ⟨k, h1, h2, h3⟩ := parseHeader_consumes hp
  have : (after i e.length).start = (after i k).start := by rw [← hr, ← h3]
  simp at this; omega

/-- What `parseBerAny` returns depends only on the bytes consumed. -/
theorem parseBerAny_local {i r : Input} {a : Any} (h : parseBerAny i = .ok (r, a)) :
    ∃ e, 2 ≤ e.length ∧ i.data = e ++ r.data ∧ r = after i e.length ∧
      ∀ (j : Input) (rest : Bytes), j.data = e ++ rest →
        parseBerAny j = .ok (after j e.length, a.rebase i.start j.start) := by
  obtain ⟨r1, h1, h2⟩ := parseBerAny_ok.mp h
  obtain ⟨e1, h3, h4, h5⟩ := parseHeader_local h1
  obtain ⟨e2, k, hk, h6, h7, h8, h9⟩ := berContent_local (d := 49) h2
  have hl1 : 2 ≤ e1.length := parseHeader_two h1 h4
  refine ⟨e1 ++ e2, by simp; omega, by rw [h3, h6]; simp, ?_, fun j rest hj => ?_⟩
  · rw [h7, h4]; simp
  · refine parseBerAny_ok.mpr ⟨_, h5 j (e2 ++ rest) (by simp [hj]), ?_⟩
    refine (h9 _ (after j e1.length) rest rfl rfl (by simp [hj])).trans ?_
    have : first (after j e1.length) k = (a.rebase i.start j.start).data := by
      simp only [Any.rebase]
      rw [h8, h4]
      refine (rebase_first_after ?_).symm
      rw [h3, hj, List.drop_left' rfl, List.append_assoc, List.drop_left' rfl, h6,
        List.take_append_of_le_length hk, List.take_append_of_le_length hk]
    rw [this]; simp

theorem parseDerAny_local {i r : Input} {a : Any} (h : parseDerAny i = .ok (r, a)) :
    ∃ e, 2 ≤ e.length ∧ i.data = e ++ r.data ∧ r = after i e.length ∧
      ∀ (j : Input) (rest : Bytes), j.data = e ++ rest →
        parseDerAny j = .ok (after j e.length, a.rebase i.start j.start) := by
  obtain ⟨r1, n, h1, h2, hle, h3, h4⟩ := parseDerAny_ok.mp h
  obtain ⟨e1, h5, h6, h7⟩ := parseHeader_local h1
  have hl1 : 2 ≤ e1.length := parseHeader_two h1 h6
  have hlen : (r1.data.take n).length = n := by simp [Nat.min_eq_left hle]
  refine ⟨e1 ++ r1.data.take n, by simp; omega, by rw [h5, h3]; simp [after], ?_,
    fun j rest hj => ?_⟩
  · rw [h3, List.length_append, hlen, h6]; simp
  · refine parseDerAny_ok.mpr ⟨_, n, h7 j (r1.data.take n ++ rest) (by simp [hj]), h2, ?_, ?_, ?_⟩
    · simp [hj]; omega
    · simp [Nat.min_eq_left hle]
    · simp only [Any.rebase]
      rw [h4]
      conv => lhs; rw [h6]
      refine rebase_first_after ?_
      rw [h5, hj, List.drop_left' rfl, List.append_assoc, List.drop_left' rfl,
        List.take_append_of_le_length (by omega)]
      rw [List.take_take, Nat.min_self]

theorem sameHdr_rebase (a : Any) (s s' : Nat) : SameHdr a.header (a.rebase s s').header :=
  ⟨rfl, rfl, rfl, rfl, rfl⟩

theorem rebase_self_first (i : Input) (k : Nat) :
    (first i k).rebase i.start i.start = first i k := rebase_first rfl

/-- The content parser does not look at spans. -/
def Parser.Local {α : Type} (p : Parser α) : Prop :=
  ∀ h h' i i' r v, SameHdr h h' → i.data = i'.data → p.content h i = .ok (r, v) →
    ∃ r', p.content h' i' = .ok (r', v)

variable {α : Type}

theorem parseBer_local {p : Parser α} (hl : p.Local) {i r : Input} {v : α}
    (h : p.parseBer i = .ok (r, v)) :
    ∃ e, 2 ≤ e.length ∧ i.data = e ++ r.data ∧ r = after i e.length ∧
      ∀ (j : Input) (rest : Bytes), j.data = e ++ rest →
        p.parseBer j = .ok (after j e.length, v) := by
  obtain ⟨a, x, h1, h2, h3⟩ := parseBer_ok.mp h
  obtain ⟨e, h4, h5, h6, h7⟩ := parseBerAny_local h1
  refine ⟨e, h4, h5, h6, fun j rest hj => ?_⟩
  obtain ⟨y, hy⟩ := hl _ _ a.data (a.rebase i.start j.start).data _ _ (sameHdr_rebase a i.start j.start) rfl h3
  exact parseBer_ok.mpr ⟨_, y, h7 j rest hj, h2, hy⟩

theorem parseDer_local {p : Parser α} (hl : p.Local) {i r : Input} {v : α}
    (h : p.parseDer i = .ok (r, v)) :
    ∃ e, 2 ≤ e.length ∧ i.data = e ++ r.data ∧ r = after i e.length ∧
      ∀ (j : Input) (rest : Bytes), j.data = e ++ rest →
        p.parseDer j = .ok (after j e.length, v) := by
  obtain ⟨a, x, h1, h2, h3⟩ := parseDer_ok.mp h
  obtain ⟨e, h4, h5, h6, h7⟩ := parseDerAny_local h1
  refine ⟨e, h4, h5, h6, fun j rest hj => ?_⟩
  obtain ⟨y, hy⟩ := hl _ _ a.data (a.rebase i.start j.start).data _ _ (sameHdr_rebase a i.start j.start) rfl h3
  exact parseDer_ok.mpr ⟨_, y, h7 j rest hj, h2, hy⟩

/-! ### `Any` as a typed parser -/

theorem anyBer_content_first {h : Header} {i : Input} {k : Nat} (hk : k ≤ i.data.length)
    (hl : ∀ n, h.length = .definite n → n = k) :
    ∃ x, anyBer.content h (first i k) = .ok (x, ⟨h, first i k⟩) := by
  have hlen : (first i k).data.length = k := by simp [first, Nat.min_eq_left hk]
  have key : takeS k (first i k) = .ok (after (first i k) k, first i k) := by
    rw [takeS_eq, if_pos (by omega)]
    simp [first, List.take_take]
  refine ⟨after (first i k) k, ?_⟩
  unfold anyBer
  simp only
  cases hL : h.length with
  | definite n =>
    rw [hl n hL]; simp only; rw [key]; rfl
  | indefinite =>
    simp only [Input.len, hlen]
    rw [key]; rfl

theorem bind_congr_ok {ε β γ : Type} {x : Except ε β} {f g : β → Except ε γ}
    (h : ∀ a, x = .ok a → f a = g a) : (x >>= f) = (x >>= g) := by
  cases x with
  | error e => rfl
  | ok a => exact h a rfl

theorem anyBer_parseBer : anyBer.parseBer = parseBerAny := by
  funext i
  unfold Parser.parseBer parseBerAny
  refine bind_congr_ok fun x hx => ?_
  obtain ⟨r, h⟩ := x
  show (if !anyBer.acceptTag h.tag then _ else _) = _
  rw [if_neg (by simp [anyBer])]
  refine bind_congr_ok fun y hy => ?_
  obtain ⟨r2, data⟩ := y
  have : ∃ k, k ≤ r.data.length ∧ data = first r k ∧ ∀ n, h.length = .definite n → n = k := by
    rw [show MAX_RECURSION = 49 + 1 from rfl, berContent_ok] at hy
    cases hL : h.length with
    | definite n => rw [hL] at hy; exact ⟨n, hy.1, hy.2.2, by simp⟩
    | indefinite =>
      rw [hL] at hy
      obtain ⟨_, _, items, eoc, _, h2, _, h4⟩ := hy
      refine ⟨_, ?_, h4, by simp⟩
      rw [h2]; simp; omega
  obtain ⟨k, hk, rfl, hl⟩ := this
  obtain ⟨x, hx⟩ := anyBer_content_first hk hl
  simp only
  rw [hx]; rfl

theorem anyDer_parseDer : anyDer.parseDer = parseDerAny := by
  funext i
  unfold Parser.parseDer parseDerAny
  refine bind_congr_ok fun x hx => ?_
  obtain ⟨r, h⟩ := x
  obtain ⟨_, hd⟩ := parseHeaderDer_ok.mp hx
  cases hL : h.length with
  | indefinite => rw [hL] at hd; simp [Length.isDefinite] at hd
  | definite n =>
    simp only [definiteInner, hL, derContent, Length.isDefinite]
    rw [bind_ok, if_neg (by simp [anyDer]), if_neg (by simp)]
    refine bind_congr_ok fun y hy => ?_
    obtain ⟨r2, data⟩ := y
    rw [takeS_eq] at hy
    split at hy <;> simp at hy
    rename_i hn
    obtain ⟨_, rfl⟩ := hy
    simp only [anyDer, derContent, hL]
    rw [takeS_eq, if_pos (by simp [first]; omega)]
    simp [first, List.take_take]

end Asn1

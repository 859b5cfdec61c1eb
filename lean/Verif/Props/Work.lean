import Verif.Model.Work
import Verif.Proofs.Weight
import Verif.Spec.Work
/-!
# C115: Reading an object reads each header in it once
-/
namespace Asn1
open Spec

/-- The count of a skip: two bytes for each header read, but for the last one if it fails. -/
structure Counted {α : Type} (i : Input) (x : PRes α × Nat) : Prop where
  ok : ∀ r v, x.1 = .ok (r, v) → 2 * x.2 + r.data.length ≤ i.data.length
  err : ∀ e, x.1 = .error e → 2 * x.2 ≤ i.data.length + 2

theorem header_len {i r : Input} {h : Header} (hp : parseHeader i = .ok (r, h)) :
    2 + r.data.length ≤ i.data.length := by
  obtain ⟨k, hk, hk', rfl⟩ := parseHeader_consumes hp
  rw [after_data, List.length_drop]; omega

theorem skipLoopCount_ok {skip : Input → Header → PRes Bool × Nat} (hs : ∀ i h, Counted i (skip i h)) :
    ∀ fuel i, (skipLoopCount skip fuel i).1 = skipLoop (fun i h => (skip i h).1) fuel i ∧
      Counted i (skipLoopCount skip fuel i) := by
  intro fuel
  induction fuel with
  | zero => exact fun i => ⟨rfl, by rintro r v ⟨⟩, fun e _ => Nat.zero_le _⟩
  | succ n ih =>
    intro i
    unfold skipLoopCount skipLoop
    cases hp : parseHeader i with
    | error e =>
      refine ⟨rfl, ⟨?_, ?_⟩⟩
      · rintro r v ⟨⟩
      · intro e' _
        show 2 * 1 ≤ _
        omega
    | ok x =>
      obtain ⟨i2, h2⟩ := x
      have hl := header_len hp
      have hk := hs i2 h2
      simp only [bind_ok]
      cases hx : skip i2 h2 with
      | mk y c =>
        rw [hx] at hk
        cases y with
        | error e =>
          have := hk.err e rfl
          refine ⟨rfl, ⟨?_, ?_⟩⟩
          · rintro r v ⟨⟩
          · intro e' _
            simp only at this ⊢
            omega
        | ok z =>
          obtain ⟨i3, b⟩ := z
          have h3 := hk.ok i3 b rfl
          simp only at h3
          cases b with
          | true =>
            refine ⟨rfl, ⟨?_, ?_⟩⟩
            · intro r v h
              injection h with h; injection h with h _
              subst h
              simp only
              omega
            · rintro e ⟨⟩
          | false =>
            obtain ⟨h4, h5⟩ := ih i3
            simp only [bind_ok, Bool.false_eq_true, if_false]
            refine ⟨h4, ⟨?_, ?_⟩⟩
            · intro r v h
              have := h5.ok r v h
              simp only
              omega
            · intro e h
              have := h5.err e h
              simp only
              omega

theorem skipContentCount_ok : ∀ d i h, (skipContentCount d i h).1 = skipContent d i h ∧
    Counted i (skipContentCount d i h) := by
  intro d
  induction d with
  | zero => exact fun i h => ⟨rfl, by rintro r v ⟨⟩, fun e _ => Nat.zero_le _⟩
  | succ d ih =>
    intro i h
    unfold skipContentCount skipContent
    cases h.length with
    | definite l =>
      simp only
      split
      · refine ⟨rfl, ⟨?_, ?_⟩⟩
        · intro r v h
          injection h with h; injection h with h _
          subst h
          simp
        · rintro e ⟨⟩
      · refine ⟨rfl, ⟨?_, fun e _ => Nat.zero_le _⟩⟩
        intro r v h
        obtain ⟨⟨x, y⟩, h1, h2⟩ := bind_eq_ok.mp h
        injection h2 with h2; injection h2 with h2 _
        subst h2
        have := ahead_len (ahead_good (good_takeS l) i) h1
        simp only
        omega
    | indefinite =>
      simp only
      cases hc : h.assertConstructed i with
      | error e => exact ⟨rfl, by rintro r v ⟨⟩, fun e _ => Nat.zero_le _⟩
      | ok u =>
        obtain ⟨h1, h2⟩ := skipLoopCount_ok (skip := fun i h => skipContentCount d i h) (fun i h => (ih i h).2)
          (i.data.length + 1) i
        refine ⟨?_, h2⟩
        simp only [h1, bind_ok]
        congr 1
        funext i h
        exact (ih i h).1

theorem berContentCount_ok (h : Header) (i : Input) (d : Nat) :
    (berContentCount h i d).1 = berContent h i d ∧ Counted i (berContentCount h i d) := by
  obtain ⟨h1, h2⟩ := skipContentCount_ok d i h
  have key : (berContentCount h i d).1 = berContent h i d := by
    unfold berContentCount berContent
    rw [← h1]
    cases hx : skipContentCount d i h with
    | mk y c =>
      cases y with
      | error e => rfl
      | ok z => rfl
  refine ⟨key, ⟨?_, ?_⟩⟩
  · intro r v hr
    rw [key] at hr
    rw [berContent_eq] at hr
    obtain ⟨⟨r1, b⟩, h3, h4⟩ := bind_eq_ok.mp hr
    injection h4 with h4; injection h4 with h4 _
    subst h4
    rw [← h1] at h3
    have := h2.ok _ _ h3
    have hc : (berContentCount h i d).2 = (skipContentCount d i h).2 := by
      unfold berContentCount
      cases hx : skipContentCount d i h with
      | mk y c => cases y <;> rfl
    rw [hc]
    exact this
  · intro e he
    have hc : (berContentCount h i d).2 = (skipContentCount d i h).2 := by
      unfold berContentCount
      cases hx : skipContentCount d i h with
      | mk y c => cases y <;> rfl
    rw [hc]
    cases hx : (skipContentCount d i h).1 with
    | error e' => exact h2.err e' hx
    | ok z =>
      have := h2.ok z.1 z.2 hx
      omega

theorem parseBerAnyCount_ok (i : Input) : (parseBerAnyCount i).1 = parseBerAny i ∧ Counted i (parseBerAnyCount i) := by
  unfold parseBerAnyCount parseBerAny
  cases hp : parseHeader i with
  | error e =>
    refine ⟨rfl, ⟨?_, ?_⟩⟩
    · rintro r v ⟨⟩
    · intro e' _
      show 2 * 1 ≤ _
      omega
  | ok x =>
    obtain ⟨r, h⟩ := x
    have hl := header_len hp
    obtain ⟨h1, h2⟩ := berContentCount_ok h r MAX_RECURSION
    simp only [bind_ok]
    rw [← h1]
    cases hx : berContentCount h r MAX_RECURSION with
    | mk y c =>
      rw [hx] at h2
      cases y with
      | error e =>
        have := h2.err e rfl
        refine ⟨rfl, ⟨?_, ?_⟩⟩
        · rintro r v ⟨⟩
        · intro e' _
          simp only at this ⊢
          omega
      | ok z =>
        have := h2.ok z.1 z.2 rfl
        refine ⟨rfl, ⟨?_, ?_⟩⟩
        · intro r' v h
          injection h with h; injection h with h _
          subst h
          simp only at this ⊢
          omega
        · rintro e ⟨⟩

/-! ### Exactly which headers -/

/-- What a successful skip over a content has read. -/
def Skipped (h : Header) (i r : Input) (b : Bool) (n : Nat) : Prop :=
  match h.length with
  | .definite l => n = 0 ∧ (b = true ↔ l = 0 ∧ h.tag = 0) ∧ ∃ body, body.length = l ∧ i.data = body ++ r.data
  | .indefinite => b = false ∧ h.constructed = true ∧ ∃ body, HeadersOf body n ∧ i.data = body ++ r.data

theorem laxEoc_header {c : Class} {p : Bool} {tag l : Nat} {id len body : Bytes} (hi : Ident c p tag id)
    (hl : Len p (.definite l) len) (h : LaxEoc (id ++ len ++ body)) : l = 0 ∧ tag = 0 := by
  obtain ⟨c', p', id', len', h1, h2, h3⟩ := h
  have e1 := parseHeader_ok (input := Input.fromSlice (id ++ len ++ body))
    (r := after (Input.fromSlice (id ++ len ++ body)) (id.length + len.length))
    (h := ⟨c, p, tag, .definite l, some id,
      some (first (Input.fromSlice (id ++ len ++ body)) (id.length + len.length))⟩) |>.mpr
    ⟨id, len, hi, hl, by simp [Input.fromSlice], rfl, rfl, rfl⟩
  have e2 := parseHeader_ok (input := Input.fromSlice (id ++ len ++ body))
    (r := after (Input.fromSlice (id ++ len ++ body)) (id'.length + len'.length))
    (h := ⟨c', p', 0, .definite 0, some id',
      some (first (Input.fromSlice (id ++ len ++ body)) (id'.length + len'.length))⟩) |>.mpr
    ⟨id', len', h1, h2, by rw [h3]; simp [Input.fromSlice], rfl, rfl, rfl⟩
  rw [e1] at e2
  have e3 := congrArg Prod.snd (Except.ok.inj e2)
  have e4 : Length.definite l = .definite 0 := congrArg Header.length e3
  have e5 : tag = 0 := congrArg Header.tag e3
  injection e4 with e4
  exact ⟨e4, e5⟩

theorem not_laxEoc_indef {c : Class} {tag : Nat} {id len body : Bytes} (hi : Ident c true tag id)
    (hl : Len true .indefinite len) : ¬ LaxEoc (id ++ len ++ body) := by
  rintro ⟨c', p', id', len', h1, h2, h3⟩
  have e1 := parseHeader_ok (input := Input.fromSlice (id ++ len ++ body))
    (r := after (Input.fromSlice (id ++ len ++ body)) (id.length + len.length))
    (h := ⟨c, true, tag, .indefinite, some id,
      some (first (Input.fromSlice (id ++ len ++ body)) (id.length + len.length))⟩) |>.mpr
    ⟨id, len, hi, hl, by simp [Input.fromSlice], rfl, rfl, rfl⟩
  have e2 := parseHeader_ok (input := Input.fromSlice (id ++ len ++ body))
    (r := after (Input.fromSlice (id ++ len ++ body)) (id'.length + len'.length))
    (h := ⟨c', p', 0, .definite 0, some id',
      some (first (Input.fromSlice (id ++ len ++ body)) (id'.length + len'.length))⟩) |>.mpr
    ⟨id', len', h1, h2, by rw [h3]; simp [Input.fromSlice], rfl, rfl, rfl⟩
  rw [e1] at e2
  have e4 : Length.indefinite = .definite 0 := congrArg (fun x => x.2.length) (Except.ok.inj e2)
  exact Length.noConfusion e4

theorem element_headers {i i2 r : Input} {h : Header} {b : Bool} {n : Nat} (hp : parseHeader i = .ok (i2, h))
    (hs : Skipped h i2 r b n) : ∃ e, i.data = e ++ r.data ∧ HeadersIn e (1 + n) ∧ (b = true ↔ LaxEoc e) ∧
      (b = true → n = 0) := by
  obtain ⟨id, len, h1, h2, h3, _⟩ := parseHeader_ok.mp hp
  unfold Skipped at hs
  cases hL : h.length with
  | definite l =>
    rw [hL] at hs h2
    obtain ⟨rfl, hb, body, hl, hd⟩ := hs
    refine ⟨id ++ len ++ body, by rw [h3, hd]; simp, ?_, ?_, fun _ => rfl⟩
    · exact .definite ⟨h.cls, h.constructed, h.tag, id, len, body, h1, hl ▸ h2, rfl⟩
    · rw [hb]
      constructor
      · rintro ⟨rfl, ht⟩
        obtain rfl : body = [] := List.length_eq_zero_iff.mp hl
        exact ⟨h.cls, h.constructed, id, len, ht ▸ h1, h2, by simp⟩
      · exact laxEoc_header h1 h2
  | indefinite =>
    rw [hL] at hs h2
    obtain ⟨rfl, hc, body, hb, hd⟩ := hs
    rw [hc] at h1 h2
    refine ⟨id ++ len ++ body, by rw [h3, hd]; simp, .indefinite h1 h2 hb, ?_, by simp⟩
    exact ⟨fun h => Bool.noConfusion h, fun h => absurd h (not_laxEoc_indef h1 h2)⟩

theorem skipLoopCount_headers {skip : Input → Header → PRes Bool × Nat}
    (hs : ∀ i h r b, (skip i h).1 = .ok (r, b) → Skipped h i r b (skip i h).2) :
    ∀ fuel i r b, (skipLoopCount skip fuel i).1 = .ok (r, b) →
      b = false ∧ ∃ body, HeadersOf body (skipLoopCount skip fuel i).2 ∧ i.data = body ++ r.data := by
  intro fuel
  induction fuel with
  | zero => intro i r b h; simp [skipLoopCount] at h
  | succ k ih =>
    intro i r b h
    unfold skipLoopCount at h ⊢
    cases hp : parseHeader i with
    | error e => rw [hp] at h; simp at h
    | ok x =>
      obtain ⟨i2, h2⟩ := x
      have hk := hs i2 h2
      rw [hp] at h
      simp only at h ⊢
      cases hx : skip i2 h2 with
      | mk y c =>
        rw [hx] at h hk
        cases y with
        | error e => simp at h
        | ok z =>
          obtain ⟨i3, b3⟩ := z
          obtain ⟨e, he, hn, hb, hz⟩ := element_headers hp (hk i3 b3 rfl)
          cases b3 with
          | true =>
            simp only at h ⊢
            injection h with h
            injection h with h h'
            subst h
            refine ⟨h'.symm, e, ?_, he⟩
            have hc : c = 0 := hz rfl
            rw [hc]
            exact .eoc (hb.mp rfl)
          | false =>
            simp only at h ⊢
            cases hl : skipLoopCount skip k i3 with
            | mk u m =>
              rw [hl] at h
              obtain ⟨h4, body, h5, h6⟩ := ih i3 r b (by rw [hl]; exact h)
              rw [hl] at h5
              refine ⟨h4, e ++ body, ?_, by rw [he, h6]; simp⟩
              exact .cons hn (fun hx => Bool.noConfusion (hb.mpr hx)) h5

theorem skipContentCount_headers : ∀ d i h r b, (skipContentCount d i h).1 = .ok (r, b) →
    Skipped h i r b (skipContentCount d i h).2 := by
  intro d
  induction d with
  | zero => intro i h r b hx; simp [skipContentCount, nomErr] at hx
  | succ d ih =>
    intro i h r b hx
    unfold skipContentCount at hx ⊢
    unfold Skipped
    cases hL : h.length with
    | definite l =>
      rw [hL] at hx
      simp only at hx ⊢
      by_cases hc : l = 0 ∧ h.tag = tagEndOfContent
      · rw [if_pos hc] at hx ⊢
        injection hx with hx
        injection hx with h1 h2
        subst h1 h2
        exact ⟨rfl, ⟨fun _ => hc, fun _ => rfl⟩, [], hc.1.symm, rfl⟩
      · rw [if_neg hc] at hx ⊢
        obtain ⟨⟨x, y⟩, h1, h2⟩ := bind_eq_ok.mp hx
        injection h2 with h2
        injection h2 with h2 h3
        subst h2 h3
        rw [takeS_eq] at h1
        split at h1
        · rename_i hle
          injection h1 with h1
          injection h1 with h1 _
          subst h1
          refine ⟨rfl, ⟨fun h => Bool.noConfusion h, fun h => absurd h hc⟩, i.data.take l, ?_, ?_⟩
          · simp [Nat.min_eq_left hle]
          · simp
        · simp at h1
    | indefinite =>
      rw [hL] at hx
      simp only at hx ⊢
      cases hc : h.assertConstructed i with
      | error e => rw [hc] at hx; simp at hx
      | ok u =>
        rw [hc] at hx
        simp only at hx ⊢
        obtain ⟨h1, h2⟩ := skipLoopCount_headers (skip := fun i h => skipContentCount d i h)
          (fun i h r b hb => ih i h r b hb) _ i r b hx
        refine ⟨h1, ?_, h2⟩
        unfold Header.assertConstructed at hc
        split at hc
        · simp [nomErr] at hc
        · rename_i hn; simpa using hn

/-- **C115** The count is the number of headers there are: if `Any::parse_ber` reads an object, it has read
the headers of that object, each once. -/
theorem C115_each_once (i r : Input) (a : Any) (h : parseBerAny i = .ok (r, a)) :
    ∃ e, i.data = e ++ r.data ∧ HeadersIn e (parseBerAnyCount i).2 := by
  rw [← (parseBerAnyCount_ok i).1] at h
  unfold parseBerAnyCount at h ⊢
  cases hp : parseHeader i with
  | error e => rw [hp] at h; simp at h
  | ok x =>
    obtain ⟨i2, hd⟩ := x
    rw [hp] at h
    simp only at h ⊢
    obtain ⟨hk, _⟩ := berContentCount_ok hd i2 MAX_RECURSION
    cases hx : berContentCount hd i2 MAX_RECURSION with
    | mk y c =>
      rw [hx] at h hk
      cases y with
      | error e => simp at h
      | ok z =>
        obtain ⟨i3, data⟩ := z
        simp only at h ⊢ hk
        injection h with h
        injection h with h _
        subst h
        have hb := hk.symm
        rw [berContent_eq] at hb
        obtain ⟨⟨r1, b⟩, h3, h4⟩ := bind_eq_ok.mp hb
        injection h4 with h4; injection h4 with h4 _
        subst h4
        have hc : c = (skipContentCount MAX_RECURSION i2 hd).2 := by
          unfold berContentCount at hx
          cases hs : skipContentCount MAX_RECURSION i2 hd with
          | mk u m =>
            rw [hs] at hx
            cases u <;> exact (congrArg Prod.snd hx).symm
        obtain ⟨hs, _⟩ := skipContentCount_ok MAX_RECURSION i2 hd
        obtain ⟨e, he, hn, _⟩ := element_headers hp
          (skipContentCount_headers MAX_RECURSION i2 hd r1 b (hs.trans h3))
        rw [hc]
        exact ⟨e, he, hn⟩

/-- A list of indefinite length holding an INTEGER: three headers. -/
example : parseBerAny (Input.fromSlice [0x30, 0x80, 2, 1, 5, 0, 0, 9]) =
      .ok (⟨[9], 7, 8⟩, ⟨⟨.universal, true, 16, .indefinite, some [0x30], some ⟨[0x30, 0x80], 0, 2⟩⟩,
        ⟨[2, 1, 5], 2, 5⟩⟩) ∧ (parseBerAnyCount (Input.fromSlice [0x30, 0x80, 2, 1, 5, 0, 0, 9])).2 = 3 := by
  decide +kernel

/-- **C115.** Reading one object (`Any::parse_ber`, `Any::from_ber`): the headers read, those within its content
included and a last one that cannot be read, are at most half as many as the bytes given, and one. If the
object is read they are at most half as many as the bytes of the object. Nesting does not multiply them. -/
theorem C115_object_work (i : Input) :
    (parseBerAnyCount i).1 = parseBerAny i ∧
    (∀ r a, parseBerAny i = .ok (r, a) → 2 * (parseBerAnyCount i).2 ≤ i.data.length - r.data.length) ∧
    2 * (parseBerAnyCount i).2 ≤ i.data.length + 2 := by
  obtain ⟨h1, h2⟩ := parseBerAnyCount_ok i
  refine ⟨h1, ?_, ?_⟩
  · intro r a h
    have := h2.ok r a (h1.trans h)
    omega
  · cases hx : (parseBerAnyCount i).1 with
    | error e => exact h2.err e hx
    | ok z =>
      have := h2.ok z.1 z.2 hx
      omega

theorem berContentCount_primitive {h : Header} {i : Input} {d : Nat} (hd : h.length.isDefinite ∨ h.constructed = false) :
    (berContentCount h i d).2 = 0 := by
  have : (skipContentCount d i h).2 = 0 := by
    cases d with
    | zero => rfl
    | succ d =>
      unfold skipContentCount
      cases hl : h.length with
      | definite l => simp only; split <;> rfl
      | indefinite =>
        rw [hl] at hd
        simp only [Length.isDefinite, Bool.false_eq_true, false_or] at hd
        simp only [Header.assertConstructed, hd]
        rfl
  unfold berContentCount
  cases hx : skipContentCount d i h with
  | mk y c =>
    rw [hx] at this
    cases y <;> exact this

/-- Three levels of indefinite lengths: seven headers (three outer ones, the INTEGER and three end-of-contents
markers) in fifteen bytes, one byte being left. -/
example : (parseBerAnyCount (Input.fromSlice
      [0x30, 0x80, 0x30, 0x80, 0x30, 0x80, 2, 1, 5, 0, 0, 0, 0, 0, 0, 9])).2 = 7 ∧
    (parseBerAny (Input.fromSlice
      [0x30, 0x80, 0x30, 0x80, 0x30, 0x80, 2, 1, 5, 0, 0, 0, 0, 0, 0, 9])).isOk = true := by decide +kernel

end Asn1

import Verif.Proofs.StreamStages
/-!
# Readers of streams
-/
namespace Asn1
open Spec

variable {ε ε' α β : Type}

/-! ### Any parsing function -/

/-- What a parsing function says stays true when more bytes follow, unless the bytes end within a tag (`T`). -/
structure Steady (T : Bytes → Prop) (f : Bytes → Outcome ε α) : Prop where
  nil : ∃ n, f [] = .more n
  notNil : ¬ T []
  done : ∀ x r v, f x = .done r v → ∃ e, e ≠ [] ∧ x = e ++ r ∧ ∀ y, f (e ++ y) = .done y v
  failed : ∀ x e, f x = .failed e → T x ∨ ∀ y, f (x ++ y) = .failed e

/-- `Incomplete` means that fewer bytes do not help. -/
def Truthful (f : Bytes → Outcome ε α) : Prop := ∀ x n, f x = .more n →
  1 ≤ n ∧ ∀ y, y.length < n → f (x ++ y) = .more (n - y.length)

variable {T : Bytes → Prop} {f : Bytes → Outcome ε α}

theorem drain_fuel (hf : Steady T f) : ∀ (k k' : Nat) (s : Reader ε α), s.buf.length < k → s.buf.length < k' →
    drain f k s = drain f k' s := by
  intro k
  induction k with
  | zero => intro k' s h; omega
  | succ k ih =>
    intro k' s h h'
    cases k' with
    | zero => omega
    | succ k' =>
      unfold drain
      cases hs : f s.buf with
      | done r v =>
        obtain ⟨e, h1, h2, _⟩ := hf.done _ _ _ hs
        have : s.buf.length = e.length + r.length := by rw [h2, List.length_append]
        have : 0 < e.length := List.length_pos_iff.mpr h1
        exact ih k' _ (by simp only; omega) (by simp only; omega)
      | more n => rfl
      | failed e => rfl

/-- The reader after the bytes `buf`, if the values `out` had been read before. -/
def full' (f : Bytes → Outcome ε α) (buf : Bytes) (out : List α) : Reader ε α :=
  drain f (buf.length + 1) ⟨buf, out, none⟩

theorem full'_done (hf : Steady T f) {buf r : Bytes} {out : List α} {v : α} (h : f buf = .done r v) :
    full' f buf out = full' f r (out ++ [v]) := by
  obtain ⟨e, h1, h2, _⟩ := hf.done _ _ _ h
  have h3 : buf.length = e.length + r.length := by rw [h2, List.length_append]
  have h4 : 0 < e.length := List.length_pos_iff.mpr h1
  show drain f (buf.length + 1) ⟨buf, out, none⟩ = drain f (r.length + 1) ⟨r, out ++ [v], none⟩
  rw [drain]
  simp only [h]
  exact drain_fuel hf _ _ _ (by simp only; omega) (by simp only; omega)

theorem full'_more {buf : Bytes} {out : List α} {n : Nat} (h : f buf = .more n) :
    full' f buf out = ⟨buf, out, none⟩ := by
  unfold full' drain; simp only [h]

theorem full'_failed {buf : Bytes} {out : List α} {e : Option ε} (h : f buf = .failed e) :
    full' f buf out = ⟨[], out, some e⟩ := by
  unfold full' drain; simp only [h]

/-- After the whole objects at the start of `x` come the bytes `r`. -/
inductive Behind (f : Bytes → Outcome ε α) : Bytes → Bytes → Prop where
  | here (x : Bytes) : Behind f x x
  | skip {x r s : Bytes} {v : α} (h : f x = .done r v) (t : Behind f r s) : Behind f x s

theorem feed_full' (hf : Steady T f) {buf : Bytes} {out : List α} (y : Bytes)
    (hc : ∀ r, Behind f buf r → ¬ T r) : feed f (full' f buf out) y = full' f (buf ++ y) out := by
  have main : ∀ (n : Nat) (buf : Bytes) (out : List α), buf.length ≤ n → (∀ r, Behind f buf r → ¬ T r) →
      feed f (full' f buf out) y = full' f (buf ++ y) out := by
    intro n
    induction n with
    | zero =>
      intro buf out hn hc
      have : buf = [] := List.length_eq_zero_iff.mp (by omega)
      subst this
      obtain ⟨k, hk⟩ := hf.nil
      rw [full'_more hk]
      rfl
    | succ n ih =>
      intro buf out hn hc
      cases hb : f buf with
      | more k => rw [full'_more hb]; rfl
      | failed e =>
        rw [full'_failed hb]
        rcases hf.failed _ _ hb with h | h
        · exact absurd h (hc buf (.here _))
        · rw [full'_failed (h y)]; rfl
      | done r v =>
        obtain ⟨e, h1, h2, h3⟩ := hf.done _ _ _ hb
        have h4 : 0 < e.length := List.length_pos_iff.mpr h1
        have h5 : buf.length = e.length + r.length := by rw [h2, List.length_append]
        have h6 : f (buf ++ y) = .done (r ++ y) v := by rw [h2, List.append_assoc]; exact h3 _
        rw [full'_done hf hb, full'_done hf h6]
        exact ih r _ (by omega) (fun s hs => hc s (.skip hb hs))
  exact main _ buf out (Nat.le_refl _) hc

/-- The pieces make no difference. -/
theorem readPieces_eq (hf : Steady T f) (pieces : List Bytes)
    (hc : ∀ a b r, pieces = a ++ b → b ≠ [] → Behind f a.flatten r → ¬ T r) :
    readPieces f pieces = full' f pieces.flatten [] := by
  have main : ∀ (k : Nat), k ≤ pieces.length →
      readPieces f (pieces.take k) = full' f (pieces.take k).flatten [] := by
    intro k
    induction k with
    | zero =>
      intro _
      obtain ⟨n, hn⟩ := hf.nil
      simp only [List.take_zero, List.flatten_nil]
      rw [full'_more hn]; rfl
    | succ k ih =>
      intro hk
      have h1 := ih (by omega)
      have h2 : pieces.take (k + 1) = pieces.take k ++ [pieces[k]'(by omega)] := by
        exact List.take_succ_eq_append_getElem (by omega)
      rw [h2, readPieces, List.foldl_append]
      show feed f (readPieces f (pieces.take k)) _ = _
      rw [h1, feed_full' hf _ (fun r hr => hc (pieces.take k) (pieces.drop k) r
        (List.take_append_drop k pieces).symm ?_ hr)]
      · rw [List.flatten_append]; simp only [List.flatten_cons, List.flatten_nil, List.append_nil]
      · intro h
        have := congrArg List.length h
        simp at this; omega
  have := main pieces.length (Nat.le_refl _)
  rwa [List.take_length] at this

/-! ### Whole objects -/

/-- Of no proper prefix does the parsing function say that it is wrong. -/
def Divisible (f : Bytes → Outcome ε α) (b : Bytes) : Prop :=
  ∀ x y e, b = x ++ y → y ≠ [] → f x ≠ .failed e

/-- A prefix of a complete object, or of some bytes to which more must be added. -/
theorem prefix_more (hf : Steady T f) {x y : Bytes} (hd : Divisible f (x ++ y)) (hy : y ≠ [])
    (h : (∃ v, f (x ++ y) = .done [] v) ∨ ∃ n, f (x ++ y) = .more n) : ∃ n, f x = .more n := by
  cases hx : f x with
  | more n => exact ⟨n, rfl⟩
  | failed e => exact absurd hx (hd x y e rfl hy)
  | done r v =>
    exfalso
    obtain ⟨e, h1, h2, h3⟩ := hf.done _ _ _ hx
    have h4 := h3 (r ++ y)
    rw [← List.append_assoc, ← h2] at h4
    rcases h with ⟨v', h⟩ | ⟨n, h⟩
    · rw [h] at h4
      simp at h4
      exact hy h4.1.2
    · rw [h] at h4; simp at h4

theorem feed_objects (hf : Steady T f) (bvs : List (Bytes × α)) (tail : Bytes)
    (ho : ∀ bv ∈ bvs, f bv.1 = .done [] bv.2) (out : List α) :
    full' f ((bvs.map (·.1)).flatten ++ tail) out = full' f tail (out ++ bvs.map (·.2)) := by
  induction bvs generalizing out with
  | nil => simp
  | cons bv bvs ih =>
    have h1 := ho bv (by simp)
    obtain ⟨e, h2, h3, h4⟩ := hf.done _ _ _ h1
    have h5 : f (bv.1 ++ ((bvs.map (·.1)).flatten ++ tail)) = .done ((bvs.map (·.1)).flatten ++ tail) bv.2 := by
      rw [h3, List.append_nil]; exact h4 _
    simp only [List.map_cons, List.flatten_cons, List.append_assoc]
    rw [full'_done hf h5, ih (fun x hx => ho x (List.mem_cons_of_mem _ hx))]
    simp

/-- What the reader has in its buffer after a prefix of a sequence of objects: a proper prefix of an object, or
of the tail. -/
theorem behind_objects (hf : Steady T f) (bvs : List (Bytes × α)) {tail : Bytes} {n : Nat}
    (ho : ∀ bv ∈ bvs, f bv.1 = .done [] bv.2 ∧ Divisible f bv.1) (ht : f tail = .more n) (hd : Divisible f tail)
    {x y : Bytes} (hxy : x ++ y = (bvs.map (·.1)).flatten ++ tail) {r : Bytes} (hr : Behind f x r) :
    ∀ e, f r ≠ .failed e := by
  induction bvs generalizing x with
  | nil =>
    simp only [List.map_nil, List.flatten_nil, List.nil_append] at hxy
    have hm : ∃ n, f x = .more n := by
      by_cases hy : y = []
      · subst hy; rw [List.append_nil] at hxy; exact ⟨n, hxy ▸ ht⟩
      · exact prefix_more hf (hxy ▸ hd) hy (.inr ⟨n, hxy ▸ ht⟩)
    obtain ⟨n', hm⟩ := hm
    intro e he
    cases hr with
    | here => rw [he] at hm; simp at hm
    | skip h _ => rw [h] at hm; simp at hm
  | cons bv bvs ih =>
    obtain ⟨h1, h2⟩ := ho bv (by simp)
    simp only [List.map_cons, List.flatten_cons, List.append_assoc] at hxy
    by_cases hlen : x.length < bv.1.length
    · -- a proper prefix of the first object
      have hp : ∃ z, bv.1 = x ++ z ∧ z ≠ [] := by
        refine ⟨bv.1.drop x.length, ?_, ?_⟩
        · have : x = bv.1.take x.length := by
            have := congrArg (List.take x.length) hxy
            rw [List.take_left, List.take_append_of_le_length (by omega)] at this
            exact this
          conv => lhs; rw [← List.take_append_drop x.length bv.1]
          rw [← this]
        · intro h
          have := congrArg List.length h
          simp at this; omega
      obtain ⟨z, hz, hz0⟩ := hp
      obtain ⟨n', hm⟩ := prefix_more hf (hz ▸ h2) hz0 (.inl ⟨bv.2, hz ▸ h1⟩)
      intro e he
      cases hr with
      | here => rw [he] at hm; simp at hm
      | skip h _ => rw [h] at hm; simp at hm
    · -- the first object is complete
      have hp : ∃ z, x = bv.1 ++ z ∧ z ++ y = (bvs.map (·.1)).flatten ++ tail := by
        have : x.take bv.1.length = bv.1 := by
          have := congrArg (List.take bv.1.length) hxy
          rw [List.take_left, List.take_append_of_le_length (by omega)] at this
          exact this
        have h3 : x = bv.1 ++ x.drop bv.1.length := by
          conv => lhs; rw [← List.take_append_drop bv.1.length x]
          rw [this]
        refine ⟨x.drop bv.1.length, h3, ?_⟩
        rw [h3, List.append_assoc] at hxy
        exact List.append_cancel_left hxy
      obtain ⟨z, rfl, hz⟩ := hp
      obtain ⟨e, h3, h4, h5⟩ := hf.done _ _ _ h1
      have h6 : f (bv.1 ++ z) = .done z bv.2 := by rw [h4, List.append_nil]; exact h5 z
      cases hr with
      | here => intro e he; rw [he] at h6; simp at h6
      | skip h t =>
        rw [h6] at h
        injection h with h7 h8
        subst h7
        exact ih (fun x hx => ho x (List.mem_cons_of_mem _ hx)) hz t

/-- A stream of objects, in pieces of any size. -/
theorem readPieces_objects (hf : Steady T f) (bvs : List (Bytes × α)) {tail : Bytes} {n : Nat}
    (ho : ∀ bv ∈ bvs, f bv.1 = .done [] bv.2 ∧ Divisible f bv.1) (ht : f tail = .more n) (hd : Divisible f tail)
    (pieces : List Bytes) (hp : pieces.flatten = (bvs.map (·.1)).flatten ++ tail) :
    readPieces f pieces = ⟨tail, bvs.map (·.2), none⟩ := by
  -- the pieces make no difference for the same function with the errors it never meets left out
  have hs : Steady (fun r => ∃ e, f r = .failed e) f :=
    ⟨hf.nil, by obtain ⟨n, hn⟩ := hf.nil; simp [hn], hf.done, fun x e h => .inl ⟨e, h⟩⟩
  rw [readPieces_eq hs pieces, hp, feed_objects hf bvs tail (fun bv h => (ho bv h).1), full'_more ht]
  · simp
  · intro a b r hab hb hr ⟨e, he⟩
    refine behind_objects hf bvs ho ht hd (x := a.flatten) (y := b.flatten) ?_ hr e he
    rw [← List.flatten_append, ← hab, hp]

/-! ### As many bytes as asked for -/

/-- A prefix of an object is answered by asking for at most what is missing. -/
theorem more_le (hf : Steady T f) (ht : Truthful f) {x y : Bytes} {v : α} {n : Nat} (hx : f x = .more n)
    (ho : f (x ++ y) = .done [] v) : 1 ≤ n ∧ n ≤ y.length := by
  obtain ⟨h1, h2⟩ := ht x n hx
  refine ⟨h1, ?_⟩
  rcases Nat.lt_or_ge y.length n with h | h
  · have := h2 y h; rw [ho] at this; simp at this
  · exact h

theorem readOne_object (hf : Steady T f) (ht : Truthful f) {get : Nat → Nat → Nat} (hg : ReadsSome get)
    {b rest : Bytes} {v : α} (hb : f b = .done [] v) (hd : Divisible f b) :
    ∀ (fuel j k : Nat), k ≤ b.length → b.length - k < fuel →
      readOne f get (b ++ rest) fuel j k = (.object v, b.length) := by
  intro fuel
  induction fuel with
  | zero => intro j k _ h; omega
  | succ fuel ih =>
    intro j k hk hfuel
    unfold readOne
    rw [List.take_append_of_le_length hk]
    rcases Nat.lt_or_ge k b.length with h | h
    · have hsplit := (List.take_append_drop k b).symm
      have hne : b.drop k ≠ [] := by
        intro h0; have := congrArg List.length h0; simp at this; omega
      obtain ⟨n, hn⟩ := prefix_more hf (hsplit ▸ hd) hne (.inl ⟨v, hsplit ▸ hb⟩)
      obtain ⟨h1, h2⟩ := more_le hf ht hn (hsplit ▸ hb)
      simp only [List.length_drop] at h2
      obtain ⟨g1, g2⟩ := hg j n h1
      simp only [hn]
      rw [if_neg (by simp; omega)]
      have : min (b ++ rest).length (k + get j n) = k + get j n := by
        rw [List.length_append]; omega
      rw [this]
      exact ih _ _ (by omega) (by omega)
    · have : k = b.length := by omega
      subst this
      rw [List.take_length]
      simp only [hb]

theorem readOne_eof (hf : Steady T f) (ht : Truthful f) {get : Nat → Nat → Nat} (hg : ReadsSome get)
    {b rest : Bytes} {v : α} (hb : f (b ++ rest) = .done [] v) (hr : rest ≠ []) (hd : Divisible f (b ++ rest)) :
    ∀ (fuel j k : Nat), k ≤ b.length → b.length - k < fuel →
      readOne f get b fuel j k = (.endOfStream, b.length) := by
  intro fuel
  induction fuel with
  | zero => intro j k _ h; omega
  | succ fuel ih =>
    intro j k hk hfuel
    unfold readOne
    have hsplit : b ++ rest = b.take k ++ (b.drop k ++ rest) := by
      rw [← List.append_assoc, List.take_append_drop]
    obtain ⟨n, hn⟩ := prefix_more hf (x := b.take k) (y := b.drop k ++ rest) (hsplit ▸ hd)
      (by simp [hr]) (.inl ⟨v, hsplit ▸ hb⟩)
    obtain ⟨h1, _⟩ := more_le hf ht hn (hsplit ▸ hb)
    obtain ⟨g1, g2⟩ := hg j n h1
    simp only [hn]
    split
    · rename_i h
      have : k = b.length := by omega
      rw [this]
    · rename_i h
      exact ih _ _ (by omega) (by omega)

end Asn1

import Verif.Spec.SizedEncoder
import Verif.Proofs.EncodeWork
import Verif.Proofs.Encodable
/-!
# Encoders that compute with `usize`
-/
namespace Asn1
open Spec

/-! ### Programs -/

/-- `Stops w w'`: the program `w` does what `w'` does, until it panics, or to the end. -/
inductive Stops {α : Type} : Wr α → Wr α → Prop
  | panic (w : Wr α) : Stops (.fail .panic) w
  | done (a : α) : Stops (.done a) (.done a)
  | fail (e : SerErr) : Stops (.fail e) (.fail e)
  | write (bs : Bytes) (k k' : Except SerErr Unit → Wr α) (h : ∀ r, Stops (k r) (k' r)) :
      Stops (.write bs k) (.write bs k')

theorem stops_refl {α : Type} (w : Wr α) : Stops w w := by
  induction w with
  | done a => exact .done a
  | fail e => exact .fail e
  | write bs k ih => exact .write bs k k ih

theorem stops_bind {α β : Type} {w w' : Wr α} {f g : α → Wr β} (h : Stops w w') (hf : ∀ a, Stops (f a) (g a)) :
    Stops (w >>= f) (w' >>= g) := by
  show Stops (w.bind f) (w'.bind g)
  induction h with
  | panic w => exact .panic _
  | done a => exact hf a
  | fail e => exact .fail e
  | write bs k k' _ ih => exact .write bs _ _ ih

theorem stops_run {α : Type} {w w' : Wr α} (h : Stops w w') (wr : Wr.Writer) (hist : List Bytes) :
    w.runFaulty wr hist = w'.runFaulty wr hist ∨
    ((w.runFaulty wr hist).2 = .error .panic ∧ (w.runFaulty wr hist).1 <+: (w'.runFaulty wr hist).1) := by
  induction h generalizing hist with
  | panic w => exact .inr ⟨rfl, List.nil_prefix⟩
  | done a => exact .inl rfl
  | fail e => exact .inl rfl
  | write bs k k' _ ih =>
    simp only [Wr.runFaulty]
    cases wr hist bs with
    | none =>
      rcases ih (.ok ()) (bs :: hist) with h | ⟨h1, h2⟩
      · left; simp only [h]
      · right; exact ⟨h1, (List.prefix_append_right_inj bs).mpr h2⟩
    | some n =>
      rcases ih (.error .io) (bs :: hist) with h | ⟨h1, h2⟩
      · left; simp only [h]
      · right; exact ⟨h1, (List.prefix_append_right_inj _).mpr h2⟩

theorem yields_congr {α β : Type} {P : α → Prop} {w : Wr α} {f g : α → Wr β} (h : w.Yields P)
    (hf : ∀ a, P a → f a = g a) : (w >>= f) = (w >>= g) := by
  show w.bind f = w.bind g
  induction w with
  | done a => exact hf a h
  | fail e => rfl
  | write bs k ih => exact congrArg (Wr.write bs) (funext fun r => ih r (h r))

theorem strict_yields {α : Type} {w : Wr α} (h : Wr.Strict w) : w.Yields fun a => w.exec.2 = .ok a := by
  induction h with
  | done a => exact rfl
  | fail e => trivial
  | write bs k _ herr ih =>
    intro r
    cases r with
    | ok x => exact ih
    | error e => rw [herr]; trivial

/-! ### Lengths -/

/-- If it is a number, at most `m`. -/
def Length.AtMost (l : Length) (m : Nat) : Prop := ∀ n, l = .definite n → n ≤ m

theorem atMost_add {a b : Length} {m n : Nat} (ha : a.AtMost m) (hb : b.AtMost n) : (a.add b).AtMost (m + n) := by
  intro x hx
  cases a with
  | indefinite => cases hx
  | definite i =>
    cases b with
    | indefinite => cases hx
    | definite j =>
      have h1 := ha i rfl
      have h2 := hb j rfl
      have : i + j = x := by simpa [Length.add] using hx
      omega

theorem atMost_addNat {a : Length} {m : Nat} (ha : a.AtMost m) (n : Nat) : (a.addNat n).AtMost (m + n) := by
  intro x hx
  cases a with
  | indefinite => cases hx
  | definite i =>
    have h1 := ha i rfl
    have : i + n = x := by simpa [Length.addNat] using hx
    omega

theorem atMost_mono {a : Length} {m n : Nat} (ha : a.AtMost m) (h : m ≤ n) : a.AtMost n :=
  fun x hx => Nat.le_trans (ha x hx) h

theorem headerLengthOr0_le (tag : Nat) (l : Length) : headerLengthOr0 tag l ≤ berTagLength tag + 4 := by
  unfold headerLengthOr0 berHeaderLength
  cases l with
  | indefinite => simp [berLengthLength, bind, Except.bind, pure, Except.pure]
  | definite n =>
    simp only [berLengthLength]
    split
    · rename_i h
      simp only [bind, Except.bind] at h
      split at h
      · cases h
      · rename_i a ha
        cases h
        split at ha
        · cases ha; omega
        · split at ha
          · cases ha; omega
          · split at ha
            · cases ha; omega
            · split at ha
              · cases ha; omega
              · cases ha
    · omega

theorem berTotal_eq (tag : Nat) (l : Length) : berTotalLength tag l = l.addNat (headerLengthOr0 tag l) := rfl

theorem atMost_total {l : Length} {m : Nat} (tag : Nat) (h : l.AtMost m) :
    (berTotalLength tag l).AtMost (m + room tag) := by
  rw [berTotal_eq]
  exact atMost_mono (atMost_addNat h _) (by have := headerLengthOr0_le tag l; unfold room; omega)

variable {u : Arith}

theorem fit_ok {n : Nat} (h : n < 2 ^ u.bits) : u.fit n = some n := if_pos h

theorem add_ok {a b : Nat} (h : a + b < 2 ^ u.bits) : u.add a b = some (a + b) := fit_ok h

theorem lenAdd_ok {a b : Length} {m : Nat} (ha : (a.add b).AtMost m) (h : m < 2 ^ u.bits) :
    u.lenAdd a b = some (a.add b) := by
  cases a with
  | indefinite => rfl
  | definite i =>
    cases b with
    | indefinite => rfl
    | definite j =>
      have := ha (i + j) rfl
      show (u.add i j).map Length.definite = _
      rw [add_ok (by omega)]; rfl

theorem lenAddNat_ok {a : Length} {n m : Nat} (ha : (a.addNat n).AtMost m) (h : m < 2 ^ u.bits) :
    u.lenAddNat a n = some (a.addNat n) := by
  cases a with
  | indefinite => rfl
  | definite i =>
    have := ha (i + n) rfl
    show (u.add i n).map Length.definite = _
    rw [add_ok (by omega)]; rfl

theorem totalLength_ok {tag : Nat} {l : Length} {m : Nat} (hl : l.AtMost m) (h : m + room tag < 2 ^ u.bits) :
    u.totalLength tag l = some (berTotalLength tag l) :=
  lenAddNat_ok (atMost_total tag hl) h

/-! With overflow checks: the right number, or a panic. -/

/-- The value, or a panic. -/
def OrPanic {α : Type} (o : Option α) (a : α) : Prop := o = none ∨ o = some a

theorem orPanic_bind {α β : Type} {o : Option α} {a : α} {f : α → Option β} {b : β} (h : OrPanic o a)
    (hf : OrPanic (f a) b) : OrPanic (o.bind f) b := by
  rcases h with h | h
  · exact .inl (by rw [h]; rfl)
  · rw [h]; exact hf

theorem fit_checked (hc : u.checked = true) (n : Nat) : OrPanic (u.fit n) n := by
  unfold Arith.fit
  by_cases h : n < 2 ^ u.bits
  · rw [if_pos h]; exact .inr rfl
  · rw [if_neg h, if_pos hc]; exact .inl rfl

theorem orPanic_map {α β : Type} {o : Option α} {a : α} (f : α → β) (h : OrPanic o a) : OrPanic (o.map f) (f a) := by
  rcases h with h | h
  · exact .inl (by rw [h]; rfl)
  · exact .inr (by rw [h]; rfl)

theorem lenAdd_checked (hc : u.checked = true) (a b : Length) : OrPanic (u.lenAdd a b) (a.add b) := by
  cases a with
  | indefinite => exact .inr rfl
  | definite i =>
    cases b with
    | indefinite => exact .inr rfl
    | definite j => exact orPanic_map Length.definite (fit_checked hc (i + j))

theorem lenAddNat_checked (hc : u.checked = true) (a : Length) (n : Nat) : OrPanic (u.lenAddNat a n) (a.addNat n) := by
  cases a with
  | indefinite => exact .inr rfl
  | definite i => exact orPanic_map Length.definite (fit_checked hc (i + n))

theorem totalLength_checked (hc : u.checked = true) (tag : Nat) (l : Length) :
    OrPanic (u.totalLength tag l) (berTotalLength tag l) := lenAddNat_checked hc _ _

theorem option_some {α β : Type} (a : α) (f : α → Wr β) : (Wr.ofOption (some a) >>= f) = f a := rfl

/-- What follows a number that may be missing. -/
theorem stops_option {α β : Type} {o : Option α} {a : α} {f : α → Wr β} {w : Wr β} (h : OrPanic o a)
    (hf : Stops (f a) w) : Stops (Wr.ofOption o >>= f) w := by
  rcases h with h | h
  · rw [h]; exact .panic _
  · rw [h]; exact hf

theorem stops_last {α : Type} {o : Option α} {a : α} (h : OrPanic o a) : Stops (Wr.ofOption o) (pure a) := by
  rcases h with h | h
  · rw [h]; exact .panic _
  · rw [h]; exact .done a

/-! ### Headers -/

theorem tagBuf_len {idx val : Nat} {buf out : Bytes} (h : tagBuf idx val buf = .ok out) :
    out.length ≤ buf.length + idx := by
  induction idx generalizing val buf with
  | zero =>
    unfold tagBuf at h
    split at h
    · cases h
    · cases h; omega
  | succ idx ih =>
    unfold tagBuf at h
    split at h
    · split at h
      · cases h
      · have := ih h
        simp at this; omega
    · cases h; omega

theorem yields_writeAll {α : Type} {P : α → Prop} {bs : Bytes} {f : Unit → Wr α} (h : (f ()).Yields P) :
    (Wr.writeAll bs >>= f).Yields P := by
  refine yields_bind (P := fun _ => True) (yields_true _) fun _ _ => h

theorem yields_tag (c : Class) (p : Bool) (tag : Nat) : (writeTagGeneric c p tag).Yields (· ≤ 8) := by
  unfold writeTagGeneric
  simp only
  split
  · exact yields_writeAll (show 1 ≤ 8 by omega)
  · refine yields_writeAll ?_
    split
    · trivial
    · rename_i buf hb
      have := tagBuf_len hb
      refine yields_writeAll ?_
      show 1 + buf.length ≤ 8
      unfold tagBuf at hb
      split at hb
      · rw [if_neg (by decide)] at hb
        have := tagBuf_len hb
        have : ∀ (i v : Nat) (b o : Bytes), tagBuf (i + 1) v b = .ok o → o.length ≤ b.length + i := by
          intro i
          induction i with
          | zero =>
            intro v b o h
            unfold tagBuf at h
            split at h
            · rw [if_pos rfl] at h; cases h
            · cases h; omega
          | succ i ih =>
            intro v b o h
            unfold tagBuf at h
            split at h
            · rw [if_neg (by omega)] at h
              have := ih _ _ _ h
              simp at this; omega
            · cases h; omega
        have := this 5 _ _ _ hb
        simp at this; omega
      · cases hb; simp

theorem yields_info (e : EncoderKind) (c : Class) (p : Bool) (tag : Nat) : (e.writeTagInfo c p tag).Yields (· ≤ 8) := by
  cases e <;> exact yields_tag _ _ _

theorem yields_length (l : Length) : (writeLength l).Yields (· ≤ 9) := by
  cases l with
  | indefinite => exact yields_writeAll (show 1 ≤ 9 by omega)
  | definite n =>
    unfold writeLength
    simp only
    split
    · exact yields_writeAll (show 1 ≤ 9 by omega)
    · split
      · trivial
      · refine yields_writeAll (yields_writeAll ?_)
        show 1 + _ ≤ 9
        have := (List.dropWhile_sublist (fun x : UInt8 => x == 0) (l := toBE 8 n)).length_le
        simp at this
        omega

theorem yields_header {α : Type} (t : ToBer α) (v : α) : (t.writeHeader v).Yields (· ≤ 17) :=
  yields_bind (yields_info _ _ _ _) fun a ha => yields_bind (yields_length _) fun b hb => by
    show a + b ≤ 17; omega

/-! ### One encoder -/

/-- The encoder does what the one with unbounded numbers does, if there is enough room; with overflow checks it does so
or panics. -/
structure Follows (u : Arith) {α : Type} (t : ToBer α) (s : SizedToBer α) (p : α → Nat) : Prop where
  encoder : s.encoder = t.encoder
  info : ∀ v, s.tagInfo v = t.tagInfo v
  room : ∀ v, room (t.tagInfo v).2.2 ≤ p v
  bound : ∀ v, (t.contentLen v).AtMost (p v - Spec.room (t.tagInfo v).2.2)
  yields : ∀ v, (t.writeContent v).Yields (· + Spec.room (t.tagInfo v).2.2 ≤ p v)
  len : ∀ v, p v < 2 ^ u.bits → s.contentLen v = some (t.contentLen v)
  content : ∀ v, p v < 2 ^ u.bits → s.writeContent v = t.writeContent v
  lenStop : u.checked = true → ∀ v, OrPanic (s.contentLen v) (t.contentLen v)
  contentStop : u.checked = true → ∀ v, Stops (s.writeContent v) (t.writeContent v)

variable {α σ : Type} {t : ToBer α} {s : SizedToBer α} {p : α → Nat}

theorem room_ge (tag : Nat) : 17 ≤ Spec.room tag := by unfold Spec.room; omega

theorem Follows.total (h : Follows u t s p) (v : α) (hv : p v < 2 ^ u.bits) : s.totalLen u v = some (t.totalLen v) := by
  unfold SizedToBer.totalLen
  rw [h.len v hv, h.info]
  have := h.room v
  exact totalLength_ok (h.bound v) (by omega)

theorem Follows.totalBound (h : Follows u t s p) (v : α) : (t.totalLen v).AtMost (p v) := by
  have := h.room v
  exact atMost_mono (atMost_total _ (h.bound v)) (by omega)

theorem Follows.totalStop (h : Follows u t s p) (hc : u.checked = true) (v : α) :
    OrPanic (s.totalLen u v) (t.totalLen v) := by
  unfold SizedToBer.totalLen
  rw [h.info]
  exact orPanic_bind (h.lenStop hc v) (totalLength_checked hc _ _)

theorem header_ok {e : EncoderKind} {i : Class × Bool × Nat} {l : Length} (h : 17 < 2 ^ u.bits) :
    (do let n1 ← e.writeTagInfo i.1 i.2.1 i.2.2
        let n2 ← writeLength l
        Wr.ofOption (u.add n1 n2)) =
    (do let n1 ← e.writeTagInfo i.1 i.2.1 i.2.2
        let n2 ← writeLength l
        pure (n1 + n2) : Wr Nat) := by
  refine yields_congr (yields_info _ _ _ _) fun a ha => yields_congr (yields_length _) fun b hb => ?_
  rw [add_ok (by omega)]; rfl

theorem Follows.header (h : Follows u t s p) (v : α) (hv : p v < 2 ^ u.bits) :
    s.writeHeader u v = t.writeHeader v := by
  unfold SizedToBer.writeHeader ToBer.writeHeader
  simp only [h.info, h.encoder, h.len v hv]
  have := h.room v
  have := room_ge (t.tagInfo v).2.2
  exact header_ok (by omega)

theorem Follows.headerStop (h : Follows u t s p) (hc : u.checked = true) (v : α) :
    Stops (s.writeHeader u v) (t.writeHeader v) := by
  unfold SizedToBer.writeHeader ToBer.writeHeader
  simp only [h.info, h.encoder]
  exact stops_bind (stops_refl _) fun _ => stops_option (h.lenStop hc v) <|
    stops_bind (stops_refl _) fun _ => stops_last (fit_checked hc _)

theorem Follows.encode (h : Follows u t s p) (v : α) (hv : p v < 2 ^ u.bits) : s.encode u v = t.encode v := by
  unfold SizedToBer.encode ToBer.encode
  rw [h.header v hv, h.content v hv]
  have := room_ge (t.tagInfo v).2.2
  refine yields_congr (yields_header t v) fun a ha => yields_congr (h.yields v) fun b hb => ?_
  rw [add_ok (by omega)]; rfl

theorem Follows.encodeYields (h : Follows u t s p) (v : α) : (t.encode v).Yields (· ≤ p v) := by
  have := room_ge (t.tagInfo v).2.2
  exact yields_bind (yields_header t v) fun a ha => yields_bind (h.yields v) fun b hb => by
    show a + b ≤ p v; omega

theorem Follows.encodeStop (h : Follows u t s p) (hc : u.checked = true) (v : α) :
    Stops (s.encode u v) (t.encode v) :=
  stops_bind (h.headerStop hc v) fun _ => stops_bind (h.contentStop hc v) fun _ => stops_last (fit_checked hc _)

theorem follows_header : Follows u headerToBer SizedToBer.header
    fun h => (match h.length with | .definite n => n | .indefinite => 0) + Spec.room h.tag where
  encoder := rfl
  info _ := rfl
  room h := by show Spec.room h.tag ≤ _; omega
  bound h := by
    intro n hn
    have hn : h.length = .definite n := hn
    show n ≤ _ - Spec.room h.tag
    rw [hn]; simp
  yields h := by show 0 + Spec.room h.tag ≤ _; omega
  len _ _ := rfl
  content _ _ := rfl
  lenStop _ _ := .inr rfl
  contentStop _ _ := .done 0

/-- The header of a tag. -/
theorem tagHeader_ok (h : Header) (hb : 17 < 2 ^ u.bits) : SizedToBer.header.writeHeader u h = headerToBer.writeHeader h :=
  header_ok hb

theorem Follows.tagExplicit (h : Follows u t s p) (cls : Class) (tag : Nat) (v : α)
    (hv : Spec.room tag + p v < 2 ^ u.bits) :
    s.encodeTaggedExplicit u cls tag v = t.encodeTaggedExplicit cls tag v := by
  unfold SizedToBer.encodeTaggedExplicit ToBer.encodeTaggedExplicit
  have := room_ge tag
  have := room_ge (t.tagInfo v).2.2
  have := h.room v
  have hv' : p v < 2 ^ u.bits := by omega
  simp only [h.total v hv', h.header v hv', h.content v hv', option_some]
  rw [tagHeader_ok _ (by omega)]
  refine yields_congr (yields_header _ _) fun a ha => yields_congr (yields_header t v) fun b hb => ?_
  show (Wr.ofOption (u.add a b) >>= _) = _
  rw [add_ok (by omega)]
  refine yields_congr (h.yields v) fun c hc => ?_
  rw [add_ok (by omega)]; rfl

theorem Follows.tagExplicitYields (h : Follows u t s p) (cls : Class) (tag : Nat) (v : α) :
    (t.encodeTaggedExplicit cls tag v).Yields (· ≤ Spec.room tag + p v) := by
  have := room_ge tag
  have := room_ge (t.tagInfo v).2.2
  exact yields_bind (yields_header _ _) fun a ha => yields_bind (yields_header t v) fun b hb =>
    yields_bind (h.yields v) fun c hc => by
      show a + b + c ≤ _; omega

theorem Follows.tagExplicitStop (h : Follows u t s p) (hc : u.checked = true) (cls : Class) (tag : Nat) (v : α) :
    Stops (s.encodeTaggedExplicit u cls tag v) (t.encodeTaggedExplicit cls tag v) :=
  stops_option (h.totalStop hc v) <|
    stops_bind (follows_header.headerStop hc _) fun _ => stops_bind (h.headerStop hc v) fun _ =>
      stops_option (fit_checked hc _) <| stops_bind (h.contentStop hc v) fun _ => stops_last (fit_checked hc _)

theorem Follows.tagImplicit (h : Follows u t s p) (cls : Class) (tag : Nat) (v : α)
    (hv : Spec.room tag + p v < 2 ^ u.bits) :
    s.encodeTaggedImplicit u cls tag v = t.encodeTaggedImplicit cls tag v := by
  unfold SizedToBer.encodeTaggedImplicit ToBer.encodeTaggedImplicit
  have := room_ge tag
  have hv' : p v < 2 ^ u.bits := by omega
  simp only [h.len v hv', h.content v hv', h.info, option_some]
  rw [tagHeader_ok _ (by omega)]
  refine yields_congr (yields_header _ _) fun a ha => yields_congr (h.yields v) fun c hc => ?_
  show Wr.ofOption _ = _
  rw [add_ok (by omega)]; rfl

theorem Follows.tagImplicitYields (h : Follows u t s p) (cls : Class) (tag : Nat) (v : α) :
    (t.encodeTaggedImplicit cls tag v).Yields (· ≤ Spec.room tag + p v) := by
  have := room_ge tag
  exact yields_bind (yields_header _ _) fun a ha => yields_bind (h.yields v) fun c hc => by
    show a + c ≤ _; omega

theorem Follows.tagImplicitStop (h : Follows u t s p) (hc : u.checked = true) (cls : Class) (tag : Nat) (v : α) :
    Stops (s.encodeTaggedImplicit u cls tag v) (t.encodeTaggedImplicit cls tag v) := by
  unfold SizedToBer.encodeTaggedImplicit
  simp only [h.info]
  exact stops_option (h.lenStop hc v) <|
    stops_bind (follows_header.headerStop hc _) fun _ => stops_bind (h.contentStop hc v) fun _ =>
      stops_last (fit_checked hc _)

/-! ### Items -/

theorem Follows.lengthsBound (h : Follows u t s p) (vs : List α) {acc : Length} {a : Nat} (ha : acc.AtMost a) :
    ((vs.map t.totalLen).foldl Length.add acc).AtMost (a + (vs.map p).sum) := by
  induction vs generalizing acc a with
  | nil => exact ha
  | cons v vs ih =>
    simp only [List.map_cons, List.foldl_cons, List.sum_cons]
    rw [← Nat.add_assoc]
    exact ih (atMost_add ha (h.totalBound v))

theorem Follows.lengths (h : Follows u t s p) (vs : List α) {acc : Length} {a : Nat} (ha : acc.AtMost a)
    (hb : a + (vs.map p).sum < 2 ^ u.bits) :
    s.lengthItems u vs acc = some ((vs.map t.totalLen).foldl Length.add acc) := by
  induction vs generalizing acc a with
  | nil => rfl
  | cons v vs ih =>
    simp only [List.map_cons, List.foldl_cons, List.sum_cons] at hb ⊢
    unfold SizedToBer.lengthItems
    rw [h.total v (by omega)]
    show (u.lenAdd acc (t.totalLen v)).bind _ = _
    have := atMost_add ha (h.totalBound v)
    rw [lenAdd_ok this (by omega)]
    exact ih this (by omega)

theorem Follows.lengthsStop (h : Follows u t s p) (hc : u.checked = true) (vs : List α) (acc : Length) :
    OrPanic (s.lengthItems u vs acc) ((vs.map t.totalLen).foldl Length.add acc) := by
  induction vs generalizing acc with
  | nil => exact .inr rfl
  | cons v vs ih => exact orPanic_bind (h.totalStop hc v) <| orPanic_bind (lenAdd_checked hc _ _) (ih _)

theorem Follows.items (h : Follows u t s p) (vs : List α) (acc : Nat) (hb : acc + (vs.map p).sum < 2 ^ u.bits) :
    s.writeItems u vs acc = t.writeItems vs acc := by
  induction vs generalizing acc with
  | nil => rfl
  | cons v vs ih =>
    simp only [List.map_cons, List.sum_cons] at hb
    unfold SizedToBer.writeItems ToBer.writeItems
    rw [h.encode v (by omega)]
    refine yields_congr (h.encodeYields v) fun sz hsz => ?_
    rw [add_ok (by omega)]
    exact ih _ (by omega)

theorem Follows.itemsYields (h : Follows u t s p) (vs : List α) (acc : Nat) :
    (t.writeItems vs acc).Yields (· ≤ acc + (vs.map p).sum) := by
  induction vs generalizing acc with
  | nil => exact Nat.le_refl _
  | cons v vs ih =>
    simp only [List.map_cons, List.sum_cons]
    exact yields_bind (h.encodeYields v) fun sz hsz => yields_mono (ih _) fun x hx => by omega

theorem Follows.itemsStop (h : Follows u t s p) (hc : u.checked = true) (vs : List α) (acc : Nat) :
    Stops (s.writeItems u vs acc) (t.writeItems vs acc) := by
  induction vs generalizing acc with
  | nil => exact .done _
  | cons v vs ih => exact stops_bind (h.encodeStop hc v) fun _ => stops_option (fit_checked hc _) (ih _)

theorem atMost_zero : (Length.definite 0).AtMost 0 := fun n hn => by cases hn; exact Nat.le_refl _

theorem follows_items (h : Follows u t s p) (tag : Nat) (toList : σ → List α) :
    Follows u (⟨.constructed, fun v => t.lengthItems (toList v), fun _ => (.universal, true, tag),
      fun v => t.writeItems (toList v) 0⟩ : ToBer σ) (.items u tag toList s)
      fun v => Spec.room tag + ((toList v).map p).sum where
  encoder := rfl
  info _ := rfl
  room v := Nat.le_add_right _ _
  bound v := atMost_mono (h.lengthsBound (toList v) atMost_zero) (by
    show _ ≤ Spec.room tag + _ - Spec.room tag; omega)
  yields v := yields_mono (h.itemsYields (toList v) 0) fun x hx => by show x + Spec.room tag ≤ _; omega
  len v hv := h.lengths (toList v) atMost_zero (by omega)
  content v hv := h.items (toList v) 0 (by omega)
  lenStop hc v := h.lengthsStop hc (toList v) _
  contentStop hc v := h.itemsStop hc (toList v) 0

/-! ### The fields of a struct -/

/-- The fields. -/
structure FieldsFollow (u : Arith) {Ts : List Type} (es : EncFields Ts) (ss : SizedFields Ts) (ps : Tup Ts → Nat) :
    Prop where
  bound : ∀ v acc a, acc.AtMost a → (es.len v acc).AtMost (a + ps v)
  yields : ∀ v acc, (es.write v acc).Yields (· ≤ acc + ps v)
  len : ∀ v acc a, acc.AtMost a → a + ps v < 2 ^ u.bits → ss.len u v acc = some (es.len v acc)
  write : ∀ v acc, acc + ps v < 2 ^ u.bits → ss.write u v acc = es.write v acc
  lenStop : u.checked = true → ∀ v acc, OrPanic (ss.len u v acc) (es.len v acc)
  writeStop : u.checked = true → ∀ v acc, Stops (ss.write u v acc) (es.write v acc)

theorem field_bound (h : Follows u t s p) (tag : FieldTag) (v : α) {acc : Length} {a : Nat} (ha : acc.AtMost a) :
    (tag.addLen (t.totalLen v) (t.contentLen v) acc).AtMost (a + (fieldRoom tag + p v)) := by
  have hb := h.totalBound v
  have hc : (t.contentLen v).AtMost (p v) := atMost_mono (h.bound v) (by omega)
  cases tag with
  | untagged => exact atMost_mono (atMost_add ha hb) (by omega)
  | explicit cls n =>
    have := headerLengthOr0_le n (t.totalLen v)
    exact atMost_mono (atMost_add (atMost_addNat ha _) hb) (by simp only [fieldRoom, Spec.room]; omega)
  | implicit cls n =>
    have := headerLengthOr0_le n (t.totalLen v)
    exact atMost_mono (atMost_add (atMost_addNat ha _) hc) (by simp only [fieldRoom, Spec.room]; omega)

theorem field_sized (h : Follows u t s p) (tag : FieldTag) (v : α) {acc : Length} {a : Nat} (ha : acc.AtMost a)
    (hb : a + (fieldRoom tag + p v) < 2 ^ u.bits) :
    s.addLen u tag v acc = some (tag.addLen (t.totalLen v) (t.contentLen v) acc) := by
  have h1 := h.total v (by omega)
  have h2 := h.len v (by omega)
  have hc : (t.contentLen v).AtMost (p v) := atMost_mono (h.bound v) (by omega)
  cases tag with
  | untagged =>
    show (s.totalLen u v).bind _ = _
    rw [h1]
    exact lenAdd_ok (atMost_add ha (h.totalBound v)) (by omega)
  | explicit cls n =>
    have := headerLengthOr0_le n (t.totalLen v)
    simp only [fieldRoom, Spec.room] at hb
    show (s.totalLen u v).bind _ = _
    rw [h1]
    show (u.lenAddNat acc _).bind _ = _
    rw [lenAddNat_ok (atMost_addNat ha _) (by omega)]
    exact lenAdd_ok (atMost_add (atMost_addNat ha _) (h.totalBound v)) (by omega)
  | implicit cls n =>
    have := headerLengthOr0_le n (t.totalLen v)
    simp only [fieldRoom, Spec.room] at hb
    show (s.totalLen u v).bind _ = _
    rw [h1]
    show (u.lenAddNat acc _).bind _ = _
    rw [lenAddNat_ok (atMost_addNat ha _) (by omega)]
    show (s.contentLen v).bind _ = _
    rw [h2]
    exact lenAdd_ok (atMost_add (atMost_addNat ha _) hc) (by omega)

theorem field_sizedStop (h : Follows u t s p) (hc : u.checked = true) (tag : FieldTag) (v : α) (acc : Length) :
    OrPanic (s.addLen u tag v acc) (tag.addLen (t.totalLen v) (t.contentLen v) acc) := by
  cases tag with
  | untagged => exact orPanic_bind (h.totalStop hc v) (lenAdd_checked hc _ _)
  | explicit cls n =>
    exact orPanic_bind (h.totalStop hc v) <| orPanic_bind (lenAddNat_checked hc _ _) (lenAdd_checked hc _ _)
  | implicit cls n =>
    exact orPanic_bind (h.totalStop hc v) <| orPanic_bind (lenAddNat_checked hc _ _) <|
      orPanic_bind (h.lenStop hc v) (lenAdd_checked hc _ _)

theorem field_sizedWrite (h : Follows u t s p) (tag : FieldTag) (v : α) (hb : fieldRoom tag + p v < 2 ^ u.bits) :
    s.writeField u tag v = tag.write t v := by
  cases tag with
  | untagged => exact h.encode v (by omega)
  | explicit cls n => exact h.tagExplicit cls n v hb
  | implicit cls n => exact h.tagImplicit cls n v hb

theorem field_sizedYields (h : Follows u t s p) (tag : FieldTag) (v : α) :
    (tag.write t v).Yields (· ≤ fieldRoom tag + p v) := by
  cases tag with
  | untagged => exact yields_mono (h.encodeYields v) fun x hx => by omega
  | explicit cls n => exact h.tagExplicitYields cls n v
  | implicit cls n => exact h.tagImplicitYields cls n v

theorem field_sizedWriteStop (h : Follows u t s p) (hc : u.checked = true) (tag : FieldTag) (v : α) :
    Stops (s.writeField u tag v) (tag.write t v) := by
  cases tag with
  | untagged => exact h.encodeStop hc v
  | explicit cls n => exact h.tagExplicitStop hc cls n v
  | implicit cls n => exact h.tagImplicitStop hc cls n v

theorem fieldsFollow_cons {T : Type} {Ts : List Type} {t : ToBer T} {s p} {es : EncFields Ts} {ss ps}
    (tag : FieldTag) (h : Follows u t s p) (ht : FieldsFollow u es ss ps) :
    FieldsFollow u (.cons tag t es) (.cons tag s ss) fun v => fieldRoom tag + p v.1 + ps v.2 where
  bound v acc a ha := by
    have := ht.bound v.2 _ _ (field_bound h tag v.1 ha)
    exact atMost_mono this (by omega)
  yields v acc := yields_bind (field_sizedYields h tag v.1) fun n hn =>
    yields_mono (ht.yields v.2 _) fun x hx => by omega
  len v acc a ha hb := by
    show (s.addLen u tag v.1 acc).bind _ = _
    rw [field_sized h tag v.1 ha (by omega)]
    exact ht.len v.2 _ _ (field_bound h tag v.1 ha) (by omega)
  write v acc hb := by
    show (s.writeField u tag v.1 >>= _) = (tag.write t v.1 >>= _)
    rw [field_sizedWrite h tag v.1 (by omega)]
    refine yields_congr (field_sizedYields h tag v.1) fun n hn => ?_
    rw [add_ok (by omega)]
    exact ht.write v.2 _ (by omega)
  lenStop hc v acc := orPanic_bind (field_sizedStop h hc tag v.1 acc) (ht.lenStop hc v.2 _)
  writeStop hc v acc := stops_bind (field_sizedWriteStop h hc tag v.1) fun _ =>
    stops_option (fit_checked hc _) (ht.writeStop hc v.2 _)

/-! ### The variants -/

/-- The variants. -/
structure VariantsFollow (u : Arith) {Ts : List Type} (es : EncVariants Ts) (ss : SizedVariants Ts) (ps : HSum Ts → Nat) :
    Prop where
  info : ∀ k v, ss.info k v = es.info k v
  room : ∀ k v, Spec.room (es.info k v).2.2 ≤ ps v
  bound : ∀ k v, (es.len k v).AtMost (ps v - Spec.room (es.info k v).2.2)
  yields : ∀ k v, (es.write k v).Yields (· + Spec.room (es.info k v).2.2 ≤ ps v)
  len : ∀ k v, ps v < 2 ^ u.bits → ss.len u k v = some (es.len k v)
  write : ∀ k v, ps v < 2 ^ u.bits → ss.write u k v = es.write k v
  lenStop : u.checked = true → ∀ k v, OrPanic (ss.len u k v) (es.len k v)
  writeStop : u.checked = true → ∀ k v, Stops (ss.write u k v) (es.write k v)

theorem variantsFollow_cons {T : Type} {Ts : List Type} {t : ToBer T} {s p} {es : EncVariants Ts} {ss ps}
    (n : Nat) (dyn : T → Class × Bool × Nat) (h : Follows u t s p) (ht : VariantsFollow u es ss ps) :
    VariantsFollow u (.cons n dyn t es) (.cons n dyn s ss)
      (Sum.elim (fun x => Spec.room n + Spec.room (dyn x).2.2 + p x) ps : T ⊕ HSum Ts → Nat) where
  info k v := match v with
    | .inl x => by cases k <;> rfl
    | .inr x => ht.info k x
  room k v := match v with
    | .inl x => by
      show _ ≤ Spec.room n + Spec.room (dyn x).2.2 + p x
      cases k
      · show Spec.room n ≤ _; omega
      · show Spec.room n ≤ _; omega
      · show Spec.room (dyn x).2.2 ≤ _; omega
    | .inr x => ht.room k x
  bound k v := match v with
    | .inl x => by
      have hc : (t.contentLen x).AtMost (p x) := atMost_mono (h.bound x) (by omega)
      cases k
      · exact atMost_mono (h.totalBound x) (by
          show p x ≤ Spec.room n + Spec.room (dyn x).2.2 + p x - Spec.room n; omega)
      · exact atMost_mono hc (by
          show p x ≤ Spec.room n + Spec.room (dyn x).2.2 + p x - Spec.room n; omega)
      · exact atMost_mono hc (by
          show p x ≤ Spec.room n + Spec.room (dyn x).2.2 + p x - Spec.room (dyn x).2.2; omega)
    | .inr x => ht.bound k x
  yields k v := match v with
    | .inl x => by
      cases k
      · exact yields_mono (h.encodeYields x) fun y hy => by
          show y + Spec.room n ≤ Spec.room n + Spec.room (dyn x).2.2 + p x; omega
      · exact yields_mono (h.yields x) fun y hy => by
          show y + Spec.room n ≤ Spec.room n + Spec.room (dyn x).2.2 + p x; omega
      · exact yields_mono (h.yields x) fun y hy => by
          show y + Spec.room (dyn x).2.2 ≤ Spec.room n + Spec.room (dyn x).2.2 + p x; omega
    | .inr x => ht.yields k x
  len k v := match v with
    | .inl x => fun hv => by
      have hv : Spec.room n + Spec.room (dyn x).2.2 + p x < 2 ^ u.bits := hv
      cases k
      · exact h.total x (by omega)
      · exact h.len x (by omega)
      · exact h.len x (by omega)
    | .inr x => ht.len k x
  write k v := match v with
    | .inl x => fun hv => by
      have hv : Spec.room n + Spec.room (dyn x).2.2 + p x < 2 ^ u.bits := hv
      cases k
      · exact h.encode x (by omega)
      · exact h.content x (by omega)
      · exact h.content x (by omega)
    | .inr x => ht.write k x
  lenStop hc k v := match v with
    | .inl x => by
      cases k
      · exact h.totalStop hc x
      · exact h.lenStop hc x
      · exact h.lenStop hc x
    | .inr x => ht.lenStop hc k x
  writeStop hc k v := match v with
    | .inl x => by
      cases k
      · exact h.encodeStop hc x
      · exact h.contentStop hc x
      · exact h.contentStop hc x
    | .inr x => ht.writeStop hc k x

/-! ### All types -/

theorem leaf_strict {α : Type} {t : ToBer α} {n : Nat} (h : LengthCalls t n) (v : α) : Wr.Strict (t.writeContent v) := by
  refine Neat.strict (safe := false) ?_
  have no : ∀ {P : Prop}, false = true → P := fun h => by cases h
  cases h with
  | uint N => exact neat_bytes no
  | int N => exact neat_bytes no
  | integer => exact neat_bytes (o := some v.data) no
  | bool => exact neat_write _ _
  | boolean => exact neat_write _ _
  | null => exact neat_pure _
  | enumerated => exact neat_bytes no
  | octetString => exact neat_write _ _
  | bitString => exact (neat_writeAll _).bind fun _ => neat_write _ _
  | oid => exact neat_write _ _
  | utcTime => exact (neat_pieces _).bind fun _ => neat_pure _
  | generalizedTime => exact (neat_pieces _).bind fun _ => neat_pure _
  | text _ => exact neat_write _ _
  | bmpString => exact neat_write _ _
  | universalString => exact (neat_pieces _).bind fun _ => neat_pure _
  | real lib => exact neat_real lib no
  | any => exact neat_write _ _
  | raw _ => exact neat_write _ _
  | enum ds => exact neat_bytes no
  | f64 lib => exact neat_f64 lib no
  | f32 lib => exact neat_f64 lib no

theorem follows_leaf {n : Nat} (h : LengthCalls t n) :
    Follows u t (.leaf u t) fun v => Spec.room (t.tagInfo v).2.2 + contentRoom t v := by
  have hy : ∀ v, (t.writeContent v).Yields (· ≤ contentRoom t v) := fun v =>
    yields_mono (strict_yields (leaf_strict h v)) fun x hx => by
      unfold contentRoom; rw [hx]; exact Nat.le_add_left _ _
  have hb : ∀ v, (t.contentLen v).AtMost (contentRoom t v) := fun v n hn => by
    unfold contentRoom; rw [hn]; exact Nat.le_add_right _ _
  refine ⟨rfl, fun _ => rfl, fun v => Nat.le_add_right _ _, fun v => atMost_mono (hb v) (by omega), fun v => ?_,
    fun v hv => ?_, fun v hv => ?_, fun hc v => ?_, fun hc v => ?_⟩
  · exact yields_mono (hy v) fun x hx => by omega
  · show u.fitLen (t.contentLen v) = _
    have := hb v
    cases hl : t.contentLen v with
    | indefinite => rfl
    | definite n =>
      have := hb v n hl
      show (u.fit n).map Length.definite = _
      rw [fit_ok (by omega)]; rfl
  · show (t.writeContent v >>= _) = _
    rw [yields_congr (g := fun n => pure n) (hy v) fun x hx => by rw [fit_ok (by omega)]; rfl]
    show (t.writeContent v).bind (fun a => .done a) = _
    induction t.writeContent v with
    | done a => rfl
    | fail e => rfl
    | write bs k ih => exact congrArg (Wr.write bs) (funext ih)
  · show OrPanic (u.fitLen (t.contentLen v)) _
    cases t.contentLen v with
    | indefinite => exact .inr rfl
    | definite n => exact orPanic_map Length.definite (fit_checked hc n)
  · have hb : ∀ w : Wr Nat, Stops (w >>= fun n => Wr.ofOption (u.fit n)) w := by
      intro w
      show Stops (w.bind _) w
      induction w with
      | done a => exact stops_last (fit_checked hc a)
      | fail e => exact .fail e
      | write bs k ih => exact .write bs _ _ ih
    exact hb _

theorem sized_follows {α : Type} {t : ToBer α} {s p} (h : Sized u t s p) : Follows u t s p := by
  refine Sized.rec (u := u)
    (motive_1 := fun {α} t s p _ => Follows u t s p)
    (motive_2 := fun {Ts} es ss ps _ => FieldsFollow u es ss ps)
    (motive_3 := fun {Ts} es ss ps _ => VariantsFollow u es ss ps)
    ?_ ?_ ?_ ?_ ?_ ?_ ?_ ?_ ?_ ?_ ?_ ?_ ?_ ?_ ?_ h
  · intro α t n hn
    exact follows_leaf hn
  · intro α t s p tag _ ih
    exact follows_items ih tag id
  · intro α σ t s p S _ ih
    exact follows_items ih 17 S.toList
  · intro α t s p N _ ih
    exact follows_items ih 16 Subtype.val
  · intro α t s p _ ih
    refine ⟨rfl, fun _ => rfl, fun v => ?_, fun v => ?_, fun v => ?_, fun v _ => rfl, fun v hv => ?_,
      fun _ _ => .inr rfl, fun hc v => ?_⟩
    · show Spec.room 16 ≤ _; omega
    · intro n hn; cases hn
    · refine yields_bind (ih.itemsYields v 0) fun x hx => yields_writeAll ?_
      show x + 2 + Spec.room 16 ≤ _; omega
    · show (s.writeItems u v 0 >>= _) = (t.writeItems v 0 >>= _)
      rw [ih.items v 0 (by omega)]
      refine yields_congr (ih.itemsYields v 0) fun x hx => ?_
      rw [add_ok (by have := room_ge 16; omega)]; rfl
    · exact stops_bind (ih.itemsStop hc v 0) fun _ => stops_bind (stops_refl _) fun _ => stops_last (fit_checked hc _)
  · intro H
    exact follows_items (follows_leaf .any) 17 (AnySet.iter H)
  · intro α t s p cls tag dynTag _ ih
    refine ⟨rfl, fun _ => rfl, fun v => ?_, fun v => ?_, fun v => ?_, fun v hv => ?_, fun v hv => ?_,
      fun hc v => ?_, fun hc v => ?_⟩
    · show Spec.room tag ≤ _; omega
    · refine atMost_mono (atMost_total (dynTag v.inner) (ih.bound v.inner)) ?_
      show _ ≤ Spec.room tag + _ - Spec.room tag; omega
    · refine yields_mono (ih.encodeYields v.inner) fun x hx => ?_
      show x + Spec.room tag ≤ _; omega
    · show (s.contentLen v.inner).bind _ = _
      rw [ih.len v.inner (by omega)]
      exact totalLength_ok (ih.bound v.inner) (by omega)
    · exact ih.encode v.inner (by omega)
    · exact orPanic_bind (ih.lenStop hc v.inner) (totalLength_checked hc _ _)
    · exact ih.encodeStop hc v.inner
  · intro α t s p cls tag dynC _ ih
    refine ⟨rfl, fun _ => rfl, fun v => ?_, fun v => ?_, fun v => ?_, fun v hv => ih.len v.inner (by omega),
      fun v hv => ih.content v.inner (by omega), fun hc v => ih.lenStop hc v.inner, fun hc v => ih.contentStop hc v.inner⟩
    · show Spec.room tag ≤ _; omega
    · refine atMost_mono (ih.bound v.inner) ?_
      show _ ≤ Spec.room tag + p v.inner - Spec.room tag; omega
    · refine yields_mono (ih.yields v.inner) fun x hx => ?_
      show x + Spec.room tag ≤ _; omega
  · intro α t s p _ ih
    exact ⟨rfl, fun v => ih.info v.inner, fun v => ih.room v.inner, fun v => ih.bound v.inner,
      fun v => ih.yields v.inner, fun v => ih.len v.inner, fun v => ih.content v.inner,
      fun hc v => ih.lenStop hc v.inner, fun hc v => ih.contentStop hc v.inner⟩
  · intro Ts es ss ps tag _ ih
    refine ⟨rfl, fun _ => rfl, fun v => Nat.le_add_right _ _, fun v => ?_, fun v => ?_, fun v hv => ?_, fun v hv => ?_,
      fun hc v => ih.lenStop hc v _, fun hc v => ih.writeStop hc v 0⟩
    · refine atMost_mono (ih.bound v _ _ atMost_zero) ?_
      show _ ≤ Spec.room tag + ps v - Spec.room tag; omega
    · refine yields_mono (ih.yields v 0) fun x hx => ?_
      show x + Spec.room tag ≤ _; omega
    · exact ih.len v _ _ atMost_zero (by omega)
    · exact ih.write v 0 (by omega)
  · intro Ts es ss ps k _ ih
    exact ⟨rfl, fun v => ih.info k v, fun v => ih.room k v, fun v => ih.bound k v, fun v => ih.yields k v,
      fun v => ih.len k v, fun v => ih.write k v, fun hc v => ih.lenStop hc k v, fun hc v => ih.writeStop hc k v⟩
  · exact ⟨fun _ _ _ ha => ha, fun _ _ => Nat.le_refl _, fun _ _ _ _ _ => rfl, fun _ _ _ => rfl, fun _ _ _ => .inr rfl,
      fun _ _ _ => .done _⟩
  · intro T Ts t s p es ss ps tag _ _ ih1 ih2
    exact fieldsFollow_cons tag ih1 ih2
  · intro p
    exact ⟨fun _ v => v.elim, fun _ v => v.elim, fun _ v => v.elim, fun _ v => v.elim, fun _ v => v.elim,
      fun _ v => v.elim, fun _ _ v => v.elim, fun _ _ v => v.elim⟩
  · intro T Ts t s p es ss ps n dyn _ _ ih1 ih2
    exact variantsFollow_cons n dyn ih1 ih2

end Asn1

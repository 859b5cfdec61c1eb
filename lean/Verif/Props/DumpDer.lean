import Verif.Spec.DumpDer
import Verif.Props.AnyMethods
import Verif.Props.Recursive
import Verif.Proofs.Weight
import Verif.Proofs.Place
/-!
# The program `dump-der` (C139)
-/
namespace Asn1
open Spec

/-! ### What a part of the program prints -/

/-- The lines are those in `L`, and with each object in `P` (level, offset and object) its own. -/
def LinesOf (o : DumpOpts) (ls : List DumpLine) (L : DumpLine → Prop) (P : Nat → Nat → Any → Prop) : Prop :=
  ∀ line, line ∈ ls ↔ L line ∨ ∃ d s b, P d s b ∧ (Begins o b d s line ∨ Tells b d line)

/-- The offsets, from `lo` on and before `hi`, increase. -/
def Increase (ls : List DumpLine) (lo hi : Nat) : Prop :=
  (ls.filterMap offsetOf).Pairwise (· < ·) ∧ ∀ t ∈ ls.filterMap offsetOf, lo ≤ t ∧ t < hi

theorem increase_none {ls : List DumpLine} {lo hi : Nat} (h : ls.filterMap offsetOf = []) : Increase ls lo hi := by
  unfold Increase
  rw [h]
  exact ⟨.nil, fun _ h => (nomatch h)⟩

theorem increase_append {l1 l2 : List DumpLine} {lo mid hi : Nat} (h1 : Increase l1 lo mid) (h2 : Increase l2 mid hi)
    (hlo : lo ≤ mid) (hhi : mid ≤ hi) : Increase (l1 ++ l2) lo hi := by
  unfold Increase
  rw [List.filterMap_append]
  refine ⟨List.pairwise_append.mpr ⟨h1.1, h2.1, fun x hx y hy => ?_⟩, fun t ht => ?_⟩
  · have := (h1.2 x hx).2
    have := (h2.2 y hy).1
    omega
  · rcases List.mem_append.mp ht with h | h
    · have := h1.2 t h; omega
    · have := h2.2 t h; omega

theorem increase_mono {ls : List DumpLine} {lo hi lo' hi' : Nat} (h : Increase ls lo hi) (hlo : lo' ≤ lo) (hhi : hi ≤ hi') :
    Increase ls lo' hi' :=
  ⟨h.1, fun t ht => by have := h.2 t ht; omega⟩

theorem increase_cons {line : DumpLine} {ls : List DumpLine} {lo hi : Nat} (hl : offsetOf line = none)
    (h : Increase ls lo hi) : Increase (line :: ls) lo hi := by
  unfold Increase
  rw [List.filterMap_cons_none hl]
  exact h

/-- The lines in `L`, without errors, come first. -/
def Front (ls : List DumpLine) (L : DumpLine → Prop) : Prop :=
  ∃ own rest, ls = own ++ rest ∧ ∀ line, line ∈ own ↔ L line ∧ toStderr line = false

/-- The lines of each object in `P` are together. -/
def Blocks (o : DumpOpts) (ls : List DumpLine) (P : Nat → Nat → Any → Prop) : Prop :=
  ∀ d s b, P d s b → Together o b d s ls

theorem together_left {o : DumpOpts} {b : Any} {d s : Nat} {ls : List DumpLine} (l1 : List DumpLine)
    (h : Together o b d s ls) : Together o b d s (l1 ++ ls) := by
  obtain ⟨pre, oct, own, post, e, h1, h2⟩ := h
  exact ⟨l1 ++ pre, oct, own, post, by rw [e]; simp only [List.append_assoc], h1, h2⟩

theorem together_right {o : DumpOpts} {b : Any} {d s : Nat} {ls : List DumpLine} (l2 : List DumpLine)
    (h : Together o b d s ls) : Together o b d s (ls ++ l2) := by
  obtain ⟨pre, oct, own, post, e, h1, h2⟩ := h
  exact ⟨pre, oct, own, post ++ l2, by rw [e]; simp only [List.append_assoc], h1, h2⟩

theorem front_all {ls : List DumpLine} {L : DumpLine → Prop} (hl : ∀ line, line ∈ ls ↔ L line)
    (hf : ls.any toStderr = false) : Front ls L := by
  refine ⟨ls, [], (List.append_nil _).symm, fun line => ?_⟩
  rw [← hl]
  refine ⟨fun h => ⟨h, ?_⟩, (·.1)⟩
  have := List.any_eq_false.mp hf line h
  simpa using this

theorem front_nil {ls : List DumpLine} {L : DumpLine → Prop} (hl : ∀ line, L line → toStderr line = true) :
    Front ls L := by
  refine ⟨[], ls, rfl, fun line => ⟨fun h => (nomatch h), fun ⟨h1, h2⟩ => ?_⟩⟩
  rw [hl line h1] at h2
  cases h2

/-- What goes to the first output. -/
def printed (ls : List DumpLine) : List DumpLine := ls.filter fun l => !toStderr l

theorem printed_append (l1 l2 : List DumpLine) : printed (l1 ++ l2) = printed l1 ++ printed l2 := List.filter_append _ _

theorem printed_all {ls : List DumpLine} (h : ls.any toStderr = false) : printed ls = ls := by
  refine List.filter_eq_self.mpr fun l hl => ?_
  have := List.any_eq_false.mp h l hl
  simpa using this

/-- These are the blocks of the objects in `P`. -/
structure BlocksOf (o : DumpOpts) (bl : List Block) (P : Nat → Nat → Any → Prop) (lo hi : Nat) : Prop where
  good : ∀ x ∈ bl, x.Good o
  objects : ∀ b d s, (∃ x ∈ bl, x.obj = b ∧ x.level = d ∧ x.offset = s) ↔ P d s b
  order : bl.Pairwise fun x y => x.offset < y.offset
  bounds : ∀ x ∈ bl, lo ≤ x.offset ∧ x.offset < hi

/-- First the lines in `L`, each once, then the blocks. -/
def Arranged (o : DumpOpts) (ls : List DumpLine) (L : DumpLine → Prop) (P : Nat → Nat → Any → Prop) (lo hi : Nat) : Prop :=
  ∃ own bl, printed ls = own ++ (bl.map Block.lines).flatten ∧ own.Nodup ∧
    (∀ line, line ∈ own ↔ L line ∧ toStderr line = false) ∧ BlocksOf o bl P lo hi

theorem blocksOf_nil {o : DumpOpts} {P : Nat → Nat → Any → Prop} {lo hi : Nat} (hp : ∀ d s b, ¬ P d s b) :
    BlocksOf o [] P lo hi :=
  ⟨fun _ h => (nomatch h), fun b d s => ⟨fun ⟨_, h, _⟩ => (nomatch h), fun h => absurd h (hp d s b)⟩, .nil,
    fun _ h => (nomatch h)⟩

theorem blocksOf_mono {o : DumpOpts} {bl : List Block} {P : Nat → Nat → Any → Prop} {lo hi lo' hi' : Nat}
    (h : BlocksOf o bl P lo hi) (hlo : lo' ≤ lo) (hhi : hi ≤ hi') : BlocksOf o bl P lo' hi' :=
  ⟨h.good, h.objects, h.order, fun x hx => by have := h.bounds x hx; omega⟩

theorem blocksOf_append {o : DumpOpts} {b1 b2 : List Block} {P Q : Nat → Nat → Any → Prop} {lo mid hi : Nat}
    (h1 : BlocksOf o b1 P lo mid) (h2 : BlocksOf o b2 Q mid hi) (hlo : lo ≤ mid) (hhi : mid ≤ hi) :
    BlocksOf o (b1 ++ b2) (fun d s b => P d s b ∨ Q d s b) lo hi := by
  refine ⟨fun x hx => ?_, fun b d s => ?_, ?_, fun x hx => ?_⟩
  · exact (List.mem_append.mp hx).elim (h1.good x) (h2.good x)
  · rw [← h1.objects, ← h2.objects]
    constructor
    · rintro ⟨x, hx, h⟩
      exact (List.mem_append.mp hx).elim (fun hx => .inl ⟨x, hx, h⟩) (fun hx => .inr ⟨x, hx, h⟩)
    · rintro (⟨x, hx, h⟩ | ⟨x, hx, h⟩)
      · exact ⟨x, List.mem_append.mpr (.inl hx), h⟩
      · exact ⟨x, List.mem_append.mpr (.inr hx), h⟩
  · refine List.pairwise_append.mpr ⟨h1.order, h2.order, fun x hx y hy => ?_⟩
    have := h1.bounds x hx
    have := h2.bounds y hy
    omega
  · rcases List.mem_append.mp hx with hx | hx
    · have := h1.bounds x hx; omega
    · have := h2.bounds x hx; omega

/-- Either `ok` holds, all objects in `P` can be shown and they are, or it panics. -/
def Dumps (o : DumpOpts) (x : Except PErr (List DumpLine)) (ok : Prop) (L : DumpLine → Prop)
    (P : Nat → Nat → Any → Prop) (lo hi : Nat) : Prop :=
  (∃ ls, x = .ok ls ∧ ok ∧ (∀ d s b, P d s b → CanShow b) ∧ LinesOf o ls L P ∧ Increase ls lo hi ∧
    Front ls L ∧ Blocks o ls P ∧ Arranged o ls L P lo hi) ∨
  (x = .error .panic ∧ (¬ ok ∨ ∃ d s b, P d s b ∧ ¬ CanShow b))

section
variable {o : DumpOpts} {x : Except PErr (List DumpLine)} {ok : Prop} {L : DumpLine → Prop}
  {P : Nat → Nat → Any → Prop} {lo hi : Nat}

theorem dumps_congr {Q : Nat → Nat → Any → Prop}
    (h : ∀ d s b, P d s b ↔ Q d s b) (hx : Dumps o x ok L P lo hi) : Dumps o x ok L Q lo hi := by
  have : P = Q := by funext d s b; exact propext (h d s b)
  rwa [← this]

theorem dumps_lines {M : DumpLine → Prop}
    (h : ∀ line, L line ↔ M line) (hx : Dumps o x ok L P lo hi) : Dumps o x ok M P lo hi := by
  have : L = M := by funext line; exact propext (h line)
  rwa [← this]

theorem dumps_mono (hk : True → ok) (hx : Dumps o x True L P lo hi) : Dumps o x ok L P lo hi := by
  rcases hx with ⟨ls, h1, _, h2⟩ | ⟨h1, h2 | h2⟩
  · exact .inl ⟨ls, h1, hk trivial, h2⟩
  · exact absurd trivial h2
  · exact .inr ⟨h1, .inr h2⟩

theorem dumps_none {ls : List DumpLine} (hk : ok) (hl : ∀ line, line ∈ ls ↔ L line)
    (hf : Front ls L) (ha : ∃ own, printed ls = own ∧ own.Nodup ∧ ∀ line, line ∈ own ↔ L line ∧ toStderr line = false)
    (hi' : ls.filterMap offsetOf = []) (hp : ∀ d s b, ¬ P d s b) : Dumps o (.ok ls) ok L P lo hi :=
  .inl ⟨ls, rfl, hk, fun d s b h => absurd h (hp d s b), fun line =>
    ⟨fun h' => .inl ((hl line).mp h'), fun h => h.elim (hl line).mpr fun ⟨d, s, b, h', _⟩ => absurd h' (hp d s b)⟩,
    increase_none hi', hf, fun d s b h => absurd h (hp d s b), by
      obtain ⟨own, h1, h2, h3⟩ := ha
      exact ⟨own, [], by rw [h1]; exact (List.append_nil _).symm, h2, h3, blocksOf_nil hp⟩⟩

/-- The same, if there are no errors. -/
theorem dumps_leaf {ls : List DumpLine} (hk : ok) (hl : ∀ line, line ∈ ls ↔ L line)
    (hf : ls.any toStderr = false) (hd : ls.Nodup) (hi' : ls.filterMap offsetOf = []) (hp : ∀ d s b, ¬ P d s b) :
    Dumps o (.ok ls) ok L P lo hi := by
  refine dumps_none hk hl (front_all hl hf) ⟨ls, printed_all hf, hd, fun line => ?_⟩ hi' hp
  rw [← hl]
  refine ⟨fun h => ⟨h, ?_⟩, (·.1)⟩
  have := List.any_eq_false.mp hf line h
  simpa using this

theorem dumps_panic (hk : ¬ ok) : Dumps o (.error .panic) ok L P lo hi :=
  .inr ⟨rfl, .inl hk⟩

/-- One more line, which is not about an object. -/
theorem dumps_cons {line : DumpLine} (hl : offsetOf line = none) (hf : toStderr line = false) {lo' hi' : Nat} (hlo : lo ≤ lo') (hhi : hi' ≤ hi)
    (hx : Dumps o x True (fun _ => False) P lo' hi') (hk : ok) (hL : ∀ line', L line' ↔ line' = line) :
    Dumps o (x >>= fun ls => pure (line :: ls)) ok L P lo hi := by
  rcases hx with ⟨ls, rfl, _, h2, h3, h4, _, h6, own, bl, a1, _, a3, a4⟩ | ⟨rfl, h⟩
  · refine .inl ⟨line :: ls, rfl, hk, h2, fun line' => ?_, increase_cons hl (increase_mono h4 hlo hhi),
      ⟨[line], ls, rfl, fun line' => ?_⟩, fun d s b h => together_left [line] (h6 d s b h), [line], bl, ?_, List.nodup_cons.mpr ⟨by simp, .nil⟩,
      fun line' => ?_, blocksOf_mono a4 hlo hhi⟩
    · rw [List.mem_cons, h3, hL, false_or]
    · rw [List.mem_singleton, hL]
      exact ⟨fun h => ⟨h, h ▸ hf⟩, (·.1)⟩
    · have e : own = [] := by
        cases own with
        | nil => rfl
        | cons y ys => exact ((a3 y).mp (.head _)).1.elim
      rw [e] at a1
      show printed ([line] ++ ls) = _
      rw [printed_append, a1, printed_all (by simp [hf])]
      rfl
    · rw [List.mem_singleton, hL]
      exact ⟨fun h => ⟨h, h ▸ hf⟩, (·.1)⟩
  · refine .inr ⟨rfl, .inr ?_⟩
    rcases h with h | h
    · exact absurd trivial h
    · exact h

theorem hexLines_offset (d : Nat) (bs : Bytes) : offsetOf (hexLines d bs) = none := rfl

theorem hexLines_iff {d : Nat} {bs : Bytes} {line : DumpLine} : line = hexLines d bs ↔ HexOf d bs line := by
  unfold hexLines HexOf
  by_cases h : bs.length ≤ 64
  · rw [if_neg (by omega), Nat.min_eq_left h, List.take_length]
    simp [h, Nat.not_lt.mpr h]
  · rw [if_pos (by omega), Nat.min_eq_right (by omega)]
    simp [h, Nat.lt_of_not_le h]

theorem unwrap_ok {α : Type} {x : Except SErr α} (hx : NoPanicS x) :
    (∃ v, x = .ok v ∧ unwrapOrPanic x = .ok v) ∨ ((¬ ∃ v, x = .ok v) ∧ unwrapOrPanic x = .error .panic) := by
  cases x with
  | ok v => exact .inl ⟨v, rfl, rfl⟩
  | error e =>
    refine .inr ⟨fun ⟨v, h⟩ => (nomatch h), ?_⟩
    cases e with
    | diverge => exact absurd rfl hx.2
    | _ => rfl

theorem dumps_value {α : Type} {x : Except SErr α} (hx : NoPanicS x)
    (hp : ∀ d s b, ¬ P d s b) (hk : ok ↔ ∃ v, x = .ok v) (depth : Nat) (f : α → DumpValue)
    (hL : ∀ line, L line ↔ ∃ v, x = .ok v ∧ line = .value (depth + 1) (f v)) :
    Dumps o (dumpValue depth f x) ok L P lo hi := by
  unfold dumpValue
  rcases unwrap_ok hx with ⟨v, h1, h2⟩ | ⟨h1, h2⟩
  · rw [h2]
    refine dumps_leaf (hk.mpr ⟨v, h1⟩) (fun line => ?_) rfl (by simp) rfl hp
    rw [hL, List.mem_singleton]
    constructor
    · exact fun h => ⟨v, h1, h⟩
    · rintro ⟨w, hw, h⟩
      rw [h1] at hw
      injection hw with hw
      rw [h, hw]
  · rw [h2]
    exact dumps_panic fun h => h1 (hk.mp h)

end

/-! ### The object inside -/

theorem derAny_safe (i : Input) : NoPanic (anyDer.parseDer i) := by
  rw [anyDer_parseDer]
  exact ⟨good_parseDerAny.noPanic i, good_parseDerAny.noDiverge i⟩

theorem dumpInner_cases (i : Input) :
    (∃ b, SoleObject i b ∧ dumpInner i = .ok (some b)) ∨ ((∀ b, ¬ SoleObject i b) ∧ dumpInner i = .ok none) := by
  unfold dumpInner
  have hs := derAny_safe i
  cases h : anyDer.parseDer i with
  | ok x =>
    obtain ⟨r, a⟩ := x
    by_cases hr : r.data = []
    · exact .inl ⟨a, ⟨r, h, hr⟩, by simp [Input.isEmpty, hr]⟩
    · refine .inr ⟨fun b ⟨r', h', hr'⟩ => ?_, by simp [Input.isEmpty, hr]⟩
      rw [h] at h'
      injection h' with h'; injection h' with h1 h2
      subst h1
      exact hr hr'
  | error e =>
    refine .inr ⟨fun b ⟨r', h', _⟩ => ?_, ?_⟩
    · rw [h] at h'; cases h'
    · cases e with
      | panic => exact absurd h hs.1
      | diverge => exact absurd h hs.2
      | _ => rfl

theorem sole_unique {i : Input} {a b : Any} (ha : SoleObject i a) (hb : SoleObject i b) : a = b := by
  obtain ⟨r, h, _⟩ := ha
  obtain ⟨r', h', _⟩ := hb
  rw [h] at h'
  injection h' with h'; injection h'

/-- An object that was read. -/
def WasRead (a : Any) : Prop := ∃ i r, anyDer.parseDer i = .ok (r, a)

theorem sole_read {i : Input} {a : Any} (h : SoleObject i a) : WasRead a := by
  obtain ⟨r, h, _⟩ := h
  exact ⟨i, r, h⟩

theorem read_raw {a : Any} (h : WasRead a) : ∃ raw, a.header.rawHeader = some raw := by
  obtain ⟨i, r, h⟩ := h
  rw [anyDer_parseDer] at h
  obtain ⟨r1, n, h1, _⟩ := parseDerAny_ok.mp h
  obtain ⟨_, _, _, _, _, _, _, h2⟩ := parseHeader_ok.mp h1
  exact ⟨_, h2⟩

theorem read_len {i r : Input} {a : Any} (h : anyDer.parseDer i = .ok (r, a)) :
    2 + r.data.length + a.data.data.length ≤ i.data.length := by
  rw [anyDer_parseDer] at h
  exact derAny_len h

theorem sole_len {i : Input} {a : Any} (h : SoleObject i a) : a.data.data.length < i.data.length := by
  obtain ⟨r, h, _⟩ := h
  have := read_len h
  omega

/-- Where the object that is read is, and what follows it. -/
theorem read_place {i r : Input} {a : Any} (h : anyDer.parseDer i = .ok (r, a)) :
    i.start + 2 ≤ a.data.start ∧ r.start = a.data.start + a.data.data.length ∧
      r.start + r.data.length = i.start + i.data.length := by
  have hlen := read_len h
  rw [anyDer_parseDer] at h
  obtain ⟨r1, n, h1, _, hn, h2, h3⟩ := parseDerAny_ok.mp h
  obtain ⟨ident, len, _, _, e1, e2, _, _⟩ := parseHeader_ok.mp h1
  have e3 := congrArg List.length e1
  have e4 : r.data.length = r1.data.length - n := by rw [h2, after_data, List.length_drop]
  have e5 : a.data.data.length = n := by rw [h3]; exact List.length_take_of_le hn
  have e6 : a.data.start = r1.start := by rw [h3]; rfl
  have e7 : r1.start = i.start + (ident.length + len.length) := by rw [e2]; rfl
  have e8 : r.start = r1.start + n := by rw [h2]; rfl
  simp only [List.length_append] at e3
  omega

/-- The object is between `lo` and `hi`, and `s` is before its content. -/
def Between (s : Nat) (a : Any) (lo hi : Nat) : Prop :=
  lo ≤ s ∧ s < a.data.start ∧ a.data.start + a.data.data.length ≤ hi

theorem sole_between {i : Input} {a : Any} (h : SoleObject i a) :
    Between i.start a i.start (i.start + i.data.length) := by
  obtain ⟨r, h, _⟩ := h
  have := read_place h
  unfold Between
  omega

theorem listed_len {i : Input} {s : Nat} {a : Any} (h : Listed i s a) :
    a.data.data.length < i.data.length ∧ WasRead a ∧ Between s a i.start (i.start + i.data.length) := by
  unfold Between
  induction h with
  | here h => exact ⟨by have := read_len h; omega, ⟨_, _, h⟩, by have := read_place h; omega⟩
  | later h _ ih => exact ⟨by have := read_len h; omega, ih.2.1, by have := read_place h; omega⟩

theorem shownIn_len {bits : Bool} {a b : Any} {k s : Nat} (h : ShownIn bits a k s b) :
    b.data.data.length < a.data.data.length ∧ WasRead b ∧
      Between s b a.data.start (a.data.start + a.data.data.length) := by
  cases h with
  | tagged _ h => exact ⟨sole_len h, sole_read h, sole_between h⟩
  | octetString _ _ h => exact ⟨sole_len h, sole_read h, sole_between h⟩
  | bitString _ _ _ hv h =>
    obtain ⟨r, hv⟩ := anyInto_ok.mp hv
    have h1 := sole_len h
    have h2 := bit_len hv
    have h3 := sole_between h
    exact ⟨Nat.lt_of_lt_of_le h1 h2, sole_read h, h3.1, h3.2.1, Nat.le_trans h3.2.2 (Nat.add_le_add_left h2 _)⟩
  | item _ _ h => exact listed_len h

/-! ### The items -/

theorem stops_nil {i : Input} {e : PErr} (h : StopsWith i e) : i.data ≠ [] := by
  cases h with
  | bad h0 _ => exact h0
  | short h0 _ => exact h0
  | later h _ =>
    intro h0
    have := read_len h
    rw [h0] at this
    simp at this

/-- The error that the iterator gives. -/
theorem stops_err {i : Input} {e : PErr} (h0 : i.data ≠ []) (hp : anyDer.parseDer i = .error e) :
    ∃ j f, (AnyIter.mk i false).next anyDer.parseDer = .ok (some (.err j f), ⟨i, true⟩) ∧
      ∀ e', StopsWith i e' ↔ e' = .error j f := by
  have hs := derAny_safe i
  have hn : ∀ {e'}, StopsWith i e' → (∃ j f, e = .error j f ∧ e' = .error j f) ∨
      ∃ n, e = .incomplete n ∧ e' = .error i (.incomplete (.size n)) := by
    intro e' h
    cases h with
    | bad _ h =>
      rw [hp] at h
      injection h with h
      exact .inl ⟨_, _, h, rfl⟩
    | short _ h =>
      rw [hp] at h
      injection h with h
      exact .inr ⟨_, h, rfl⟩
    | later h _ => rw [hp] at h; cases h
  unfold AnyIter.next
  rw [if_neg (by simp [Input.isEmpty, h0])]
  simp only [hp]
  cases e with
  | panic => exact absurd hp hs.1
  | diverge => exact absurd hp hs.2
  | incomplete n =>
    refine ⟨_, _, rfl, fun e' => ⟨fun h => ?_, fun h => h ▸ .short h0 hp⟩⟩
    rcases hn h with ⟨j, f, h, _⟩ | ⟨m, h, h'⟩
    · cases h
    · injection h with h
      rw [h', h]
  | error j f =>
    refine ⟨_, _, rfl, fun e' => ⟨fun h => ?_, fun h => h ▸ .bad h0 hp⟩⟩
    rcases hn h with ⟨j', f', h, h'⟩ | ⟨m, h, _⟩
    · injection h with h1 h2
      rw [h', h1, h2]
    · cases h

theorem stderr_none {i : Input} {depth : Nat} (line : DumpLine) :
    line ∈ ([] : List DumpLine) ↔ (∃ e, StopsWith i e ∧ line = .failed depth e) ∧ toStderr line = false := by
  refine ⟨fun h => (nomatch h), ?_⟩
  rintro ⟨⟨e, _, rfl⟩, h⟩
  cases h

/-- What `shows` prints of the items. -/
theorem dumps_items {o : DumpOpts} {shows : Nat → Any → Except PErr (List DumpLine)}
    {P : Nat → Any → Nat → Nat → Any → Prop}
    (depth : Nat) (fuel : Nat) (i : Input) (hf : i.data.length < fuel)
    (hs : ∀ t c, Listed i t c →
      Dumps o (shows t c) True (fun _ => False) (P t c) t (c.data.start + c.data.data.length)) :
    Dumps o (dumpItems shows depth fuel ⟨i, false⟩) True (fun line => ∃ e, StopsWith i e ∧ line = .failed depth e)
      (fun d s b => ∃ t c, Listed i t c ∧ P t c d s b) i.start (i.start + i.data.length) := by
  induction fuel generalizing i with
  | zero => omega
  | succ fuel ih =>
    unfold dumpItems
    by_cases h0 : i.data = []
    · rw [next_nil h0]
      refine dumps_none trivial (fun line => ?_) (front_nil (by rintro _ ⟨_, _, rfl⟩; rfl))
        ⟨[], rfl, .nil, stderr_none⟩ rfl fun d s b ⟨t, c, h, _⟩ => ?_
      · simp only [List.not_mem_nil, false_iff]
        rintro ⟨e, h, _⟩
        exact stops_nil h h0
      · have := (listed_len h).1
        rw [h0] at this
        exact absurd this (by simp)
    · cases hp : anyDer.parseDer i with
      | error e =>
        obtain ⟨j, f, h, he⟩ := stops_err h0 hp
        rw [h]
        have hn : ∀ d s b, ¬ ∃ t c, Listed i t c ∧ P t c d s b := by
          rintro d s b ⟨t, c, h, _⟩
          cases h with
          | here h => rw [hp] at h; cases h
          | later h _ => rw [hp] at h; cases h
        cases fuel with
        | zero => exact absurd (List.length_eq_zero_iff.mp (Nat.lt_one_iff.mp hf)) h0
        | succ fuel =>
          show Dumps o (dumpItems shows depth (fuel + 1) ⟨i, true⟩ >>= fun rest =>
            pure (DumpLine.failed depth (.error j f) :: rest)) True _ _ _ _
          have h' : dumpItems shows depth (fuel + 1) ⟨i, true⟩ = .ok [] := by
            unfold dumpItems
            rw [next_fused]
          rw [h']
          refine dumps_none trivial (fun line => ?_) (front_nil (by rintro _ ⟨_, _, rfl⟩; rfl))
            ⟨[], rfl, .nil, stderr_none⟩ rfl hn
          simp only [he, List.mem_singleton, exists_eq_left]
      | ok x =>
        obtain ⟨r, a⟩ := x
        rw [next_ok objParser_der h0 hp]
        have hlen := read_len hp
        have hpl := read_place hp
        have h1 := hs i.start a (.here hp)
        have h2 := ih r (by omega) fun t c h => hs t c (.later hp h)
        show Dumps o (shows i.start a >>= fun ls => dumpItems shows depth fuel ⟨r, false⟩ >>= fun rest =>
          pure (ls ++ rest)) True _ _ _ _
        have hsplit : ∀ d s b, (∃ t c, Listed i t c ∧ P t c d s b) ↔
            P i.start a d s b ∨ ∃ t c, Listed r t c ∧ P t c d s b := by
          intro d s b
          constructor
          · rintro ⟨t, c, h, hq⟩
            cases h with
            | here h =>
              rw [hp] at h
              injection h with h; injection h with _ h
              subst h
              exact .inl hq
            | later h h' =>
              rw [hp] at h
              injection h with h; injection h with h _
              subst h
              exact .inr ⟨t, c, h', hq⟩
          · rintro (h | ⟨t, c, h, hq⟩)
            · exact ⟨_, _, .here hp, h⟩
            · exact ⟨t, c, .later hp h, hq⟩
        have hstop : ∀ line, (∃ e, StopsWith r e ∧ line = DumpLine.failed depth e) ↔
            ∃ e, StopsWith i e ∧ line = .failed depth e := by
          intro line
          constructor
          · rintro ⟨e, h, h'⟩
            exact ⟨e, .later hp h, h'⟩
          · rintro ⟨e, h, h'⟩
            cases h with
            | bad _ h => rw [hp] at h; cases h
            | short _ h => rw [hp] at h; cases h
            | later h he =>
              rw [hp] at h
              injection h with h; injection h with h _
              subst h
              exact ⟨e, he, h'⟩
        refine dumps_congr (fun d s b => (hsplit d s b).symm) (dumps_lines hstop ?_)
        rcases h1 with ⟨ls, e1, _, g1, g2, k1, _, b1, o1, bl1, p1, _, q1, r1⟩ | ⟨e1, h1⟩
        · rw [e1]
          rcases h2 with ⟨rest, e2, _, g3, g4, k2, _, b2, o2, bl2, p2, _, q2, r2⟩ | ⟨e2, h2⟩
          · rw [bind_ok, e2]
            refine .inl ⟨ls ++ rest, rfl, trivial, fun d s b h => h.elim (g1 d s b) (g3 d s b), fun line => ?_,
              increase_append k1 (hpl.2.1 ▸ increase_mono k2 (Nat.le_refl _) (Nat.le_of_eq hpl.2.2))
                (by omega) (by omega),
              front_nil (by rintro _ ⟨_, _, rfl⟩; rfl), fun d s b h => h.elim
                (fun h => together_right _ (b1 d s b h)) (fun h => together_left _ (b2 d s b h)),
              [], bl1 ++ bl2, ?_, .nil, stderr_none,
              blocksOf_append r1 (hpl.2.1 ▸ blocksOf_mono r2 (Nat.le_refl _) (Nat.le_of_eq hpl.2.2))
                (by omega) (by omega)⟩
            case refine_2 =>
              have f1 : o1 = [] := by
                cases o1 with
                | nil => rfl
                | cons y ys => exact ((q1 y).mp (.head _)).1.elim
              have f2 : o2 = [] := by
                cases o2 with
                | nil => rfl
                | cons y ys => cases (stderr_none y).mpr ((q2 y).mp (.head _))
              rw [printed_append, p1, p2, f1, f2]
              simp
            rw [List.mem_append, g2, g4]
            constructor
            · rintro ((h | ⟨d, s, b, h1, h2⟩) | h | ⟨d, s, b, h1, h2⟩)
              · exact h.elim
              · exact .inr ⟨d, s, b, .inl h1, h2⟩
              · exact .inl h
              · exact .inr ⟨d, s, b, .inr h1, h2⟩
            · rintro (h | ⟨d, s, b, h1 | h1, h2⟩)
              · exact .inr (.inl h)
              · exact .inl (.inr ⟨d, s, b, h1, h2⟩)
              · exact .inr (.inr ⟨d, s, b, h1, h2⟩)
          · rw [bind_ok, e2]
            refine .inr ⟨rfl, .inr ?_⟩
            rcases h2 with h2 | ⟨d, s, b, h2, h3⟩
            · exact absurd trivial h2
            · exact ⟨d, s, b, .inr h2, h3⟩
        · rw [e1]
          refine .inr ⟨rfl, .inr ?_⟩
          rcases h1 with h1 | ⟨d, s, b, h1, h3⟩
          · exact absurd trivial h1
          · exact ⟨d, s, b, .inl h1, h3⟩

/-! ### One object -/

/-- What is seen inside of an object. -/
def Below (a : Any) (d : Nat) (d' s' : Nat) (b : Any) : Prop :=
  ∃ k t c, ShownIn true a k t c ∧ Seen true c (d + k) t b d' s'

theorem below_leaf {a : Any} (hc : a.header.cls = .universal)
    (ht : a.header.tag ≠ 3 ∧ a.header.tag ≠ 4 ∧ a.header.tag ≠ 16 ∧ a.header.tag ≠ 17) (d d' s' : Nat) (b : Any) :
    ¬ Below a d d' s' b := by
  rintro ⟨k, t, c, h, _⟩
  cases h with
  | tagged h => rw [hc] at h; rcases h with h | h <;> cases h
  | octetString _ h => exact ht.2.1 h
  | bitString _ _ h => exact ht.1 h
  | item _ h => rcases h with h | h <;> omega

/-- The only object inside. -/
theorem below_sole {a c : Any} {k t : Nat} (h : ShownIn true a k t c)
    (hu : ∀ k' t' c', ShownIn true a k' t' c' → k' = k ∧ t' = t ∧ c' = c) (d d' s' : Nat) (b : Any) :
    Seen true c (d + k) t b d' s' ↔ Below a d d' s' b := by
  constructor
  · exact fun h' => ⟨k, t, c, h, h'⟩
  · rintro ⟨k', t', c', h1, h2⟩
    obtain ⟨rfl, rfl, rfl⟩ := hu _ _ _ h1
    exact h2

/-- How the objects inside are printed. -/
def ShowsBelow (o : DumpOpts) (shows : Nat → Any → Nat → Except PErr (List DumpLine)) (a : Any) (d : Nat) : Prop :=
  ∀ k t c, ShownIn true a k t c → Dumps o (shows t c (d + k)) True (fun _ => False)
    (fun d' s' b => Seen true c (d + k) t b d' s') t (c.data.start + c.data.data.length)

theorem dumps_universal {o : DumpOpts} {shows : Nat → Any → Nat → Except PErr (List DumpLine)} (a : Any) (d : Nat)
    (hc : a.header.cls = .universal) (hs : ShowsBelow o shows a d) :
    Dumps o (dumpUniversal shows a d) (CanShow a) (Tells a d) (Below a d) a.data.start
      (a.data.start + a.data.data.length) := by
  have conv : ∀ {α : Type} {p : Parser α} {tag : Nat}, Convertible p tag → tag ≠ 9 → NoPanicS (anyInto p a) :=
    fun hp h9 => C85_no_panic hp h9 a
  have str : ∀ {k : StrKind} {tag : Nat} {A : Char → Bool}, StringType k tag A → tag ≠ 9 →
      NoPanicS (anyInto (strBer k) a) := fun {k} {tag} {A} hk h9 =>
    conv (tag := k.tag) (.universal (c := strC k) (.text hk)) (by cases hk <;> simp_all [utf8StringK, numericStringK, printableStringK, teletexStringK, videotexStringK, ia5StringK, graphicStringK, visibleStringK, generalStringK, objectDescriptorK])
  unfold dumpUniversal
  split
  case h_1 ht =>
    exact dumps_value (x := anyInto boolBer a) (conv (.universal (c := boolC) .bool) (by decide)) (below_leaf hc (by omega) d)
      (by simp [CanShow, hc, ht]) d _ (fun line => by simp only [Tells, hc, ht])
  case h_2 ht =>
    have hk : CanShow a ↔ ∃ v, anyInto integerBer a = .ok v := by simp [CanShow, hc, ht]
    rcases unwrap_ok (conv (.universal (c := integerC) .integer) (by decide)) with ⟨v, h1, h2⟩ | ⟨h1, h2⟩
    · have h1 : anyInto integerBer a = .ok v := h1
      have h2 : unwrapOrPanic (anyInto integerBer a) = .ok v := h2
      rw [h2, bind_ok]
      have hm : NoPanicS (Integer.asMachine (intBer 16) v) :=
        safe_tryFromAny ((fine_universal (real := false) (.int 16 (by decide))).safe rfl).1 _
      have hT : ∀ line, Tells a d line ↔
          (∃ n, Integer.asMachine (intBer 16) v = .ok n ∧ line = .value (d + 1) (.int n)) ∨
          ((∀ n, Integer.asMachine (intBer 16) v ≠ .ok n) ∧ HexOf (d + 1) v.data line) := by
        intro line
        simp [Tells, hc, ht, h1]
      cases hx : Integer.asMachine (intBer 16) v with
      | ok n =>
        refine dumps_leaf (hk.mpr ⟨v, h1⟩) (fun line => ?_) rfl (by simp) rfl (below_leaf hc (by omega) d)
        rw [hT, hx]
        simp
      | error e =>
        cases e with
        | panic => exact absurd hx hm.1
        | diverge => exact absurd hx hm.2
        | _ =>
          refine dumps_leaf (hk.mpr ⟨v, h1⟩) (fun line => ?_) rfl (by simp) rfl (below_leaf hc (by omega) d)
          rw [hT, hx, ← hexLines_iff]
          simp
    · have h2 : unwrapOrPanic (anyInto integerBer a) = .error .panic := h2
      rw [h2]
      exact dumps_panic fun h => h1 (hk.mp h)
  case h_3 ht =>
    have hk : CanShow a ↔ ∃ v, anyInto bitBer a = .ok v := by simp [CanShow, hc, ht]
    rcases unwrap_ok (conv (.universal (c := bitC) .bitString) (by decide)) with ⟨v, h1, h2⟩ | ⟨h1, h2⟩
    · have h1 : anyInto bitBer a = .ok v := h1
      have h2 : unwrapOrPanic (anyInto bitBer a) = .ok v := h2
      rw [h2, bind_ok]
      have hT : ∀ line, Tells a d line ↔
          ((∃ b, SoleObject ⟨v.raw, a.data.start, a.data.stop⟩ b) ∧ line = .encapsulates (d + 1)) ∨
         ((∀ b, ¬ SoleObject ⟨v.raw, a.data.start, a.data.stop⟩ b) ∧
           ((v.bits.length < 64 ∧ line = .value (d + 1) (.bits v.bits.reverse)) ∨
            (64 ≤ v.bits.length ∧ HexOf (d + 1) v.raw line))) := by
        intro line
        simp only [Tells, hc, ht, h1, Except.ok.injEq, exists_eq_left']
      have hu : ∀ k' t' c', ShownIn true a k' t' c' →
          k' = 1 ∧ t' = a.data.start ∧ SoleObject ⟨v.raw, a.data.start, a.data.stop⟩ c' := by
        intro k' t' c' h
        cases h with
        | tagged h => rw [hc] at h; rcases h with h | h <;> cases h
        | octetString _ h => omega
        | bitString _ _ _ hv h =>
          rw [h1] at hv
          injection hv with hv
          subst hv
          exact ⟨rfl, rfl, h⟩
        | item _ h => rcases h with h | h <;> omega
      rcases dumpInner_cases ⟨v.raw, a.data.start, a.data.stop⟩ with ⟨c, g1, g2⟩ | ⟨g1, g2⟩
      · rw [g2, bind_ok]
        have hin : ShownIn true a 1 a.data.start c := .bitString rfl hc ht h1 g1
        refine dumps_cons rfl rfl (Nat.le_refl _) (shownIn_len hin).2.2.2.2 ?_ (hk.mpr ⟨v, h1⟩) (fun line => ?_)
        · exact dumps_congr ((below_sole hin fun k' t' c' h =>
            ⟨(hu _ _ _ h).1, (hu _ _ _ h).2.1, sole_unique (hu _ _ _ h).2.2 g1⟩) d) (hs _ _ _ hin)
        · rw [hT]
          exact ⟨fun h => h.elim (·.2) fun h => absurd g1 (h.1 c), fun h => .inl ⟨⟨c, g1⟩, h⟩⟩
      · rw [g2, bind_ok]
        have hn : ∀ d' s' b, ¬ Below a d d' s' b := fun d' s' b ⟨k, t, c, h, _⟩ => g1 c (hu _ _ _ h).2.2
        have hT' : ∀ line, Tells a d line ↔ (v.bits.length < 64 ∧ line = .value (d + 1) (.bits v.bits.reverse)) ∨
            (64 ≤ v.bits.length ∧ HexOf (d + 1) v.raw line) := by
          intro line
          rw [hT]
          exact ⟨fun h => h.elim (fun ⟨⟨b, h⟩, _⟩ => absurd h (g1 b)) (·.2), fun h => .inr ⟨g1, h⟩⟩
        simp only
        split
        case isTrue hlt =>
          refine dumps_leaf (hk.mpr ⟨v, h1⟩) (fun line => ?_) rfl (by simp) rfl hn
          rw [hT', List.mem_singleton]
          exact ⟨fun h => .inl ⟨hlt, h⟩, fun h => h.elim (·.2) fun h => by omega⟩
        case isFalse hlt =>
          refine dumps_leaf (hk.mpr ⟨v, h1⟩) (fun line => ?_) rfl (by simp) rfl hn
          rw [hT', ← hexLines_iff, List.mem_singleton]
          exact ⟨fun h => .inr ⟨Nat.le_of_not_lt hlt, h⟩, fun h => h.elim (fun h => absurd h.1 hlt) (·.2)⟩
    · have h2 : unwrapOrPanic (anyInto bitBer a) = .error .panic := h2
      rw [h2]
      exact dumps_panic fun h => h1 (hk.mp h)
  case h_4 ht =>
    have hk : CanShow a ↔ (∃ b, SoleObject a.data b) ∨ ∃ v, anyInto octetBer a = .ok v := by simp [CanShow, hc, ht]
    have hT : ∀ line, Tells a d line ↔ ((∃ b, SoleObject a.data b) ∧ line = .encapsulates (d + 1)) ∨
        ((∀ b, ¬ SoleObject a.data b) ∧ ∃ v, anyInto octetBer a = .ok v ∧ HexOf (d + 1) v line) := by
      intro line
      simp only [Tells, hc, ht]
    have hu : ∀ k' t' c', ShownIn true a k' t' c' → k' = 1 ∧ t' = a.data.start ∧ SoleObject a.data c' := by
      intro k' t' c' h
      cases h with
      | tagged h => rw [hc] at h; rcases h with h | h <;> cases h
      | octetString _ _ h => exact ⟨rfl, rfl, h⟩
      | bitString _ _ h => omega
      | item _ h => rcases h with h | h <;> omega
    rcases dumpInner_cases a.data with ⟨c, g1, g2⟩ | ⟨g1, g2⟩
    · rw [g2, bind_ok]
      have hin : ShownIn true a 1 a.data.start c := .octetString hc ht g1
      refine dumps_cons rfl rfl (Nat.le_refl _) (shownIn_len hin).2.2.2.2 ?_ (hk.mpr (.inl ⟨c, g1⟩)) (fun line => ?_)
      · exact dumps_congr ((below_sole hin fun k' t' c' h =>
          ⟨(hu _ _ _ h).1, (hu _ _ _ h).2.1, sole_unique (hu _ _ _ h).2.2 g1⟩) d) (hs _ _ _ hin)
      · rw [hT]
        exact ⟨fun h => h.elim (·.2) fun h => absurd g1 (h.1 c), fun h => .inl ⟨⟨c, g1⟩, h⟩⟩
    · rw [g2, bind_ok]
      have hn : ∀ d' s' b, ¬ Below a d d' s' b := fun d' s' b ⟨k, t, c, h, _⟩ => g1 c (hu _ _ _ h).2.2
      rcases unwrap_ok (conv (.universal (c := octetC) .octetString) (by decide)) with ⟨v, h1, h2⟩ | ⟨h1, h2⟩
      · have h1 : anyInto octetBer a = .ok v := h1
        have h2 : unwrapOrPanic (anyInto octetBer a) = .ok v := h2
        simp only
        rw [h2]
        refine dumps_leaf (hk.mpr (.inr ⟨v, h1⟩)) (fun line => ?_) rfl (by simp) rfl hn
        rw [hT, List.mem_singleton, hexLines_iff]
        constructor
        · exact fun h => .inr ⟨g1, v, h1, h⟩
        · rintro (⟨⟨b, h⟩, _⟩ | ⟨_, w, hw, h⟩)
          · exact absurd h (g1 b)
          · rw [h1] at hw
            injection hw with hw
            rwa [hw]
      · have h2 : unwrapOrPanic (anyInto octetBer a) = .error .panic := h2
        simp only
        rw [h2]
        refine dumps_panic fun h => ?_
        rcases hk.mp h with ⟨b, h⟩ | h
        · exact g1 b h
        · exact h1 h
  case h_5 ht =>
    exact dumps_leaf (by simp [CanShow, hc, ht]) (by simp [Tells, hc, ht]) rfl (by simp) rfl (below_leaf hc (by omega) d)
  case h_6 ht =>
    exact dumps_value (x := anyInto oidP a) (conv (.universal (c := oidC) .oid) (by decide)) (below_leaf hc (by omega) d)
      (by simp [CanShow, hc, ht]) d _ (by simp [Tells, hc, ht])
  case h_7 ht =>
    exact dumps_value (x := anyInto enumeratedBer a) (conv (.universal (c := enumC) .enumerated) (by decide)) (below_leaf hc (by omega) d)
      (by simp [CanShow, hc, ht]) d _ (by simp [Tells, hc, ht])
  case h_8 ht =>
    have hk : CanShow a ↔ ∃ v, anyInto pdvP a = .ok v := by simp [CanShow, hc, ht]
    rcases unwrap_ok (conv .embeddedPdv (by decide)) with ⟨v, h1, h2⟩ | ⟨h1, h2⟩
    · rw [h2]
      refine dumps_leaf (hk.mpr ⟨v, h1⟩) (fun line => ?_) rfl (by simp [hexLines]) rfl (below_leaf hc (by omega) d)
      simp [Tells, hc, ht, h1, hexLines_iff]
    · rw [h2]
      exact dumps_panic fun h => h1 (hk.mp h)
  case h_9 ht =>
    exact dumps_value (x := anyInto (strBer utf8StringK) a) (str .utf8 (by decide)) (below_leaf hc (by omega) d)
      (by simp [CanShow, hc, ht]) d _ (by simp [Tells, hc, ht])
  case h_10 ht =>
    exact dumps_value (x := anyInto oidP a) (conv (.universal (c := oidC) .oid) (by decide)) (below_leaf hc (by omega) d)
      (by simp [CanShow, hc, ht]) d _ (by simp [Tells, hc, ht])
  case h_11 ht =>
    have hk : CanShow a := by simp [CanShow, hc, ht]
    refine dumps_mono (fun _ => hk) (dumps_lines (fun line => by simp [Tells, hc, ht])
      (dumps_congr (Q := Below a d) (fun d' s' b => ?_)
      (dumps_items (P := fun t c d' s' b => Seen true c (d + 1) t b d' s') (d + 1) _ a.data (Nat.lt_succ_self _)
        fun t c h => hs 1 t c (.item hc (by simp [ht]) h))))
    constructor
    · rintro ⟨t, c, h1, h2⟩
      exact ⟨1, t, c, .item hc (by simp [ht]) h1, h2⟩
    · rintro ⟨k, t, c, h1, h2⟩
      cases h1 with
      | tagged h => rw [hc] at h; rcases h with h | h <;> cases h
      | octetString _ h => omega
      | bitString _ _ h => omega
      | item _ _ h => exact ⟨t, c, h, h2⟩
  case h_12 ht =>
    have hk : CanShow a := by simp [CanShow, hc, ht]
    refine dumps_mono (fun _ => hk) (dumps_lines (fun line => by simp [Tells, hc, ht])
      (dumps_congr (Q := Below a d) (fun d' s' b => ?_)
      (dumps_items (P := fun t c d' s' b => Seen true c (d + 1) t b d' s') (d + 1) _ a.data (Nat.lt_succ_self _)
        fun t c h => hs 1 t c (.item hc (by simp [ht]) h))))
    constructor
    · rintro ⟨t, c, h1, h2⟩
      exact ⟨1, t, c, .item hc (by simp [ht]) h1, h2⟩
    · rintro ⟨k, t, c, h1, h2⟩
      cases h1 with
      | tagged h => rw [hc] at h; rcases h with h | h <;> cases h
      | octetString _ h => omega
      | bitString _ _ h => omega
      | item _ _ h => exact ⟨t, c, h, h2⟩
  case h_13 ht =>
    exact dumps_value (x := anyInto (strBer printableStringK) a) (str .printable (by decide)) (below_leaf hc (by omega) d)
      (by simp [CanShow, hc, ht]) d _ (by simp [Tells, hc, ht])
  case h_14 ht =>
    exact dumps_value (x := anyInto (strBer ia5StringK) a) (str .ia5 (by decide)) (below_leaf hc (by omega) d)
      (by simp [CanShow, hc, ht]) d _ (by simp [Tells, hc, ht])
  case h_15 ht =>
    exact dumps_value (x := anyInto utcBer a) (conv (.universal (c := utcC) .utcTime) (by decide)) (below_leaf hc (by omega) d)
      (by simp [CanShow, hc, ht]) d _ (by simp [Tells, hc, ht])
  case h_16 ht =>
    exact dumps_value (x := anyInto genBer a) (conv (.universal (c := genC) .generalizedTime) (by decide)) (below_leaf hc (by omega) d)
      (by simp [CanShow, hc, ht]) d _ (by simp [Tells, hc, ht])
  case h_17 ht =>
    exact dumps_value (x := anyInto (strBer generalStringK) a) (str .general (by decide)) (below_leaf hc (by omega) d)
      (by simp [CanShow, hc, ht]) d _ (by simp [Tells, hc, ht])
  case h_18 =>
    refine dumps_panic fun h => ?_
    have h := h hc
    split at h <;> simp_all

theorem dumps_body {o : DumpOpts} {shows : Nat → Any → Nat → Except PErr (List DumpLine)} (a : Any) (d : Nat)
    (hs : ShowsBelow o shows a d) :
    Dumps o (dumpBody shows a d) (CanShow a) (Tells a d) (Below a d) a.data.start
      (a.data.start + a.data.data.length) := by
  by_cases hc : a.header.cls = .universal
  · unfold dumpBody
    rw [hc]
    exact dumps_universal a d hc hs
  · have hk : CanShow a := fun h => absurd h hc
    by_cases hp : a.header.cls = .priv
    · unfold dumpBody
      rw [hp]
      refine dumps_leaf hk (by simp [Tells, hp]) rfl (by simp) rfl fun d' s' b ⟨k, t, c, h, _⟩ => ?_
      cases h with
      | tagged h => rw [hp] at h; rcases h with h | h <;> cases h
      | octetString h => exact hc h
      | bitString _ h => exact hc h
      | item h => exact hc h
    · have hct : a.header.cls = .contextSpecific ∨ a.header.cls = .application := by
        cases h : a.header.cls <;> simp_all
      have e : dumpBody shows a d = dumpInner a.data >>= fun x => match x with
          | some inner => shows a.data.start inner (d + 2) >>= fun ls =>
            pure (DumpLine.explicitTag (d + 1) (a.header.cls = .application) a.header.tag :: ls)
          | none => pure [hexLines (d + 1) a.data.data] := by
        unfold dumpBody
        cases h : a.header.cls
        · exact absurd h hc
        · cases h' : dumpInner a.data with
          | error e => rfl
          | ok x => cases x <;> rfl
        · cases h' : dumpInner a.data with
          | error e => rfl
          | ok x => cases x <;> rfl
        · exact absurd h hp
      have hT : ∀ line, Tells a d line ↔
          ((∃ b, SoleObject a.data b) ∧
            line = .explicitTag (d + 1) (decide (a.header.cls = .application)) a.header.tag) ∨
          ((∀ b, ¬ SoleObject a.data b) ∧ HexOf (d + 1) a.data.data line) := by
        intro line
        unfold Tells
        rcases hct with h | h <;> rw [h] <;> exact Iff.rfl
      rw [e]
      have hu : ∀ k' t' c', ShownIn true a k' t' c' → k' = 2 ∧ t' = a.data.start ∧ SoleObject a.data c' := by
        intro k' t' c' h
        cases h with
        | tagged _ h => exact ⟨rfl, rfl, h⟩
        | octetString h => exact absurd h hc
        | bitString _ h => exact absurd h hc
        | item h => exact absurd h hc
      rcases dumpInner_cases a.data with ⟨c, g1, g2⟩ | ⟨g1, g2⟩
      · rw [g2, bind_ok]
        have hin : ShownIn true a 2 a.data.start c := .tagged hct g1
        refine dumps_cons rfl rfl (Nat.le_refl _) (shownIn_len hin).2.2.2.2 ?_ hk (fun line => ?_)
        · exact dumps_congr ((below_sole hin fun k' t' c' h =>
            ⟨(hu _ _ _ h).1, (hu _ _ _ h).2.1, sole_unique (hu _ _ _ h).2.2 g1⟩) d) (hs _ _ _ hin)
        · rw [hT]
          exact ⟨fun h => h.elim (·.2) fun h => absurd g1 (h.1 c), fun h => .inl ⟨⟨c, g1⟩, h⟩⟩
      · rw [g2, bind_ok]
        refine dumps_leaf hk (fun line => ?_) rfl (by simp) rfl fun d' s' b ⟨k, t, c, h, _⟩ => g1 c (hu _ _ _ h).2.2
        rw [hT, List.mem_singleton, hexLines_iff]
        exact ⟨fun h => .inr ⟨g1, h⟩, fun h => h.elim (fun ⟨⟨b, h⟩, _⟩ => absurd h (g1 b)) (·.2)⟩

theorem seen_iff {a : Any} {d s d' s' : Nat} {b : Any} :
    Seen true a d s b d' s' ↔ (d' = d ∧ s' = s ∧ b = a) ∨ Below a d d' s' b := by
  constructor
  · intro h
    cases h with
    | self => exact .inl ⟨rfl, rfl, rfl⟩
    | inside h h' => exact .inr ⟨_, _, _, h, h'⟩
  · rintro (⟨rfl, rfl, rfl⟩ | ⟨k, t, c, h, h'⟩)
    · exact .self
    · exact .inside h h'

theorem dumpOctets_ok (o : DumpOpts) {a : Any} (h : WasRead a) :
    ∃ ls, dumpOctets o a = .ok ls ∧ ls.Nodup ∧ ls.any toStderr = false ∧ ls.filterMap offsetOf = [] ∧
      ∀ s d line, Begins o a d s line ↔ line ∈ ls ∨ line = .object s a.data.data.length d a.header := by
  obtain ⟨raw, hr⟩ := read_raw h
  unfold dumpOctets Begins
  have h32 : a.data.data.take (min a.data.len 32) = a.data.data.take 32 := by
    show a.data.data.take (min a.data.data.length 32) = _
    rw [Nat.min_comm, ← List.take_take, List.take_length]
  have hm : (a.data.len > min a.data.len 32) ↔ 32 < a.data.data.length := by
    show a.data.data.length > min a.data.data.length 32 ↔ _
    omega
  rw [hr]
  cases ho : o.dumpHeader
  · exact ⟨[], rfl, .nil, rfl, rfl, by simp⟩
  · refine ⟨_, rfl, by simp, rfl, rfl, fun s d line => ?_⟩
    cases hx : o.dumpHexData
    · simp
    · simp [h32, hm]

theorem dumps_any (o : DumpOpts) (fuel : Nat) (s : Nat) (a : Any) (d : Nat) (hf : a.data.data.length < fuel)
    (hr : WasRead a) (hlt : s < a.data.start) :
    Dumps o (dumpAny o fuel s a d) True (fun _ => False) (fun d' s' b => Seen true a d s b d' s') s
      (a.data.start + a.data.data.length) := by
  induction fuel generalizing s a d with
  | zero => omega
  | succ fuel ih =>
    obtain ⟨oct, ho, hnd, hse, hn, hB⟩ := dumpOctets_ok o hr
    show Dumps o (dumpOctets o a >>= fun octets => dumpBody (dumpAny o fuel) a d >>= fun body =>
      pure (octets ++ .object s a.data.len d a.header :: body)) True _ _ _ _
    rw [ho, bind_ok]
    have hb := dumps_body (o := o) (shows := dumpAny o fuel) a d fun k t c h =>
      ih t c (d + k) (by have := (shownIn_len h).1; omega) (shownIn_len h).2.1 (shownIn_len h).2.2.2.1
    rcases hb with ⟨ls, e, hk, h2, h3, h4, h5, h6, own, bl, a1, a2, a3, a4⟩ | ⟨e, h⟩
    · rw [e]
      have hoct : ∀ line, line ∈ oct ↔ Begins o a d s line ∧ offsetOf line = none := by
        intro line
        rw [hB s d line]
        constructor
        · refine fun h => ⟨.inl h, ?_⟩
          cases hx : offsetOf line with
          | none => rfl
          | some y =>
            have := List.mem_filterMap.mpr ⟨line, h, hx⟩
            rw [hn] at this
            cases this
        · rintro ⟨h | h, h'⟩
          · exact h
          · rw [h] at h'
            cases h'
      refine .inl ⟨_, rfl, trivial, fun d' s' b h => ?_, fun line => ?_, ?_, front_nil fun _ h => h.elim,
        fun d' s' b h => ?_, [], ⟨a, d, s, oct ++ .object s a.data.data.length d a.header :: own⟩ :: bl, ?_, .nil,
        fun line => ⟨fun h => (nomatch h), fun h => h.1.elim⟩, fun x hx => ?_, fun b d' s' => ?_, ?_, fun x hx => ?_⟩
      · rcases seen_iff.mp h with ⟨_, _, rfl⟩ | h
        · exact hk
        · exact h2 d' s' b h
      · have hB' := hB s d line
        rw [List.mem_append, List.mem_cons, h3, ← or_assoc, ← or_assoc]
        have : (line ∈ oct ∨ line = DumpLine.object s a.data.len d a.header) ↔ Begins o a d s line := hB'.symm
        rw [this]
        constructor
        · rintro (h | ⟨d', s', b, h, h'⟩)
          · exact .inr ⟨d, s, a, .self, h⟩
          · exact .inr ⟨d', s', b, seen_iff.mpr (.inr h), h'⟩
        · rintro (h | ⟨d', s', b, h, h'⟩)
          · exact h.elim
          · rcases seen_iff.mp h with ⟨rfl, rfl, rfl⟩ | h
            · exact .inl h'
            · exact .inr ⟨d', s', b, h, h'⟩
      · refine increase_append (mid := s) (increase_none hn) ?_ (Nat.le_refl _) (by omega)
        refine ⟨?_, ?_⟩
        · show (s :: ls.filterMap offsetOf).Pairwise (· < ·)
          refine List.pairwise_cons.mpr ⟨fun t ht => ?_, h4.1⟩
          have := h4.2 t ht
          omega
        · intro t ht
          rcases List.mem_cons.mp (show t ∈ s :: ls.filterMap offsetOf from ht) with rfl | ht
          · omega
          · have := h4.2 t ht
            omega
      · rcases seen_iff.mp h with ⟨rfl, rfl, rfl⟩ | h
        · obtain ⟨own, rest, e1, e2⟩ := h5
          refine ⟨[], oct, own, rest, ?_, fun line => ?_, e2⟩
          · rw [e1]
            simp only [List.nil_append, List.append_assoc, List.cons_append]
            rfl
          · exact hoct line
        · exact together_left oct (together_left [_] (h6 d' s' b h))
      · rw [printed_append, printed_all hse]
        show oct ++ printed ([.object s a.data.data.length d a.header] ++ ls) = _
        rw [printed_append, a1]
        simp [printed, toStderr]
      · rcases List.mem_cons.mp hx with rfl | hx
        · exact ⟨oct, own, rfl, hnd, a2, hoct, a3⟩
        · exact a4.good x hx
      · rw [seen_iff, ← a4.objects]
        constructor
        · rintro ⟨x, hx, h1, h2, h3⟩
          rcases List.mem_cons.mp hx with rfl | hx
          · exact .inl ⟨h2.symm, h3.symm, h1.symm⟩
          · exact .inr ⟨x, hx, h1, h2, h3⟩
        · rintro (⟨rfl, rfl, rfl⟩ | ⟨x, hx, h⟩)
          · exact ⟨_, .head _, rfl, rfl, rfl⟩
          · exact ⟨x, .tail _ hx, h⟩
      · refine List.pairwise_cons.mpr ⟨fun x hx => ?_, a4.order⟩
        have := a4.bounds x hx
        show s < x.offset
        omega
      · rcases List.mem_cons.mp hx with rfl | hx
        · show s ≤ s ∧ s < _
          omega
        · have := a4.bounds x hx
          omega
    · rw [e]
      refine .inr ⟨rfl, .inr ?_⟩
      rcases h with h | ⟨d', s', b, h, h'⟩
      · exact ⟨d, s, a, .self, h⟩
      · exact ⟨d', s', b, seen_iff.mpr (.inr h), h'⟩

/-! ### The program -/

theorem dumpDer_dumps (o : DumpOpts) {bytes : Bytes} {r : Input} {a : Any}
    (h : anyDer.parseDer (Input.fromSlice bytes) = .ok (r, a)) :
    (∃ ls, dumpDer o bytes = .ok ls ∧ (∀ d s b, InFile true bytes b d s → CanShow b) ∧
      LinesOf o ls (Trails bytes) (fun d s b => InFile true bytes b d s) ∧ Increase ls 0 bytes.length ∧
      Blocks o ls (fun d s b => InFile true bytes b d s) ∧
      (∃ before after, ls = before ++ after ∧ ∀ line, line ∈ after ↔ Trails bytes line) ∧
      ∃ bl after, printed ls = (bl.map Block.lines).flatten ++ after ∧
        BlocksOf o bl (fun d s b => InFile true bytes b d s) 0 bytes.length ∧ after.Nodup ∧
        ∀ line, line ∈ after ↔ Trails bytes line) ∨
    (dumpDer o bytes = .error .panic ∧ ∃ d s b, InFile true bytes b d s ∧ ¬ CanShow b) := by
  unfold dumpDer
  simp only
  rw [h]
  have hin : ∀ d s b, Seen true a 1 0 b d s ↔ InFile true bytes b d s := by
    intro d s b
    constructor
    · exact fun h' => ⟨r, a, h, h'⟩
    · rintro ⟨r', a', h', h2⟩
      rw [h] at h'
      injection h' with h'; injection h' with _ h'
      subst h'
      exact h2
  have hT : ∀ line, Trails bytes line ↔ r.data ≠ [] ∧ (line = .extraBytes 1 r.data.length ∨ HexOf 1 r.data line) := by
    intro line
    constructor
    · rintro ⟨r', a', h', h2⟩
      rw [h] at h'
      injection h' with h'; injection h' with h' _
      subst h'
      exact h2
    · exact fun h' => ⟨r, a, h, h'⟩
  have hp := read_place h
  have h0 : (Input.fromSlice bytes).start = 0 := rfl
  have h1 : (Input.fromSlice bytes).data = bytes := rfl
  rw [h0, h1] at hp
  have hd := dumps_congr hin (dumps_any o (a.data.len + 1) 0 a 1 (Nat.lt_succ_self _) ⟨_, _, h⟩ (by omega))
  have hA : ∀ line, (line ∈ if r.isEmpty = true then [] else [DumpLine.extraBytes 1 r.len, hexLines 1 r.data]) ↔
      (r.data ≠ [] ∧ (line = .extraBytes 1 r.data.length ∨ HexOf 1 r.data line)) := by
    intro line
    by_cases hr : r.data = []
    · simp [Input.isEmpty, hr]
    · rw [if_neg (by simp [Input.isEmpty, hr])]
      simp [hr, hexLines_iff, Input.len]
  have hrun : ∀ x, dumpAny o (a.data.len + 1) 0 a 1 = x →
      (dumpAny o (a.data.len + 1) (Input.fromSlice bytes).start a 1 >>= fun ls =>
        pure (ls ++ if r.isEmpty then [] else [.extraBytes 1 r.len, hexLines 1 r.data])) =
      (x >>= fun ls => pure (ls ++ if r.isEmpty then [] else [.extraBytes 1 r.len, hexLines 1 r.data])) :=
    fun x hx => by rw [h0, hx]
  rcases hd with ⟨ls, e, _, h2, h3, h4, _, h6, own, bl, a1, a2, a3, a4⟩ | ⟨e, h'⟩
  · refine .inl ⟨_, hrun _ e, h2, fun line => ?_, increase_append h4 (increase_none (hi := bytes.length) ?_) ?_ ?_,
      fun d s b h => together_right _ (h6 d s b h), ⟨ls, _, rfl, fun line => ?_⟩, bl,
      if r.isEmpty = true then [] else [DumpLine.extraBytes 1 r.len, hexLines 1 r.data], ?_,
      blocksOf_mono a4 (Nat.le_refl _) ?_, ?_, fun line => ?_⟩
    case refine_6 =>
      have f1 : own = [] := by
        cases own with
        | nil => rfl
        | cons y ys => exact ((a3 y).mp (.head _)).1.elim
      rw [printed_append, a1, f1, List.nil_append]
      congr 1
      exact printed_all (by split <;> rfl)
    case refine_8 => split <;> simp [hexLines]
    · rw [List.mem_append, h3, hT, false_or, or_comm, hA]
    · split <;> rfl
    · omega
    · omega
    · rw [hT, hA]
    · omega
    · rw [hT, hA]
  · refine .inr ⟨hrun _ e, ?_⟩
    rcases h' with h' | h'
    · exact absurd trivial h'
    · exact h'

/-- **C139.** What is not an object is reported. -/
theorem C139_no_object {o : DumpOpts} {bytes : Bytes} {e : PErr}
    (h : anyDer.parseDer (Input.fromSlice bytes) = .error e) : dumpDer o bytes = .ok [.failed 1 e] := by
  have hs := derAny_safe (Input.fromSlice bytes)
  unfold dumpDer
  simp only
  rw [h]
  cases e with
  | panic => exact absurd h hs.1
  | diverge => exact absurd h hs.2
  | _ => rfl

/-- **C139.** The program prints its lines or panics; it does not run for ever. -/
theorem C139_returns (o : DumpOpts) (bytes : Bytes) :
    (∃ ls, dumpDer o bytes = .ok ls) ∨ dumpDer o bytes = .error .panic := by
  cases hp : anyDer.parseDer (Input.fromSlice bytes) with
  | error e => exact .inl ⟨_, C139_no_object hp⟩
  | ok x =>
    rcases dumpDer_dumps o hp with ⟨ls, h, _⟩ | ⟨h, _⟩
    · exact .inl ⟨ls, h⟩
    · exact .inr h

/-- A sequence of two objects, one of which is not complete: the error is one of the lines. -/
example : ((dumpDer ⟨true, true⟩ [0x30, 5, 1, 1, 0xff, 4, 2]).toOption.map (·.filterMap offsetOf)) = some [0, 2] := by
  decide +kernel

/-- **C139.** It panics if and only if one of the objects cannot be shown. -/
theorem C139_panics (o : DumpOpts) (bytes : Bytes) :
    dumpDer o bytes = .error .panic ↔ ∃ b d s, InFile true bytes b d s ∧ ¬ CanShow b := by
  cases hp : anyDer.parseDer (Input.fromSlice bytes) with
  | error e =>
    rw [C139_no_object hp]
    refine ⟨fun h => (nomatch h), ?_⟩
    rintro ⟨b, d, s, ⟨r, a, h, _⟩, _⟩
    rw [hp] at h
    cases h
  | ok x =>
    rcases dumpDer_dumps o hp with ⟨ls, h, h2, _⟩ | ⟨h, h2⟩
    · rw [h]
      exact ⟨fun h => (nomatch h), fun ⟨b, d, s, h, h'⟩ => absurd (h2 d s b h) h'⟩
    · refine ⟨fun _ => ?_, fun _ => h⟩
      obtain ⟨d, s, b, h2, h3⟩ := h2
      exact ⟨b, d, s, h2, h3⟩

/-- A BOOLEAN with the content `01`, in a SEQUENCE: the BER method is used and it is shown as true; one of two octets
makes the program panic. -/
example : (dumpDer ⟨false, false⟩ [0x30, 3, 1, 1, 1]).toOption.map (fun ls => (DumpLine.value 3 (.bool true)) ∈ ls) =
    some True ∧ dumpDer ⟨false, false⟩ [0x30, 4, 1, 2, 1, 1] = .error .panic := by
  constructor
  · rw [show dumpDer ⟨false, false⟩ [0x30, 3, 1, 1, 1] = .ok ((dumpDer ⟨false, false⟩ [0x30, 3, 1, 1, 1]).toOption.getD [])
      by decide +kernel]
    exact congrArg some (eq_true (by decide +kernel))
  · decide +kernel

/-- **C139.** If there is an object, what is printed are the lines of all the objects in the file and what is said of the
octets after the first one, and nothing else. -/
theorem C139_lines {o : DumpOpts} {bytes : Bytes} {ls : List DumpLine} {r : Input} {a : Any}
    (ha : anyDer.parseDer (Input.fromSlice bytes) = .ok (r, a)) (h : dumpDer o bytes = .ok ls) (line : DumpLine) :
    line ∈ ls ↔ Trails bytes line ∨ ∃ d s b, InFile true bytes b d s ∧ (Begins o b d s line ∨ Tells b d line) := by
  rcases dumpDer_dumps o ha with ⟨ls', h', _, h3, _⟩ | ⟨h', _⟩
  · rw [h] at h'
    injection h' with h'
    subst h'
    exact h3 line
  · rw [h] at h'
    cases h'

/-- **C139.** The objects are printed in the order of their offsets, and none twice. -/
theorem C139_order {o : DumpOpts} {bytes : Bytes} {ls : List DumpLine} (h : dumpDer o bytes = .ok ls) :
    (ls.filterMap offsetOf).Pairwise (· < ·) ∧ ∀ s ∈ ls.filterMap offsetOf, s < bytes.length := by
  cases hp : anyDer.parseDer (Input.fromSlice bytes) with
  | error e =>
    rw [C139_no_object hp] at h
    injection h with h
    subst h
    exact ⟨.nil, fun _ h => (nomatch h)⟩
  | ok x =>
    rcases dumpDer_dumps o hp with ⟨ls', h', _, _, h4, _⟩ | ⟨h', _⟩
    · rw [h] at h'
      injection h' with h'
      subst h'
      exact ⟨h4.1, fun s hs => (h4.2 s hs).2⟩
    · rw [h] at h'
      cases h'

/-- **C139.** What is printed of an object is together: its octets, the line with its offset, and then the other lines
about it. What is said of the octets after the first object comes last. -/
theorem C139_together {o : DumpOpts} {bytes : Bytes} {ls : List DumpLine} (h : dumpDer o bytes = .ok ls) :
    (∀ b d s, InFile true bytes b d s → Together o b d s ls) ∧
    ∃ before after, ls = before ++ after ∧ ∀ line, line ∈ after ↔ Trails bytes line := by
  cases hp : anyDer.parseDer (Input.fromSlice bytes) with
  | error e =>
    refine ⟨?_, ls, [], (List.append_nil _).symm, fun line => ⟨fun h => (nomatch h), ?_⟩⟩
    · rintro b d s ⟨r, a, h', _⟩
      rw [hp] at h'
      cases h'
    · rintro ⟨r, a, h', _⟩
      rw [hp] at h'
      cases h'
  | ok x =>
    rcases dumpDer_dumps o hp with ⟨ls', h', _, _, _, h5, h6, _⟩ | ⟨h', _⟩
    · rw [h] at h'
      injection h' with h'
      subst h'
      exact ⟨fun b d s h => h5 d s b h, h6⟩
    · rw [h] at h'
      cases h'

/-- **C139.** If there is an object, what is printed (errors go to another output) is one block for each object in the
file, in the order of the offsets, and what is said of the octets after the first object. -/
theorem C139_blocks {o : DumpOpts} {bytes : Bytes} {ls : List DumpLine} {r : Input} {a : Any}
    (ha : anyDer.parseDer (Input.fromSlice bytes) = .ok (r, a)) (h : dumpDer o bytes = .ok ls) :
    ∃ (bl : List Block) (after : List DumpLine),
      ls.filter (fun line => !toStderr line) = (bl.map Block.lines).flatten ++ after ∧
      (∀ x ∈ bl, x.Good o) ∧
      (∀ b d s, (∃ x ∈ bl, x.obj = b ∧ x.level = d ∧ x.offset = s) ↔ InFile true bytes b d s) ∧
      bl.Pairwise (fun x y => x.offset < y.offset) ∧
      after.Nodup ∧ ∀ line, line ∈ after ↔ Trails bytes line := by
  rcases dumpDer_dumps o ha with ⟨ls', h', _, _, _, _, _, bl, after, h1, h2, h3, h4⟩ | ⟨h', _⟩
  · rw [h] at h'
    injection h' with h'
    subst h'
    exact ⟨bl, after, h1, h2.good, h2.objects, h2.order, h3, h4⟩
  · rw [h] at h'
    cases h'

/-- An integer, an explicit tag and an OCTET STRING with an object inside: all are shown, in order, and what follows. -/
example : (dumpDer ⟨false, false⟩ [0x30, 13, 2, 1, 0x80, 0xa0, 3, 2, 1, 7, 4, 3, 2, 1, 9, 0xff]).toOption.map (fun ls =>
    (ls.filterMap offsetOf, ls.filter fun l => (offsetOf l).isNone)) =
    some ([0, 2, 5, 7, 10, 12], [.value 3 (.int (-128)), .explicitTag 3 false 0, .value 5 (.int 7), .encapsulates 3,
      .value 4 (.int 9), .extraBytes 1 1, .hex 1 [0xff] none]) := by
  decide +kernel

/-- **C139.** Objects of these universal types make it panic: END-OF-CONTENT, ObjectDescriptor, EXTERNAL, REAL, TIME and
tag 15, NumericString, T61String, VideotexString, GraphicString, VisibleString, UniversalString, CHARACTER STRING,
BMPString and all tags from 31 on. -/
theorem C139_unsupported (o : DumpOpts) {bytes : Bytes} {b : Any} {d s : Nat} (h : InFile true bytes b d s)
    (hc : b.header.cls = .universal)
    (ht : b.header.tag ∈ [0, 7, 8, 9, 14, 15, 18, 20, 21, 25, 26] ∨ 28 ≤ b.header.tag) :
    dumpDer o bytes = .error .panic := by
  refine (C139_panics o bytes).mpr ⟨b, d, s, h, fun hs => ?_⟩
  have hs := hs hc
  have ht' : ∀ n ∈ [1, 2, 3, 4, 5, 6, 10, 11, 12, 13, 16, 17, 19, 22, 23, 24, 27], b.header.tag ≠ n := by
    intro n hn
    simp only [List.mem_cons, List.not_mem_nil, or_false] at hn ht
    omega
  split at hs <;> simp_all

/-- A REAL, alone or inside of an OCTET STRING. -/
example : dumpDer ⟨false, false⟩ [9, 0] = .error .panic ∧ dumpDer ⟨false, false⟩ [4, 2, 9, 0] = .error .panic := by
  decide +kernel

/-! ### Offsets -/

/-- The object `b` is in `bytes`, at `s`. -/
def At (bytes : Bytes) (s : Nat) (b : Any) : Prop :=
  ∃ raw rest, b.header.rawHeader = some ⟨raw, s, s + raw.length⟩ ∧ bytes.drop s = raw ++ b.data.data ++ rest ∧
    b.data.start = s + raw.length

theorem at_read {i j r : Input} {b : Any} (hi : Inside i j) (hj : j.start = 0)
    (h : anyDer.parseDer i = .ok (r, b)) : At j.data i.start b ∧ Inside b.data j ∧ Inside r j := by
  have hw := inside_wf hi
  have h1 := inside_trans (dataIn_der hw r b h) hi
  have h2 := inside_trans (inside_ahead hw (itemParse_der.ahead i) h) hi
  refine ⟨?_, h1, h2⟩
  rw [anyDer_parseDer] at h
  obtain ⟨r1, n, g1, _, hn, _, g3⟩ := parseDerAny_ok.mp h
  obtain ⟨ident, len, _, _, e1, e2, _, e3⟩ := parseHeader_ok.mp g1
  obtain ⟨x, m, k1, k2, k3, k4⟩ := hi
  have hx : i.start = x := by omega
  have hf : first i (ident.length + len.length) =
      ⟨ident ++ len, i.start, i.start + (ident ++ len).length⟩ := by
    unfold first
    rw [e1, List.take_left' (by simp), List.length_append]
  have hd : b.data.data = r1.data.take n := by rw [g3]; rfl
  refine ⟨ident ++ len, r1.data.drop n ++ (j.data.drop x).drop m, by rw [e3, hf], ?_, ?_⟩
  · rw [hd, hx, List.append_assoc (ident ++ len), ← List.append_assoc (r1.data.take n), List.take_append_drop,
      ← List.append_assoc, ← e1, k2, List.take_append_drop]
  · rw [g3, List.length_append]
    show r1.start = _
    rw [e2]
    rfl

theorem listed_at {i j : Input} {s : Nat} {b : Any} (h : Listed i s b) (hi : Inside i j) (hj : j.start = 0) :
    At j.data s b ∧ Inside b.data j := by
  induction h with
  | here h => exact ⟨(at_read hi hj h).1, (at_read hi hj h).2.1⟩
  | later h _ ih => exact ih (at_read hi hj h).2.2

theorem shownIn_at {a b : Any} {j : Input} {k s : Nat} (h : ShownIn false a k s b) (ha : Inside a.data j)
    (hj : j.start = 0) : At j.data s b ∧ Inside b.data j := by
  cases h with
  | tagged _ h =>
    obtain ⟨r, h, _⟩ := h
    exact ⟨(at_read ha hj h).1, (at_read ha hj h).2.1⟩
  | octetString _ _ h =>
    obtain ⟨r, h, _⟩ := h
    exact ⟨(at_read ha hj h).1, (at_read ha hj h).2.1⟩
  | bitString hb => cases hb
  | item _ _ h => exact listed_at h ha hj

theorem seen_at {a b : Any} {j : Input} {d s d' s' : Nat} (h : Seen false a d s b d' s') (hj : j.start = 0)
    (ha : At j.data s a ∧ Inside a.data j) : At j.data s' b ∧ Inside b.data j := by
  induction h with
  | self => exact ha
  | inside h _ ih => exact ih (shownIn_at h ha.2 hj)

theorem inFile_at {bytes : Bytes} {b : Any} {d s : Nat} (h : InFile false bytes b d s) :
    At bytes s b ∧ Inside b.data (Input.fromSlice bytes) := by
  obtain ⟨r, a, h, hs⟩ := h
  have hi : Inside (Input.fromSlice bytes) (Input.fromSlice bytes) := inside_refl (by simp [WF, Input.fromSlice])
  have h1 := at_read hi rfl h
  exact seen_at (j := Input.fromSlice bytes) hs rfl ⟨h1.1, h1.2.1⟩

theorem shownIn_bits {a b : Any} {k s : Nat} (h : ShownIn false a k s b) : ShownIn true a k s b := by
  cases h with
  | tagged h1 h2 => exact .tagged h1 h2
  | octetString h1 h2 h3 => exact .octetString h1 h2 h3
  | bitString hb => cases hb
  | item h1 h2 h3 => exact .item h1 h2 h3

theorem seen_bits {a b : Any} {d s d' s' : Nat} (h : Seen false a d s b d' s') : Seen true a d s b d' s' := by
  induction h with
  | self => exact .self
  | inside h _ ih => exact .inside (shownIn_bits h) ih

theorem seen_trans {a b c : Any} {d s d' s' d'' s'' : Nat} (h : Seen true a d s b d' s')
    (h' : Seen true b d' s' c d'' s'') : Seen true a d s c d'' s'' := by
  induction h with
  | self => exact h'
  | inside h _ ih => exact .inside h (ih h')

/-- **C139 (partial).** Objects that are not inside of a BIT STRING are shown, and the offset is the one they begin at:
there are, in the file, their header and their content. Missing: those inside of a BIT STRING (see
`C139_bits_deviation`). -/
theorem C139_offsets_partial {bytes : Bytes} {b : Any} {d s : Nat} (h : InFile false bytes b d s) :
    InFile true bytes b d s ∧
    ∃ raw rest, b.header.rawHeader = some ⟨raw, s, s + raw.length⟩ ∧ bytes.drop s = raw ++ b.data.data ++ rest ∧
      b.data.start = s + raw.length := by
  refine ⟨?_, (inFile_at h).1⟩
  obtain ⟨r, a, h1, h2⟩ := h
  exact ⟨r, a, h1, seen_bits h2⟩

theorem seen_read {bits : Bool} {a b : Any} {d s d' s' : Nat} (h : Seen bits a d s b d' s') (ha : WasRead a) :
    WasRead b := by
  induction h with
  | self => exact ha
  | inside h _ ih => exact ih (shownIn_len h).2.1

theorem inFile_read {bits : Bool} {bytes : Bytes} {b : Any} {d s : Nat} (h : InFile bits bytes b d s) : WasRead b := by
  obtain ⟨r, a, h, hs⟩ := h
  exact seen_read hs ⟨_, _, h⟩

theorem read_definite {a : Any} (h : WasRead a) : a.header.length = .definite a.data.data.length := by
  obtain ⟨i, r, h⟩ := h
  rw [anyDer_parseDer] at h
  obtain ⟨r1, n, _, h1, hn, _, h2⟩ := parseDerAny_ok.mp h
  rw [h1, h2, first_data, List.length_take_of_le hn]

/-- **C139 (deviation).** The object inside of a BIT STRING (primitive, and not itself inside of one) is said to begin at
the octet with the number of unused bits: one before it does. -/
theorem C139_bits_deviation {bytes : Bytes} {a b : Any} {d s : Nat} (h : InFile false bytes a d s)
    (hc : a.header.cls = .universal) (ht : a.header.tag = 3) (hp : a.header.constructed = false) {v : BitString}
    (hv : anyInto bitBer a = .ok v)
    (hb : SoleObject ⟨v.raw, a.data.start, a.data.stop⟩ b) :
    InFile true bytes b (d + 1) a.data.start ∧
    ∃ u raw x rest, b.header.rawHeader = some x ∧ x.data = raw ∧
      bytes.drop a.data.start = u :: (raw ++ b.data.data ++ rest) := by
  obtain ⟨raw0, rest0, h1, h2, h3⟩ := (inFile_at h).1
  have hl := read_definite (inFile_read h)
  constructor
  · obtain ⟨r, a0, g1, g2⟩ := h
    exact ⟨r, a0, g1, seen_trans (seen_bits g2) (.inside (.bitString rfl hc ht hv hb) .self)⟩
  · obtain ⟨r, hv⟩ := anyInto_ok.mp hv
    obtain ⟨u, bytes', e1, _, _, e2⟩ := ((bitContent_prim hp hl).mp hv).2
    obtain ⟨r', hb, hr⟩ := hb
    have hraw : v.raw = bytes' := by rw [e2]
    rw [anyDer_parseDer] at hb
    obtain ⟨r1, n, g1, _, hn, g2, g3⟩ := parseDerAny_ok.mp hb
    obtain ⟨ident, len, _, _, f1, _, _, f3⟩ := parseHeader_ok.mp g1
    have hd : b.data.data = r1.data.take n := by rw [g3]; rfl
    have hz : r1.data.drop n = [] := by rw [← hr, g2, after_data]
    have f1 : v.raw = ident ++ len ++ r1.data := f1
    refine ⟨u, ident ++ len, _, rest0, f3, ?_, ?_⟩
    · unfold first
      simp only
      rw [f1, List.take_left' (by simp)]
    · have : bytes.drop a.data.start = a.data.data ++ rest0 := by
        rw [h3, ← List.drop_drop, h2, List.append_assoc, List.drop_left]
      rw [this, e1, ← hraw, f1, hd]
      conv => lhs; rw [← List.take_append_drop n r1.data, hz, List.append_nil]
      rfl

/-- The NULL begins at offset 5, and is said to begin at 4. -/
example : (dumpDer ⟨false, false⟩ [0x30, 5, 3, 3, 0, 5, 0]).toOption.map (·.filterMap offsetOf) = some [0, 2, 4] := by
  decide +kernel

/-- **C139 (deviation).** A RELATIVE-OID is shown as if it were an OBJECT IDENTIFIER. -/
theorem C139_relative_oid_deviation {o : DumpOpts} {bytes : Bytes} {ls : List DumpLine} {b : Any} {d s : Nat}
    (h : dumpDer o bytes = .ok ls) (hb : InFile true bytes b d s) (hc : b.header.cls = .universal)
    (ht : b.header.tag = 13) : ∃ v, .value (d + 1) (.relativeOid v) ∈ ls ∧ v.relative = false := by
  have hs : CanShow b := by
    refine Classical.byContradiction fun hn => ?_
    have := (C139_panics o bytes).mpr ⟨b, d, s, hb, hn⟩
    rw [h] at this
    cases this
  have hs := hs hc
  rw [ht] at hs
  obtain ⟨v, hv⟩ := hs
  have ⟨r, a, ha, _⟩ := hb
  refine ⟨v, (C139_lines ha h _).mpr (.inr ⟨d, s, b, hb, .inr ?_⟩), ?_⟩
  · simp [Tells, hc, ht, hv]
  · obtain ⟨r, hv⟩ := anyInto_ok.mp hv
    change oidContent _ _ = _ at hv
    unfold oidContent at hv
    obtain ⟨_, _, hv⟩ := bind_eq_ok.mp hv
    split at hv
    · cases hv
    · obtain ⟨⟨_, _⟩, _, hv⟩ := bind_eq_ok.mp hv
      injection hv with hv
      injection hv with _ hv
      rw [← hv]

/-- `{ 42 }` is shown as `1.2`. -/
example : (dumpDer ⟨false, false⟩ [0x0d, 1, 42]).toOption.map (·.filter fun l => (offsetOf l).isNone) =
    some [.value 2 (.relativeOid ⟨[42], false⟩)] := by
  decide +kernel

theorem chain_class {cs : Bytes} {i r : Input} {a : Any} (hs : cs.length < 2 ^ 64)
    (hi : i.data = full .universal true 16 cs) (h : parseDerAny i = .ok (r, a)) : a.header.cls = .universal := by
  rw [parseDerAny_full i .universal true 16 cs [] (by decide) hs (by rw [hi, List.append_nil])] at h
  injection h with h
  injection h with _ h
  rw [← h]

/-- What is at the innermost level of `n` sequences, one in the other. -/
theorem chain_seen (n : Nat) (hn : n < 2 ^ 60) (i : Input) (hi : i.data = chainBytes n) :
    ∃ r a, anyDer.parseDer i = .ok (r, a) ∧ ∀ d s, ∃ b s', Seen true a d s b (d + n) s' := by
  induction n generalizing i with
  | zero =>
    obtain ⟨a, h1, _⟩ := chain_any .der [] (by decide) i [] (by rw [hi, List.append_nil]; rfl)
    exact ⟨_, a, by rw [anyDer_parseDer]; exact h1, fun d s => ⟨a, s, .self⟩⟩
  | succ n ih =>
    have hs := chain_size n (by omega)
    obtain ⟨a, h1, h2, _, h4⟩ := chain_any .der (chainBytes n) (by omega) i [] (by rw [hi, List.append_nil]; rfl)
    obtain ⟨r', a', g1, g2⟩ := ih (by omega) a.data h4
    refine ⟨_, a, by rw [anyDer_parseDer]; exact h1, fun d s => ?_⟩
    obtain ⟨b, s', g3⟩ := g2 (d + 1) a.data.start
    have hcls : a.header.cls = .universal := chain_class (cs := chainBytes n) (by omega) hi h1
    exact ⟨b, s', .inside (.item hcls (.inl h2) (.here g1)) (by rw [show d + (n + 1) = d + 1 + n by omega]; exact g3)⟩

/-- **C139 (deviation).** There is no limit to the nesting: with about ten octets for each level, any level is reached
by a call inside of a call. -/
theorem C139_depth_deviation (n : Nat) (hn : n < 2 ^ 60) :
    ∃ bytes : Bytes, bytes.length ≤ 10 * n + 2 ∧ ∃ b s, InFile true bytes b (n + 1) s := by
  obtain ⟨r, a, h1, h2⟩ := chain_seen n hn (Input.fromSlice (chainBytes n)) rfl
  obtain ⟨b, s, h3⟩ := h2 1 0
  exact ⟨chainBytes n, (chain_size n hn).2, b, s, r, a, h1, by rw [Nat.add_comm]; exact h3⟩

end Asn1

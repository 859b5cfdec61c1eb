import Verif.Spec.Attributes
import Verif.Props.DeriveChoice
import Verif.Props.BuiltValue
/-!
# C111, C112: the attributes of the derive macros mean what they say
-/
namespace Asn1
open Spec
variable {E : Type}

theorem snocInd {α : Type} {P : List α → Prop} (h0 : P []) (h1 : ∀ l a, P l → P (l ++ [a])) (l : List α) : P l := by
  rw [← l.reverse_reverse]
  induction l.reverse with
  | nil => exact h0
  | cons a l ih => rw [List.reverse_cons]; exact h1 _ _ ih

theorem foldlM_snoc {α β ε : Type} (f : β → α → Except ε β) (b : β) (l : List α) (a : α) {r : β} :
    (l ++ [a]).foldlM f b = .ok r ↔ ∃ i, l.foldlM f b = .ok i ∧ f i a = .ok r := by
  rw [List.foldlM_append]
  cases h : List.foldlM f b l with
  | error e => simp [bind, Except.bind]
  | ok i =>
    simp only [bind, Except.bind, List.foldlM_cons, List.foldlM_nil, pure, Except.pure]
    constructor
    · intro h; refine ⟨i, rfl, ?_⟩
      cases hf : f i a with
      | error e => rw [hf] at h; cases h
      | ok j => rw [hf] at h; exact h
    · rintro ⟨j, hj, h⟩
      cases hj
      rw [h]

theorem bindE {α β ε : Type} {x : Except ε α} {f : α → Except ε β} {b : β} :
    x >>= f = .ok b ↔ ∃ a, x = .ok a ∧ f a = .ok b := by
  cases x with
  | error e => simp [bind, Except.bind]
  | ok a => simp [bind, Except.bind]

/-! ### Tags -/

theorem tagClass_ok {s : String} {c : Class} : tagClass s = .ok c ↔ NamesClass s c := by
  unfold tagClass NamesClass
  generalize s.toList.map Char.toUpper = u
  have d1 : "CONTEXT-SPECIFIC".toList ≠ "UNIVERSAL".toList := by decide +kernel
  have d2 : "APPLICATION".toList ≠ "UNIVERSAL".toList := by decide +kernel
  have d3 : "APPLICATION".toList ≠ "CONTEXT-SPECIFIC".toList := by decide +kernel
  have d4 : "PRIVATE".toList ≠ "UNIVERSAL".toList := by decide +kernel
  have d5 : "PRIVATE".toList ≠ "CONTEXT-SPECIFIC".toList := by decide +kernel
  have d6 : "PRIVATE".toList ≠ "APPLICATION".toList := by decide +kernel
  dsimp only
  constructor
  · intro h
    split at h
    · cases h; assumption
    split at h
    · cases h; assumption
    split at h
    · cases h; assumption
    split at h
    · cases h; assumption
    · cases h
  · intro h
    cases c <;> simp only [classWord] at h <;> subst h
    · rw [if_pos rfl]
    · rw [if_neg d2, if_neg d3, if_pos rfl]
    · rw [if_neg d1, if_pos rfl]
    · rw [if_neg d4, if_neg d5, if_neg d6, if_pos rfl]

theorem tagNumber_ok {c d : Class} {n : Nat} {toks : List Tok} :
    tagNumber c toks = .ok (d, n) ↔ toks = [.int n] ∧ d = c ∧ n < 2 ^ 16 := by
  unfold tagNumber
  split
  · rename_i m
    split
    · rename_i h
      constructor
      · intro e; cases e; exact ⟨rfl, rfl, h⟩
      · rintro ⟨e, rfl, _⟩; cases e; rfl
    · rename_i h
      constructor
      · intro e; cases e
      · rintro ⟨e, _, h'⟩; cases e; exact absurd h' h
  · rename_i h
    constructor
    · intro e; cases e
    · rintro ⟨e, _⟩; exact absurd e (h n)

/-- **C111** The arguments of a tag attribute: a class, or none for context-specific, and a number below
65536; nothing else is accepted. -/
theorem C111_tag_args (toks : List Tok) (c : Class) (n : Nat) :
    parseTagArgs toks = .ok (c, n) ↔ TagArgs toks c n := by
  unfold TagArgs
  cases toks with
  | nil => simp [parseTagArgs, tagNumber]
  | cons t rest =>
    cases t with
    | ident s =>
      simp only [parseTagArgs]
      cases hc : tagClass s with
      | error e =>
        simp only [bind, Except.bind]
        constructor
        · intro h; cases h
        · rintro ⟨_, ⟨h, _⟩ | ⟨s', h, h2⟩⟩
          · cases h
          · cases h; rw [tagClass_ok.mpr h2] at hc; cases hc
      | ok d =>
        simp only [bind, Except.bind, tagNumber_ok]
        constructor
        · rintro ⟨rfl, rfl, h⟩
          exact ⟨h, .inr ⟨s, rfl, tagClass_ok.mp hc⟩⟩
        · rintro ⟨hn, ⟨h, _⟩ | ⟨s', h, h2⟩⟩
          · cases h
          · cases h
            rw [tagClass_ok.mpr h2] at hc
            cases hc
            exact ⟨rfl, rfl, hn⟩
    | int m =>
      show tagNumber _ _ = _ ↔ _
      rw [tagNumber_ok]
      constructor
      · rintro ⟨h, rfl, hn⟩; exact ⟨hn, .inl ⟨h, rfl⟩⟩
      · rintro ⟨hn, ⟨h, rfl⟩ | ⟨s', h, h2⟩⟩
        · exact ⟨h, rfl, hn⟩
        · cases h
    | other =>
      have e : parseTagArgs (.other :: rest) = tagNumber .contextSpecific (.other :: rest) := by
        simp [parseTagArgs]
      rw [e, tagNumber_ok]
      constructor
      · rintro ⟨h, rfl, hn⟩; cases h
      · rintro ⟨hn, ⟨h, rfl⟩ | ⟨s', h, h2⟩⟩ <;> cases h

example : parseTagArgs [.int 5] = .ok (.contextSpecific, 5) ∧
    parseTagArgs [.ident "Application", .int 65535] = .ok (.application, 65535) ∧
    parseTagArgs [.int 65536] = .error .refused ∧ parseTagArgs [.ident "CONTEXT", .int 1] = .error .refused := by
  decide +kernel

theorem upper_dash (c : Char) (h : c.toUpper = '-') : c = '-' := by
  unfold Char.toUpper at h
  split at h
  · rename_i hc
    exfalso
    have hv := congrArg Char.val h
    simp only at hv
    have l1 := hc.1
    have l2 := hc.2
    have : c.val + ('A'.val - 'a'.val) = 45 := hv
    have l1' : (97 : UInt32) ≤ c.val := l1
    have l2' : c.val ≤ (122 : UInt32) := l2
    have := congrArg UInt32.toNat this
    rw [UInt32.le_iff_toNat_le] at l1' l2'
    rw [UInt32.toNat_add] at this
    have k : ('A'.val - 'a'.val).toNat = 4294967264 := by decide
    have k1 : (97 : UInt32).toNat = 97 := rfl
    have k2 : (122 : UInt32).toNat = 122 := rfl
    have k3 : (45 : UInt32).toNat = 45 := rfl
    rw [k, k3] at this
    omega
  · exact h

/-- **C111** Deviation: the word `CONTEXT-SPECIFIC`, which the macro looks for, cannot be written: it contains a
`-`, which no identifier does. A tag with a class before the number is never context-specific. -/
theorem C111_context_specific_deviation (s : String) (h : '-' ∉ s.toList) (rest : List Tok) (n : Nat) :
    parseTagArgs (.ident s :: rest) ≠ .ok (.contextSpecific, n) := by
  intro hp
  obtain ⟨_, ⟨h1, _⟩ | ⟨s', h1, h2⟩⟩ := (C111_tag_args _ _ _).mp hp
  · cases h1
  · cases h1
    unfold NamesClass at h2
    have hm : '-' ∈ (classWord .contextSpecific).toList := by decide +kernel
    rw [← h2, List.mem_map] at hm
    obtain ⟨c, hc, he⟩ := hm
    rw [upper_dash c he] at hc
    exact h hc

/-- A case. -/
example : parseTagArgs [.ident "APPLICATION", .int 5] = .ok (.application, 5) ∧ '-' ∉ "APPLICATION".toList := by
  decide +kernel

/-! ### The attributes of a field -/

theorem item_ok {info info' : FieldInfo E} {it : Item E} :
    info.item it = .ok info' ↔ ∃ e, ParseItem it e ∧ info' = { info with parse := some e } := by
  obtain ⟨path, value⟩ := it
  unfold FieldInfo.item ParseItem
  dsimp only
  split
  · rename_i hp
    subst hp
    split
    · rename_i ids e
      constructor
      · intro h; cases h; exact ⟨e, ⟨ids, rfl⟩, rfl⟩
      · rintro ⟨e', ⟨ids', h⟩, rfl⟩; cases h; rfl
    · rename_i hv
      constructor
      · intro h; cases h
      · rintro ⟨e', ⟨ids', h⟩, rfl⟩; cases h; exact absurd rfl (hv _ _)
  · rename_i hp
    constructor
    · intro h; cases h
    · rintro ⟨e', ⟨ids', h⟩, _⟩; cases h; exact absurd rfl hp

theorem items_ok {info info' : FieldInfo E} {items : List (Item E)} :
    items.foldlM FieldInfo.item info = .ok info' ↔ (∀ it ∈ items, ∃ e, ParseItem it e) ∧
      (items = [] ∧ info' = info ∨
        ∃ pre it e, items = pre ++ [it] ∧ ParseItem it e ∧ info' = { info with parse := some e }) := by
  induction items using snocInd generalizing info' with
  | h0 =>
    simp only [List.foldlM_nil, pure, Except.pure]
    constructor
    · intro h; cases h; exact ⟨by simp, .inl (by simp)⟩
    · rintro ⟨_, ⟨_, rfl⟩ | ⟨pre, it, e, h, _⟩⟩
      · rfl
      · simp at h
  | h1 l a ih =>
    rw [foldlM_snoc]
    constructor
    · rintro ⟨i, h1, h2⟩
      obtain ⟨h3, h4⟩ := ih.mp h1
      obtain ⟨e, h5, rfl⟩ := item_ok.mp h2
      refine ⟨?_, .inr ⟨l, a, e, rfl, h5, ?_⟩⟩
      · intro it hit
        rcases List.mem_append.mp hit with hit | hit
        · exact h3 it hit
        · rw [List.mem_singleton.mp hit]; exact ⟨e, h5⟩
      · rcases h4 with ⟨_, rfl⟩ | ⟨_, _, _, _, _, rfl⟩ <;> rfl
    · rintro ⟨h1, ⟨h2, _⟩ | ⟨pre, it, e, h2, h3, rfl⟩⟩
      · simp at h2
      · obtain ⟨rfl, h4⟩ := List.append_inj' h2 rfl
        cases h4
        have hl : ∀ it ∈ l, ∃ e, ParseItem it e := fun it hit => h1 it (List.mem_append_left _ hit)
        by_cases hn : l = []
        · exact ⟨info, ih.mpr ⟨hl, .inl ⟨hn, rfl⟩⟩, item_ok.mpr ⟨e, h3, rfl⟩⟩
        · have hd := List.dropLast_concat_getLast hn
          obtain ⟨e', he'⟩ := hl _ (List.getLast_mem hn)
          exact ⟨_, ih.mpr ⟨hl, .inr ⟨_, _, e', hd.symm, he', rfl⟩⟩, item_ok.mpr ⟨e, h3, rfl⟩⟩

theorem lastArg_snoc {name : String} {l : List (Attr E)} {a : Attr E} {e : E} :
    LastArg name (l ++ [a]) e ↔ a.path = some name ∧ a.expr = some e ∨ a.path ≠ some name ∧ LastArg name l e := by
  constructor
  · rintro ⟨pre, b, post, h, h1, h2, h3⟩
    by_cases hp : post = []
    · subst hp
      obtain ⟨rfl, hb⟩ := List.append_inj' h rfl
      cases hb
      exact .inl ⟨h1, h2⟩
    · have hd := List.dropLast_concat_getLast hp
      rw [← hd, ← List.cons_append, ← List.append_assoc] at h
      obtain ⟨h4, h5⟩ := List.append_inj' h rfl
      cases h5
      exact .inr ⟨h3 _ (List.getLast_mem hp), pre, b, _, h4, h1, h2,
        fun c hc => h3 c (List.dropLast_subset _ hc)⟩
  · rintro (⟨h1, h2⟩ | ⟨h1, pre, b, post, rfl, h2, h3, h4⟩)
    · exact ⟨l, a, [], rfl, h1, h2, by simp⟩
    · refine ⟨pre, b, post ++ [a], by simp, h2, h3, ?_⟩
      intro c hc
      rcases List.mem_append.mp hc with hc | hc
      · exact h4 c hc
      · rw [List.mem_singleton.mp hc]; exact h1

theorem lastParse_snoc {l : List (Attr E)} {a : Attr E} {e : E} :
    LastParse (l ++ [a]) e ↔
      (a.path = some "asn1" ∧ ∃ pre it, a.items = some (pre ++ [it]) ∧ ParseItem it e) ∨
      (a.path = some "asn1" → a.items = some []) ∧ LastParse l e := by
  constructor
  · rintro ⟨pre, b, post, ipre, it, h, h1, h2, h3, h4⟩
    by_cases hp : post = []
    · subst hp
      obtain ⟨rfl, hb⟩ := List.append_inj' h rfl
      cases hb
      exact .inl ⟨h1, ipre, it, h2, h3⟩
    · have hd := List.dropLast_concat_getLast hp
      rw [← hd, ← List.cons_append, ← List.append_assoc] at h
      obtain ⟨h5, h6⟩ := List.append_inj' h rfl
      cases h6
      exact .inr ⟨h4 _ (List.getLast_mem hp), pre, b, _, ipre, it, h5, h1, h2, h3,
        fun c hc => h4 c (List.dropLast_subset _ hc)⟩
  · rintro (⟨h1, ipre, it, h2, h3⟩ | ⟨h1, pre, b, post, ipre, it, rfl, h2, h3, h4, h5⟩)
    · exact ⟨l, a, [], ipre, it, rfl, h1, h2, h3, by simp⟩
    · refine ⟨pre, b, post ++ [a], ipre, it, by simp, h2, h3, h4, ?_⟩
      intro c hc
      rcases List.mem_append.mp hc with hc | hc
      · exact h5 c hc
      · rw [List.mem_singleton.mp hc]; exact h1

theorem setTag_ok {info info' : FieldInfo E} {k : TagKind} {toks : Option (List Tok)} :
    info.setTag k toks = .ok info' ↔ info.tag = none ∧
      ∃ ts c n, toks = some ts ∧ TagArgs ts c n ∧ info' = { info with tag := some (k, c, n) } := by
  unfold FieldInfo.setTag
  cases ht : info.tag with
  | some x => simp
  | none =>
    rw [if_neg (by simp)]
    cases toks with
    | none => simp
    | some ts =>
      cases hp : parseTagArgs ts with
      | error e =>
        simp only [Option.map, hp]
        constructor
        · intro h; cases h
        · rintro ⟨_, ts', c, n, h1, h2, _⟩
          cases h1
          rw [(C111_tag_args _ _ _).mpr h2] at hp; cases hp
      | ok cn =>
        obtain ⟨c, n⟩ := cn
        simp only [Option.map, hp]
        constructor
        · intro h; cases h
          exact ⟨trivial, ts, c, n, rfl, (C111_tag_args _ _ _).mp hp, rfl⟩
        · rintro ⟨_, ts', c', n', h1, h2, rfl⟩
          cases h1
          rw [(C111_tag_args _ _ _).mpr h2] at hp; cases hp; rfl

theorem tagArgs_unique {toks : List Tok} {c c' : Class} {n n' : Nat} (h : TagArgs toks c n)
    (h' : TagArgs toks c' n') : c = c' ∧ n = n' := by
  have h1 := (C111_tag_args _ _ _).mpr h
  rw [(C111_tag_args _ _ _).mpr h'] at h1
  cases h1
  exact ⟨rfl, rfl⟩

theorem tagAttr_inj {k k' : TagKind} (h : tagAttr k = tagAttr k') : k = k' := by
  cases k <;> cases k' <;> first | rfl | (simp [tagAttr] at h)

theorem exists_tagKind {p : TagKind → Prop} : (∃ k, p k) ↔ p .explicit ∨ p .implicit :=
  ⟨fun ⟨k, h⟩ => match k, h with | .explicit, h => .inl h | .implicit, h => .inr h, fun h => h.elim (fun h => ⟨_, h⟩) (fun h => ⟨_, h⟩)⟩

theorem admissible_snoc {l : List (Attr E)} {a : Attr E} :
    Admissible (l ++ [a]) ↔ Admissible l ∧ (a.path = some "map_err" → a.expr ≠ none) ∧
      (a.path = some "default" → a.expr ≠ none) ∧
      (GivesTag a → (∃ toks c n, a.toks = some toks ∧ TagArgs toks c n) ∧ ∀ b ∈ l, ¬ GivesTag b) ∧
      (a.path = some "asn1" → ∃ items, a.items = some items ∧ ∀ it ∈ items, ∃ e, ParseItem it e) := by
  constructor
  · intro h
    have hl : ∀ b ∈ l, b ∈ l ++ [a] := fun b hb => List.mem_append_left _ hb
    have ha : a ∈ l ++ [a] := by simp
    have hp := List.pairwise_append.mp h.oneTag
    exact ⟨⟨fun b hb => h.mapErr b (hl b hb), fun b hb => h.default b (hl b hb), fun b hb => h.tag b (hl b hb),
      hp.1, fun b hb => h.asn1 b (hl b hb)⟩, h.mapErr a ha, h.default a ha,
      fun hg => ⟨h.tag a ha hg, fun b hb hb' => hp.2.2 b hb a (by simp) ⟨hb', hg⟩⟩, h.asn1 a ha⟩
  · rintro ⟨h, h1, h2, h3, h4⟩
    have hm : ∀ b ∈ l ++ [a], b ∈ l ∨ b = a := by simp
    refine ⟨fun b hb => ?_, fun b hb => ?_, fun b hb => ?_, ?_, fun b hb => ?_⟩
    · rcases hm b hb with hb | rfl
      · exact h.mapErr b hb
      · exact h1
    · rcases hm b hb with hb | rfl
      · exact h.default b hb
      · exact h2
    · rcases hm b hb with hb | rfl
      · exact h.tag b hb
      · exact fun hg => (h3 hg).1
    · refine List.pairwise_append.mpr ⟨h.oneTag, by simp, ?_⟩
      intro b hb c hc ⟨h5, h6⟩
      rw [List.mem_singleton.mp hc] at h6
      exact (h3 h6).2 b hb h5
    · rcases hm b hb with hb | rfl
      · exact h.asn1 b hb
      · exact h4

/-- The step of the loop, without the loop: what it needs and what it changes. -/
theorem step_ok {info info' : FieldInfo E} {a : Attr E} :
    info.step a = .ok info' ↔
      (a.path = some "map_err" ∧ ∃ e, a.expr = some e ∧ info' = { info with mapErr := some e }) ∨
      (a.path = some "default" ∧ ∃ e, a.expr = some e ∧ info' = { info with default := some e, optional := true }) ∨
      (a.path = some "optional" ∧ info' = { info with optional := true }) ∨
      (∃ k ts c n, a.path = some (tagAttr k) ∧ info.tag = none ∧ a.toks = some ts ∧ TagArgs ts c n ∧
        info' = { info with tag := some (k, c, n) }) ∨
      (a.path = some "asn1" ∧ ∃ items, a.items = some items ∧ items.foldlM FieldInfo.item info = .ok info') ∨
      ((∀ s ∈ fieldAttrs, a.path ≠ some s) ∧ info' = info) := by
  obtain ⟨path, toks, expr, items⟩ := a
  unfold FieldInfo.step
  dsimp only
  by_cases h1 : path = some "map_err"
  · subst h1
    rw [if_pos rfl]
    cases expr with
    | none => simp [fieldAttrs, exists_tagKind, tagAttr]
    | some e => simp [fieldAttrs, exists_tagKind, tagAttr, eq_comm]
  rw [if_neg h1]
  by_cases h2 : path = some "default"
  · subst h2
    rw [if_pos rfl]
    cases expr with
    | none => simp [fieldAttrs, exists_tagKind, tagAttr]
    | some e => simp [fieldAttrs, exists_tagKind, tagAttr, eq_comm]
  rw [if_neg h2]
  by_cases h3 : path = some "optional"
  · subst h3
    rw [if_pos rfl]
    simp [fieldAttrs, exists_tagKind, tagAttr, eq_comm]
  rw [if_neg h3]
  by_cases h4 : path = some "tag_explicit"
  · subst h4
    rw [if_pos rfl, setTag_ok]
    simp [fieldAttrs, exists_tagKind, tagAttr]
  rw [if_neg h4]
  by_cases h5 : path = some "tag_implicit"
  · subst h5
    rw [if_pos rfl, setTag_ok]
    simp [fieldAttrs, exists_tagKind, tagAttr]
  rw [if_neg h5]
  by_cases h6 : path = some "asn1"
  · subst h6
    rw [if_pos rfl]
    cases items with
    | none => simp [fieldAttrs, exists_tagKind, tagAttr]
    | some e => simp [fieldAttrs, exists_tagKind, tagAttr]
  rw [if_neg h6]
  simp [fieldAttrs, exists_tagKind, tagAttr, h1, h2, h3, h4, h5, h6, eq_comm]

theorem givesTag_iff {a : Attr E} : GivesTag a ↔ a.path = some "tag_explicit" ∨ a.path = some "tag_implicit" := by
  unfold GivesTag
  rw [exists_tagKind]
  rfl

theorem says_of_ok (attrs : List (Attr E)) {info : FieldInfo E} (h : FieldInfo.ofAttrs attrs = .ok info) :
    Admissible attrs ∧ Says attrs info := by
  unfold FieldInfo.ofAttrs at h
  induction attrs using snocInd generalizing info with
  | h0 =>
    cases h
    refine ⟨⟨by simp, by simp, by simp, .nil, by simp⟩, ⟨?_, ?_, by simp, by simp, ?_⟩⟩
    · intro e; simp [LastArg]
    · intro e; simp [LastArg]
    · intro e; simp [LastParse]
  | h1 l a ih =>
    obtain ⟨i, h1, h2⟩ := foldlM_snoc _ _ _ _ |>.mp h
    obtain ⟨ha, hs⟩ := ih h1
    have hm : ∀ p : Attr E → Prop, (∃ b ∈ l ++ [a], p b) ↔ (∃ b ∈ l, p b) ∨ p a := by
      intro p
      constructor
      · rintro ⟨b, hb, h⟩
        rcases List.mem_append.mp hb with hb | hb
        · exact .inl ⟨b, hb, h⟩
        · rw [List.mem_singleton.mp hb] at h; exact .inr h
      · rintro (⟨b, hb, h⟩ | h)
        · exact ⟨b, List.mem_append_left _ hb, h⟩
        · exact ⟨a, by simp, h⟩
    rw [admissible_snoc]
    rcases step_ok.mp h2 with ⟨p, e, h3, rfl⟩ | ⟨p, e, h3, rfl⟩ | ⟨p, rfl⟩ | ⟨k, ts, c, n, p, h3, h4, h5, rfl⟩ |
        ⟨p, items, h3, h4⟩ | ⟨p, rfl⟩
    · refine ⟨⟨ha, by simp [h3], by simp [p], by simp [givesTag_iff, p], by simp [p]⟩, ⟨?_, ?_, ?_, ?_, ?_⟩⟩
      · intro e; simp [lastArg_snoc, p, hs.default]
      · intro e'; simp [lastArg_snoc, p, h3]
      · rw [hm]; simp [p, hs.optional]
      · intro k c n; rw [hm, hs.tag]; cases k <;> simp [p, tagAttr]
      · intro e; simp [lastParse_snoc, p, hs.parse]
    · refine ⟨⟨ha, by simp [p], by simp [h3], by simp [givesTag_iff, p], by simp [p]⟩, ⟨?_, ?_, ?_, ?_, ?_⟩⟩
      · intro e'; simp [lastArg_snoc, p, h3]
      · intro e; simp [lastArg_snoc, p, hs.mapErr]
      · rw [hm]; simp [p]
      · intro k c n; rw [hm, hs.tag]; cases k <;> simp [p, tagAttr]
      · intro e; simp [lastParse_snoc, p, hs.parse]
    · refine ⟨⟨ha, by simp [p], by simp [p], by simp [givesTag_iff, p], by simp [p]⟩, ⟨?_, ?_, ?_, ?_, ?_⟩⟩
      · intro e; simp [lastArg_snoc, p, hs.default]
      · intro e; simp [lastArg_snoc, p, hs.mapErr]
      · rw [hm]; simp [p]
      · intro k c n; rw [hm, hs.tag]; cases k <;> simp [p, tagAttr]
      · intro e; simp [lastParse_snoc, p, hs.parse]
    · have hno : ∀ b ∈ l, ¬ GivesTag b := by
        rintro b hb ⟨k', hk'⟩
        obtain ⟨toks, c', n', h6, h7⟩ := ha.tag b hb ⟨k', hk'⟩
        have := (hs.tag k' c' n').mpr ⟨b, hb, hk', toks, h6, h7⟩
        rw [h3] at this; cases this
      have pn : ∀ s, s ∉ ["tag_explicit", "tag_implicit"] → a.path ≠ some s := by
        intro s hs he
        rw [he] at p
        cases p
        apply hs
        cases k <;> simp [tagAttr]
      have q1 := pn "map_err" (by simp)
      have q2 := pn "default" (by simp)
      have q3 := pn "optional" (by simp)
      have q4 := pn "asn1" (by simp)
      refine ⟨⟨ha, by simp [q1], by simp [q2], fun _ => ⟨⟨ts, c, n, h4, h5⟩, hno⟩, by simp [q4]⟩,
        ⟨?_, ?_, ?_, ?_, ?_⟩⟩
      · intro e; simp [lastArg_snoc, q2, hs.default]
      · intro e; simp [lastArg_snoc, q1, hs.mapErr]
      · rw [hm]; simp [q2, q3, hs.optional]
      · intro k' c' n'
        rw [hm]
        constructor
        · intro h; cases h; exact .inr ⟨p, ts, h4, h5⟩
        · rintro (⟨b, hb, hk, _⟩ | ⟨hk, toks, h6, h7⟩)
          · exact absurd ⟨_, hk⟩ (hno b hb)
          · rw [p] at hk
            cases tagAttr_inj (Option.some.inj hk)
            rw [h4] at h6
            cases h6
            obtain ⟨rfl, rfl⟩ := tagArgs_unique h5 h7
            rfl
      · intro e; simp [lastParse_snoc, q4, hs.parse]
    · obtain ⟨h5, h6⟩ := items_ok.mp h4
      have hf : info.default = i.default ∧ info.mapErr = i.mapErr ∧ info.optional = i.optional ∧
          info.tag = i.tag := by
        rcases h6 with ⟨_, rfl⟩ | ⟨_, _, _, _, _, rfl⟩ <;> exact ⟨rfl, rfl, rfl, rfl⟩
      obtain ⟨f1, f2, f3, f4⟩ := hf
      refine ⟨⟨ha, by simp [p], by simp [p], by simp [givesTag_iff, p], fun _ => ⟨items, h3, h5⟩⟩,
        ⟨?_, ?_, ?_, ?_, ?_⟩⟩
      · intro e; rw [f1]; simp [lastArg_snoc, p, hs.default]
      · intro e; rw [f2]; simp [lastArg_snoc, p, hs.mapErr]
      · rw [hm, f3]; simp [p, hs.optional]
      · intro k c n; rw [hm, f4, hs.tag]; cases k <;> simp [p, tagAttr]
      · intro e
        rw [lastParse_snoc]
        rcases h6 with ⟨rfl, rfl⟩ | ⟨pre, it, e', rfl, h7, rfl⟩
        · simp [p, h3, hs.parse]
        · constructor
          · intro h; cases h; exact .inl ⟨p, pre, it, h3, h7⟩
          · rintro (⟨_, pre', it', h8, h9⟩ | ⟨h8, _⟩)
            · rw [h3] at h8
              obtain ⟨_, h10⟩ := List.append_inj' (Option.some.inj h8) rfl
              cases h10
              obtain ⟨_, rfl⟩ := h7
              obtain ⟨_, h11⟩ := h9
              cases h11
              rfl
            · have := h8 p
              rw [h3] at this
              simp at this
    · have q : ∀ s ∈ fieldAttrs, a.path ≠ some s := p
      simp only [fieldAttrs, List.mem_cons, List.not_mem_nil, or_false, forall_eq_or_imp, forall_eq] at q
      obtain ⟨q1, q2, q3, q4, q5, q6⟩ := q
      refine ⟨⟨ha, by simp [q1], by simp [q2], by simp [givesTag_iff, q4, q5], by simp [q6]⟩,
        ⟨?_, ?_, ?_, ?_, ?_⟩⟩
      · intro e; simp [lastArg_snoc, q2, hs.default]
      · intro e; simp [lastArg_snoc, q1, hs.mapErr]
      · rw [hm]; simp [q2, q3, hs.optional]
      · intro k c n; rw [hm, hs.tag]; cases k <;> simp [q4, q5, tagAttr]
      · intro e; simp [lastParse_snoc, q6, hs.parse]

theorem ok_of_admissible (attrs : List (Attr E)) (h : Admissible attrs) :
    ∃ info, FieldInfo.ofAttrs attrs = .ok info := by
  induction attrs using snocInd with
  | h0 => exact ⟨_, rfl⟩
  | h1 l a ih =>
    obtain ⟨ha, h1, h2, h3, h4⟩ := admissible_snoc.mp h
    obtain ⟨i, hi⟩ := ih ha
    obtain ⟨_, hs⟩ := says_of_ok l hi
    suffices ∃ info, i.step a = .ok info by
      obtain ⟨info, hinfo⟩ := this
      exact ⟨info, (foldlM_snoc _ _ _ _).mpr ⟨i, hi, hinfo⟩⟩
    by_cases p1 : a.path = some "map_err"
    · cases he : a.expr with
      | none => exact absurd he (h1 p1)
      | some e => exact ⟨_, step_ok.mpr (.inl ⟨p1, e, he, rfl⟩)⟩
    by_cases p2 : a.path = some "default"
    · cases he : a.expr with
      | none => exact absurd he (h2 p2)
      | some e => exact ⟨_, step_ok.mpr (.inr (.inl ⟨p2, e, he, rfl⟩))⟩
    by_cases p3 : a.path = some "optional"
    · exact ⟨_, step_ok.mpr (.inr (.inr (.inl ⟨p3, rfl⟩)))⟩
    by_cases p4 : GivesTag a
    · obtain ⟨⟨ts, c, n, h5, h6⟩, h7⟩ := h3 p4
      obtain ⟨k, hk⟩ := p4
      have hn : i.tag = none := by
        cases ht : i.tag with
        | none => rfl
        | some x =>
          obtain ⟨k', c', n'⟩ := x
          obtain ⟨b, hb, hk', _⟩ := (hs.tag k' c' n').mp ht
          exact absurd ⟨k', hk'⟩ (h7 b hb)
      exact ⟨_, step_ok.mpr (.inr (.inr (.inr (.inl ⟨k, ts, c, n, hk, hn, h5, h6, rfl⟩))))⟩
    by_cases p5 : a.path = some "asn1"
    · obtain ⟨items, h5, h6⟩ := h4 p5
      have : ∃ info, items.foldlM FieldInfo.item i = .ok info := by
        by_cases hn : items = []
        · exact ⟨i, items_ok.mpr ⟨h6, .inl ⟨hn, rfl⟩⟩⟩
        · obtain ⟨e, he⟩ := h6 _ (List.getLast_mem hn)
          exact ⟨_, items_ok.mpr ⟨h6, .inr ⟨_, _, e, (List.dropLast_concat_getLast hn).symm, he, rfl⟩⟩⟩
      obtain ⟨info, hinfo⟩ := this
      exact ⟨info, step_ok.mpr (.inr (.inr (.inr (.inr (.inl ⟨p5, items, h5, hinfo⟩)))))⟩
    · refine ⟨i, step_ok.mpr (.inr (.inr (.inr (.inr (.inr ⟨?_, rfl⟩)))))⟩
      rw [givesTag_iff] at p4
      have p6 : a.path ≠ some "tag_explicit" := fun h => p4 (.inl h)
      have p7 : a.path ≠ some "tag_implicit" := fun h => p4 (.inr h)
      simp [fieldAttrs, p1, p2, p3, p5, p6, p7]

theorem says_unique {attrs : List (Attr E)} {i j : FieldInfo E} (hi : Says attrs i) (hj : Says attrs j) : i = j := by
  obtain ⟨d1, o1, t1, m1, p1⟩ := i
  obtain ⟨d2, o2, t2, m2, p2⟩ := j
  have opt : ∀ {α : Type} {x y : Option α}, (∀ e, x = some e ↔ y = some e) → x = y := by
    intro α x y h
    cases x with
    | none =>
      cases y with
      | none => rfl
      | some e => exact ((h e).mpr rfl)
    | some e => exact ((h e).mp rfl).symm
  have h1 : d1 = d2 := opt fun e => (hi.default e).trans (hj.default e).symm
  have h2 : m1 = m2 := opt fun e => (hi.mapErr e).trans (hj.mapErr e).symm
  have h3 : p1 = p2 := opt fun e => (hi.parse e).trans (hj.parse e).symm
  have h4 : t1 = t2 := opt fun ⟨k, c, n⟩ => (hi.tag k c n).trans (hj.tag k c n).symm
  have h5 : o1 = o2 := Bool.eq_iff_iff.mpr (hi.optional.trans hj.optional.symm)
  subst h1 h2 h3 h4 h5
  rfl

/-- **C111** The macro accepts the attributes of a field exactly when those it knows have the right arguments
and there is at most one tag; what it then knows about the field is what the attributes say. -/
theorem C111_field_attributes (attrs : List (Attr E)) (info : FieldInfo E) :
    FieldInfo.ofAttrs attrs = .ok info ↔ Admissible attrs ∧ Says attrs info := by
  constructor
  · exact says_of_ok attrs
  · rintro ⟨h1, h2⟩
    obtain ⟨i, hi⟩ := ok_of_admissible attrs h1
    rw [hi, says_unique h2 (says_of_ok attrs hi).2]

/-- **C111** Attributes that the macro does not know (documentation, attributes of other macros) change
nothing. -/
theorem C111_others_ignored (attrs : List (Attr E)) :
    FieldInfo.ofAttrs attrs =
      FieldInfo.ofAttrs (attrs.filter fun a => fieldAttrs.any fun s => a.path == some s) := by
  unfold FieldInfo.ofAttrs
  generalize ({} : FieldInfo E) = i
  induction attrs generalizing i with
  | nil => rfl
  | cons a l ih =>
    rw [List.filter_cons]
    split
    · rw [List.foldlM_cons, List.foldlM_cons]
      cases h : i.step a with
      | error e => rfl
      | ok j => exact ih j
    · rename_i h
      have hs : i.step a = .ok i := by
        refine step_ok.mpr (.inr (.inr (.inr (.inr (.inr ⟨?_, rfl⟩)))))
        intro s hs he
        apply h
        rw [List.any_eq_true]
        exact ⟨s, hs, by simp [he]⟩
      rw [List.foldlM_cons, hs]
      exact ih i

theorem noRepeat_split {pre post : List (Attr E)} {a : Attr E} (h : NoRepeat (pre ++ a :: post)) {s : String}
    (hs : s ∈ fieldAttrs) (ha : a.path = some s) : ∀ b ∈ post, b.path ≠ some s := by
  intro b hb he
  have h1 := (List.pairwise_append.mp h).2.1
  have h2 := (List.pairwise_cons.mp h1).1 b hb
  exact h2 (ha.trans he.symm) s hs ha

theorem lastArg_mem {attrs : List (Attr E)} (h : NoRepeat attrs) {s : String} (hs : s ∈ fieldAttrs) (e : E) :
    LastArg s attrs e ↔ ∃ a ∈ attrs, a.path = some s ∧ a.expr = some e := by
  constructor
  · rintro ⟨pre, a, post, rfl, h1, h2, _⟩
    exact ⟨a, by simp, h1, h2⟩
  · rintro ⟨a, ha, h1, h2⟩
    obtain ⟨pre, post, rfl⟩ := List.append_of_mem ha
    exact ⟨pre, a, post, rfl, h1, h2, noRepeat_split h hs h1⟩

theorem lastParse_mem {attrs : List (Attr E)} (h : NoRepeat attrs) (e : E) :
    LastParse attrs e ↔ ∃ a ∈ attrs, a.path = some "asn1" ∧ ∃ pre it, a.items = some (pre ++ [it]) ∧
      ParseItem it e := by
  constructor
  · rintro ⟨pre, a, post, ipre, it, rfl, h1, h2, h3, _⟩
    exact ⟨a, by simp, h1, ipre, it, h2, h3⟩
  · rintro ⟨a, ha, h1, ipre, it, h2, h3⟩
    obtain ⟨pre, post, rfl⟩ := List.append_of_mem ha
    exact ⟨pre, a, post, ipre, it, rfl, h1, h2, h3,
      fun b hb hb' => absurd hb' (noRepeat_split h (by simp [fieldAttrs]) h1 b hb)⟩

theorem noRepeat_perm {l l' : List (Attr E)} (hp : l.Perm l') (h : NoRepeat l) : NoRepeat l' := by
  refine (hp.pairwise_iff ?_).mp h
  intro x y hxy (e : y.path = x.path) s hs hn
  exact hxy e.symm s hs (e ▸ hn)

/-- **C111** The order in which the attributes of a field are written does not matter, as long as none of those
the macro knows is written twice. -/
theorem C111_any_order {attrs attrs' : List (Attr E)} (hp : attrs.Perm attrs') (h : NoRepeat attrs)
    (info : FieldInfo E) : FieldInfo.ofAttrs attrs = .ok info ↔ FieldInfo.ofAttrs attrs' = .ok info := by
  have key : ∀ {l l' : List (Attr E)}, l.Perm l' → NoRepeat l → FieldInfo.ofAttrs l = .ok info →
      FieldInfo.ofAttrs l' = .ok info := by
    intro l l' hp h hi
    have h' : NoRepeat l' := noRepeat_perm hp h
    obtain ⟨ha, hs⟩ := (C111_field_attributes _ _).mp hi
    have hm : ∀ a, a ∈ l' ↔ a ∈ l := fun a => hp.mem_iff.symm
    have d1 : "default" ∈ fieldAttrs := by simp [fieldAttrs]
    have d2 : "map_err" ∈ fieldAttrs := by simp [fieldAttrs]
    refine (C111_field_attributes _ _).mpr ⟨⟨?_, ?_, ?_, ?_, ?_⟩, ⟨?_, ?_, ?_, ?_, ?_⟩⟩
    · exact fun a hl => ha.mapErr a ((hm a).mp hl)
    · exact fun a hl => ha.default a ((hm a).mp hl)
    · exact fun a hl => ha.tag a ((hm a).mp hl)
    · exact (hp.pairwise_iff (fun {x y} hxy => fun ⟨u, v⟩ => hxy ⟨v, u⟩)).mp ha.oneTag
    · exact fun a hl => ha.asn1 a ((hm a).mp hl)
    · intro e; rw [hs.default, lastArg_mem h d1, lastArg_mem h' d1]; simp only [hm]
    · intro e; rw [hs.mapErr, lastArg_mem h d2, lastArg_mem h' d2]; simp only [hm]
    · rw [hs.optional]; simp only [hm]
    · intro k c n; rw [hs.tag]; simp only [hm]
    · intro e; rw [hs.parse, lastParse_mem h, lastParse_mem h']; simp only [hm]
  have h' : NoRepeat attrs' := noRepeat_perm hp h
  exact ⟨key hp h, key hp.symm h'⟩

theorem fieldTag_of {attrs : List (Attr E)} {info : FieldInfo E} (h : FieldInfo.ofAttrs attrs = .ok info) :
    TagOf attrs info.fieldTag := by
  obtain ⟨ha, hs⟩ := (C111_field_attributes _ _).mp h
  unfold FieldInfo.fieldTag
  cases ht : info.tag with
  | none =>
    rintro a hl hg
    obtain ⟨toks, c, n, h1, h2⟩ := ha.tag a hl hg
    obtain ⟨k, hk⟩ := hg
    have := (hs.tag k c n).mpr ⟨a, hl, hk, toks, h1, h2⟩
    rw [ht] at this
    cases this
  | some x =>
    obtain ⟨k, c, n⟩ := x
    cases k with
    | explicit => exact (hs.tag .explicit c n).mp ht
    | implicit => exact (hs.tag .implicit c n).mp ht

theorem tagOf_unique {attrs : List (Attr E)} (h : Admissible attrs) {t t' : FieldTag} (ht : TagOf attrs t)
    (ht' : TagOf attrs t') : t = t' := by
  obtain ⟨info, hi⟩ := ok_of_admissible attrs h
  obtain ⟨_, hs⟩ := says_of_ok _ hi
  have key : ∀ {t : FieldTag}, TagOf attrs t → t = info.fieldTag := by
    intro t ht
    unfold FieldInfo.fieldTag
    cases t with
    | untagged =>
      cases hx : info.tag with
      | none => rfl
      | some x =>
        obtain ⟨k, c, n⟩ := x
        obtain ⟨a, hl, hk, _⟩ := (hs.tag k c n).mp hx
        exact absurd ⟨k, hk⟩ (ht a hl)
    | explicit c n => rw [(hs.tag .explicit c n).mpr ht]
    | implicit c n => rw [(hs.tag .implicit c n).mpr ht]
  rw [key ht, key ht']

/-- **C111** What the macro generates for a field that has no parser of its own. The tag is the one of the tag
attribute. With `default`: a field with this default. Otherwise, for a field of type `Option<T>`: an optional
field, if it has a tag and is marked `optional`, or has no tag; for a field of any other type: a field that must
be there, if it is not both tagged and marked `optional` (which does not compile). In particular `optional` says
nothing about a field without a tag. -/
theorem C111_generated {T : Type} {attrs : List (Attr E)} (value : E → T) (fn : E → Input → PRes T)
    (h : Admissible attrs) (hp : ∀ a ∈ attrs, a.path ≠ some "asn1") (tag : FieldTag) (ht : TagOf attrs tag) :
    ∃ info, FieldInfo.ofAttrs attrs = .ok info ∧ info.fieldTag = tag ∧
      (∀ e (p : Parser T), LastArg "default" attrs e →
        info.field value fn (.plain p) = some (.default tag p (value e))) ∧
      ((∀ a ∈ attrs, a.path ≠ some "default") →
        (∀ p : Parser T, (tag = .untagged ∨ ∀ a ∈ attrs, a.path ≠ some "optional") →
          info.field value fn (.plain p) = some (.required tag p)) ∧
        (∀ (U : Type) (p : Parser U) (value : E → Option U) (fn : E → Input → PRes (Option U)),
          (tag = .untagged ∨ ∃ a ∈ attrs, a.path = some "optional") →
          info.field value fn (.option p) = some (.optional tag p))) := by
  obtain ⟨info, hi⟩ := ok_of_admissible attrs h
  obtain ⟨_, hs⟩ := says_of_ok _ hi
  have hpn : info.parse = none := by
    cases hx : info.parse with
    | none => rfl
    | some e =>
      obtain ⟨pre, a, post, _, _, rfl, h1, _⟩ := (hs.parse e).mp hx
      exact absurd h1 (hp a (by simp))
  have hft : info.fieldTag = tag := tagOf_unique h (fieldTag_of hi) ht
  have hun : tag = .untagged → info.tag = none := by
    intro e
    rw [e] at hft
    unfold FieldInfo.fieldTag at hft
    split at hft
    · assumption
    · cases hft
    · cases hft
  refine ⟨info, hi, hft, ?_, ?_⟩
  · intro e p he
    unfold FieldInfo.field
    rw [hpn, (hs.default e).mpr he, hft]
  · intro hd
    have hdn : info.default = none := by
      cases hx : info.default with
      | none => rfl
      | some e =>
        obtain ⟨pre, a, post, rfl, h1, _⟩ := (hs.default e).mp hx
        exact absurd h1 (hd a (by simp))
    constructor
    · intro p ho
      unfold FieldInfo.field
      rw [hpn, hdn, hft]
      dsimp only
      rw [if_neg]
      rcases ho with ho | ho
      · simp [hun ho]
      · have : info.optional = false := by
          cases hx : info.optional with
          | false => rfl
          | true =>
            obtain ⟨a, hl, h1 | h1⟩ := hs.optional.mp hx
            · exact absurd h1 (ho a hl)
            · exact absurd h1 (hd a hl)
        simp [this]
    · intro U p value fn ho
      unfold FieldInfo.field
      rw [hpn, hdn, hft]
      dsimp only
      rw [if_neg]
      rcases ho with ho | ⟨a, hl, h1⟩
      · simp [hun ho]
      · have : info.optional = true := hs.optional.mpr ⟨a, hl, .inl h1⟩
        simp [this]

theorem declared_values {Ts Us : List Type} {es : EncFields Ts} {fb fd : Fields Us} {vs : Tup Ts} {ws : Tup Us}
    (h : Declared es fb fd vs ws) : FieldValues es fb fd vs ws := by
  induction h with
  | nil => exact .nil
  | @cons r E T U Ts Us t pb pd v w es fb fd vs ws attrs info ha hp value fn f g hf hg h hr hs ht ih =>
    obtain ⟨hadm, hsays⟩ := says_of_ok _ ha
    have ht := fieldTag_of ha
    have hv : FieldTag.Valid info.fieldTag := by
      generalize info.fieldTag = tag at ht
      cases tag with
      | untagged => trivial
      | explicit c n =>
        obtain ⟨a, _, _, toks, _, h1, _⟩ := ht
        show n < 2 ^ 32
        omega
      | implicit c n =>
        obtain ⟨a, _, _, toks, _, h1, _⟩ := ht
        show n < 2 ^ 32
        omega
    have hr' : (∃ cls n, info.fieldTag = .implicit cls n) → r = true := by
      rintro ⟨c, n, e⟩
      rw [e] at ht
      obtain ⟨a, h1, h2, _⟩ := ht
      exact hr ⟨a, h1, h2⟩
    have hs' : info.fieldTag ≠ .untagged → ∀ n, t.totalLen v = .definite n → n < 2 ^ 24 := by
      intro hne
      apply hs
      revert ht hne
      generalize info.fieldTag = tag
      intro ht hne
      cases tag with
      | untagged => exact absurd rfl hne
      | explicit c n =>
        obtain ⟨a, h1, h2, _⟩ := ht
        exact ⟨a, h1, .explicit, h2⟩
      | implicit c n =>
        obtain ⟨a, h1, h2, _⟩ := ht
        exact ⟨a, h1, .implicit, h2⟩
    have hpn : info.parse = none := by
      cases hx : info.parse with
      | none => rfl
      | some e =>
        obtain ⟨pre, a, post, _, _, rfl, h1, _⟩ := (hsays.parse e).mp hx
        exact absurd h1 (hp a (by simp))
    unfold FieldInfo.field at hf hg
    rw [hpn] at hf hg
    cases hd : info.default with
    | some x =>
      rw [hd] at hf hg
      cases hf
      cases hg
      exact .default _ _ hv h hr' hs' ih
    | none =>
      rw [hd] at hf hg
      dsimp only at hf hg
      split at hf
      · cases hf
      · rename_i hc
        rw [if_neg hc] at hg
        cases hf
        cases hg
        exact .required _ hv h hr' hs' ih

/-- **C111** (partial) The parsers and the encoder that are generated from the attributes of a struct belong
together: what the encoder writes comes back through `parse_ber` and `parse_der`, whatever the tags and
defaults. Missing: fields of type `Option` (C78) or with a parser of their own, and the values excluded in
C83. -/
theorem C111_round_trip_partial {Ts Us : List Type} {es : EncFields Ts} {fb fd : Fields Us} {vs : Tup Ts}
    {ws : Tup Us} (tag : Nat) (htag : tag < 2 ^ 32) (h : Declared es fb fd vs ws) (h0 : overcount es vs = 0)
    (hs : SmallContent (structToBer tag es) vs) :
    InputBack (structToBer tag es) (structP .ber tag fb).parseBer vs ws ∧
      InputBack (structToBer tag es) (structP .der tag fd).parseDer vs ws :=
  C83_roundtrip_partial (.struct tag htag (declared_values h) h0 hs)

/-! A case: `#[doc] #[optional] #[default(5)] #[tag_explicit(APPLICATION 3)] x: u8`. -/

/-- These attributes; the expression is the number itself. -/
def exAttrs : List (Attr Nat) :=
  [{ path := some "doc" }, { path := some "optional" }, { path := some "default", expr := some 5 },
    { path := some "tag_explicit", toks := some [.ident "APPLICATION", .int 3] }]

theorem exAttrs_ok : FieldInfo.ofAttrs exAttrs =
    .ok { default := some 5, optional := true, tag := some (.explicit, .application, 3) } := by rfl

example : Admissible exAttrs := (says_of_ok exAttrs exAttrs_ok).1
example : NoRepeat exAttrs := by
  unfold NoRepeat exAttrs
  simp [fieldAttrs]
example : TagOf exAttrs (.explicit .application 3) := fieldTag_of exAttrs_ok

/-- A struct with this field only, and the value 7. -/
theorem ex_declared : Declared (.cons (.explicit .application 3) (uintToBer 1) .nil)
    (.cons (.default (.explicit .application 3) (uintC 1).ber 5) .nil)
    (.cons (.default (.explicit .application 3) (uintC 1).der 5) .nil) (7, ()) (7, ()) := by
  refine Declared.cons (r := true) exAttrs exAttrs_ok (by simp [exAttrs]) (value := id)
    (fn := fun _ i => .ok (i, 0)) rfl rfl
    (.universal (c := uintC 1) (.uint 1 (by decide) (by decide)) ⟨1, by decide +kernel, by decide⟩) (by simp) ?_ .nil
  intro _ n hn
  have : (uintToBer 1).totalLen 7 = .definite 3 := by decide +kernel
  rw [this] at hn
  injection hn with hn
  rw [← hn]; decide

example : InputBack (structToBer 16 (.cons (.explicit .application 3) (uintToBer 1) .nil))
    (structP .ber 16 (.cons (.default (.explicit .application 3) (uintC 1).ber 5) .nil)).parseBer (7, ()) (7, ()) :=
  (C111_round_trip_partial 16 (by decide) ex_declared (by decide +kernel)
    ⟨5, by decide +kernel, by decide⟩).1

/-! ### The attributes of a struct or enum -/

theorem asn1Types_ok {ids : List String} {ts : List Rules} (h : ids.mapM asn1Type = .ok ts) :
    (∀ s ∈ ids, s = "BER" ∨ s = "DER") ∧ ∀ m, m ∈ ts ↔ rulesWord m ∈ ids := by
  induction ids generalizing ts with
  | nil => cases h; simp
  | cons s ids ih =>
    rw [List.mapM_cons] at h
    obtain ⟨r, h1, h2⟩ := bindE.mp h
    obtain ⟨rs, h3, h4⟩ := bindE.mp h2
    cases h4
    obtain ⟨i1, i2⟩ := ih h3
    have hr : s = rulesWord r := by
      unfold asn1Type at h1
      split at h1
      · rename_i e; cases h1; exact e
      · split at h1
        · rename_i e; cases h1; exact e
        · cases h1
    subst hr
    refine ⟨?_, ?_⟩
    · intro s hs
      rcases List.mem_cons.mp hs with rfl | hs
      · cases r
        · exact .inl rfl
        · exact .inr rfl
      · exact i1 s hs
    · intro m
      rw [List.mem_cons, List.mem_cons, i2]
      have : m = r ↔ rulesWord m = rulesWord r := by
        cases m <;> cases r <;> simp [rulesWord]
      rw [this]

theorem asn1Types_total {ids : List String} (h : ∀ s ∈ ids, s = "BER" ∨ s = "DER") :
    ∃ ts, ids.mapM asn1Type = .ok ts := by
  induction ids with
  | nil => exact ⟨[], rfl⟩
  | cons s ids ih =>
    obtain ⟨ts, ht⟩ := ih fun s hs => h s (List.mem_cons_of_mem _ hs)
    have : ∃ r, asn1Type s = .ok r := by
      rcases h s (by simp) with rfl | rfl
      · exact ⟨.ber, by simp [asn1Type]⟩
      · exact ⟨.der, by simp [asn1Type]⟩
    obtain ⟨r, hr⟩ := this
    refine ⟨r :: ts, ?_⟩
    rw [List.mapM_cons]
    exact bindE.mpr ⟨r, hr, bindE.mpr ⟨ts, ht, rfl⟩⟩

/-- The item is one of a list of names of rules, and the list is the one for `ts`. -/
def Lists (it : Item E) (ts : List Rules) : Prop :=
  ∃ ids e, it.value = some (.str (some ids) e) ∧ (∀ s ∈ ids, s = "BER" ∨ s = "DER") ∧
    ∀ m, m ∈ ts ↔ rulesWord m ∈ ids

theorem parseMulti_ok {it : Item E} {ts : List Rules} (h : parseMulti it.value = .ok ts) : Lists it ts := by
  unfold parseMulti at h
  split at h
  · rename_i ids e hv
    obtain ⟨h1, h2⟩ := asn1Types_ok h
    exact ⟨ids, e, hv, h1, h2⟩
  · cases h

theorem optionItem_ok {o o' : Options E} {it : Item E} (h : o.item it = .ok o') :
    (it.path = some "parse" ∧ ∃ ts, Lists it ts ∧ o' = { o with parsers := ts }) ∨
    (it.path = some "encode" ∧ ∃ ts, Lists it ts ∧ o' = { o with encoders := ts }) ∨
    (it.path = some "orig_input" ∧ it.value = none ∧ o' = { o with origInput := true }) := by
  unfold Options.item at h
  split at h
  · rename_i hp
    cases hm : parseMulti it.value with
    | error e => rw [hm] at h; cases h
    | ok ts => rw [hm] at h; cases h; exact .inl ⟨hp, ts, parseMulti_ok hm, rfl⟩
  split at h
  · rename_i hp
    cases hm : parseMulti it.value with
    | error e => rw [hm] at h; cases h
    | ok ts => rw [hm] at h; cases h; exact .inr (.inl ⟨hp, ts, parseMulti_ok hm, rfl⟩)
  split at h
  · rename_i hp
    split at h
    · rename_i hv; cases h; exact .inr (.inr ⟨hp, hv, rfl⟩)
    · cases h
  · cases h

theorem optionItem_total (o : Options E) {it : Item E} (h : OptionItem it) : ∃ o', o.item it = .ok o' := by
  have hm : ∀ ids (e : Option E), it.value = some (.str (some ids) e) → (∀ s ∈ ids, s = "BER" ∨ s = "DER") →
      ∃ ts, parseMulti it.value = .ok ts := by
    intro ids e hv hi
    rw [hv]
    exact asn1Types_total hi
  unfold Options.item
  rcases h with ⟨hp | hp, ids, e, hv, hi⟩ | ⟨hp, hv⟩
  · obtain ⟨ts, ht⟩ := hm ids e hv hi
    rw [hp, if_pos rfl, ht]
    exact ⟨_, rfl⟩
  · obtain ⟨ts, ht⟩ := hm ids e hv hi
    rw [hp, if_neg (by simp), if_pos rfl, ht]
    exact ⟨_, rfl⟩
  · rw [hp, hv, if_neg (by simp), if_neg (by simp), if_pos rfl]
    exact ⟨_, rfl⟩

theorem wanted_snoc {name : String} {l : List (Item E)} {it : Item E} {m : Rules} :
    Wanted name (l ++ [it]) m ↔
      (it.path = some name ∧ ∃ ids e, it.value = some (.str (some ids) e) ∧ rulesWord m ∈ ids) ∨
      (it.path ≠ some name ∧ Wanted name l m) := by
  constructor
  · rintro (h | ⟨pre, b, post, ids, e, h, h1, h2, h3, h4⟩)
    · exact .inr ⟨h it (by simp), .inl fun j hj => h j (List.mem_append_left _ hj)⟩
    · by_cases hp : post = []
      · subst hp
        obtain ⟨rfl, hb⟩ := List.append_inj' h rfl
        cases hb
        exact .inl ⟨h1, ids, e, h2, h3⟩
      · have hd := List.dropLast_concat_getLast hp
        rw [← hd, ← List.cons_append, ← List.append_assoc] at h
        obtain ⟨h5, h6⟩ := List.append_inj' h rfl
        cases h6
        exact .inr ⟨h4 _ (List.getLast_mem hp), .inr ⟨pre, b, _, ids, e, h5, h1, h2, h3,
          fun c hc => h4 c (List.dropLast_subset _ hc)⟩⟩
  · rintro (⟨h1, ids, e, h2, h3⟩ | ⟨h1, h | ⟨pre, b, post, ids, e, rfl, h2, h3, h4, h5⟩⟩)
    · exact .inr ⟨l, it, [], ids, e, rfl, h1, h2, h3, by simp⟩
    · refine .inl fun j hj => ?_
      rcases List.mem_append.mp hj with hj | hj
      · exact h j hj
      · rw [List.mem_singleton.mp hj]; exact h1
    · refine .inr ⟨pre, b, post ++ [it], ids, e, by simp, h2, h3, h4, ?_⟩
      intro c hc
      rcases List.mem_append.mp hc with hc | hc
      · exact h5 c hc
      · rw [List.mem_singleton.mp hc]; exact h1

/-- The parsers and encoders of the options are those wanted by the items. -/
def Reflects (o : Options E) (items : List (Item E)) : Prop :=
  (∀ m, m ∈ o.parsers ↔ Wanted "parse" items m) ∧ (∀ m, m ∈ o.encoders ↔ Wanted "encode" items m)

theorem reflects_items {o o' : Options E} {before items : List (Item E)} (hr : Reflects o before)
    (h : items.foldlM Options.item o = .ok o') :
    (∀ it ∈ items, OptionItem it) ∧ Reflects o' (before ++ items) ∧ o'.tagKind = o.tagKind := by
  induction items using snocInd generalizing o' with
  | h0 => cases h; exact ⟨by simp, by simpa using hr, rfl⟩
  | h1 l it ih =>
    obtain ⟨i, h1, h2⟩ := (foldlM_snoc _ _ _ _).mp h
    obtain ⟨h3, h4, h5⟩ := ih h1
    have hall : OptionItem it → ∀ j ∈ l ++ [it], OptionItem j := by
      intro hi j hj
      rcases List.mem_append.mp hj with hj | hj
      · exact h3 j hj
      · rw [List.mem_singleton.mp hj]; exact hi
    rw [← List.append_assoc]
    unfold Reflects
    simp only [wanted_snoc]
    rcases optionItem_ok h2 with ⟨hp, ts, ⟨ids, e, hv, hi, hw⟩, rfl⟩ | ⟨hp, ts, ⟨ids, e, hv, hi, hw⟩, rfl⟩ |
      ⟨hp, hv, rfl⟩
    · refine ⟨hall (.inl ⟨.inl hp, ids, e, hv, hi⟩), ⟨?_, ?_⟩, h5⟩
      · intro m; simp [hp, hv, hw]
      · intro m; simp [hp, h4.2]
    · refine ⟨hall (.inl ⟨.inr hp, ids, e, hv, hi⟩), ⟨?_, ?_⟩, h5⟩
      · intro m; simp [hp, h4.1]
      · intro m; simp [hp, hv, hw]
    · refine ⟨hall (.inr ⟨hp, hv⟩), ⟨?_, ?_⟩, h5⟩
      · intro m; simp [hp, h4.1]
      · intro m; simp [hp, h4.2]

theorem items_total (items : List (Item E)) (h : ∀ it ∈ items, OptionItem it) (o : Options E) :
    ∃ o', items.foldlM Options.item o = .ok o' := by
  induction items generalizing o with
  | nil => exact ⟨o, rfl⟩
  | cons it l ih =>
    obtain ⟨o1, h1⟩ := optionItem_total o (h it (by simp))
    obtain ⟨o2, h2⟩ := ih (fun j hj => h j (List.mem_cons_of_mem _ hj)) o1
    exact ⟨o2, by rw [List.foldlM_cons, h1]; exact h2⟩

theorem lastTagged_snoc {l : List (Attr E)} {a : Attr E} {k : TagKind} :
    LastTagged (l ++ [a]) k ↔
      a.path = some (choiceAttr k) ∨ (∀ k', a.path ≠ some (choiceAttr k')) ∧ LastTagged l k := by
  constructor
  · rintro ⟨pre, b, post, h, h1, h2⟩
    by_cases hp : post = []
    · subst hp
      obtain ⟨rfl, hb⟩ := List.append_inj' h rfl
      cases hb
      exact .inl h1
    · have hd := List.dropLast_concat_getLast hp
      rw [← hd, ← List.cons_append, ← List.append_assoc] at h
      obtain ⟨h5, h6⟩ := List.append_inj' h rfl
      cases h6
      exact .inr ⟨h2 _ (List.getLast_mem hp), pre, b, _, h5, h1, fun c hc => h2 c (List.dropLast_subset _ hc)⟩
  · rintro (h | ⟨h, pre, b, post, rfl, h1, h2⟩)
    · exact ⟨l, a, [], rfl, h, by simp⟩
    · refine ⟨pre, b, post ++ [a], by simp, h1, ?_⟩
      intro c hc
      rcases List.mem_append.mp hc with hc | hc
      · exact h2 c hc
      · rw [List.mem_singleton.mp hc]; exact h

/-- The items of an attribute. -/
theorem asn1Items_snoc (l : List (Attr E)) (a : Attr E) :
    asn1Items (l ++ [a]) = asn1Items l ++ if a.path = some "asn1" then a.items.getD [] else [] := by
  simp [asn1Items]

theorem options_ok (attrs : List (Attr E)) {o : Options E} (h : Options.ofAttrs attrs = .ok o) :
    (∀ a ∈ attrs, a.path = some "asn1" → ∃ items, a.items = some items ∧ ∀ it ∈ items, OptionItem it) ∧
      Reflects o (asn1Items attrs) ∧ ∀ k, o.tagKind = some k ↔ LastTagged attrs k := by
  unfold Options.ofAttrs at h
  induction attrs using snocInd generalizing o with
  | h0 =>
    cases h
    refine ⟨by simp, ⟨?_, ?_⟩, ?_⟩
    · intro m; cases m <;> simp [Wanted, asn1Items]
    · intro m; cases m <;> simp [Wanted, asn1Items]
    · intro k; simp [LastTagged]
  | h1 l a ih =>
    obtain ⟨i, h1, h2⟩ := (foldlM_snoc _ _ _ _).mp h
    obtain ⟨h3, h4, h5⟩ := ih h1
    have hall : (a.path = some "asn1" → ∃ items, a.items = some items ∧ ∀ it ∈ items, OptionItem it) →
        ∀ b ∈ l ++ [a], b.path = some "asn1" → ∃ items, b.items = some items ∧ ∀ it ∈ items, OptionItem it := by
      intro hi b hb
      rcases List.mem_append.mp hb with hb | hb
      · exact h3 b hb
      · rw [List.mem_singleton.mp hb]; exact hi
    rw [asn1Items_snoc]
    simp only [lastTagged_snoc]
    unfold Options.step at h2
    split at h2
    · rename_i p
      cases h2
      refine ⟨hall (by simp [p]), by simpa [p, Reflects] using h4, fun k => ?_⟩
      have q : ∀ k', a.path ≠ some (choiceAttr k') := by intro k'; cases k' <;> simp [p, choiceAttr]
      simp [q, h5]
    split at h2
    · rename_i p
      cases h2
      refine ⟨hall (by simp [p]), by simpa [p, Reflects] using h4, fun k => ?_⟩
      rw [p]
      cases k <;> simp [choiceAttr]
      exact fun h => absurd rfl (h .explicit)
    split at h2
    · rename_i p
      cases h2
      refine ⟨hall (by simp [p]), by simpa [p, Reflects] using h4, fun k => ?_⟩
      rw [p]
      cases k <;> simp [choiceAttr]
      exact fun h => absurd rfl (h .implicit)
    split at h2
    · rename_i p
      cases h2
      refine ⟨hall (by simp [p]), by simpa [p, Reflects] using h4, fun k => ?_⟩
      have q : ∀ k', a.path ≠ some (choiceAttr k') := by intro k'; cases k' <;> simp [p, choiceAttr]
      simp [q, h5]
    split at h2
    · rename_i p
      split at h2
      · rename_i items hi
        obtain ⟨g1, g2, g3⟩ := reflects_items h4 h2
        refine ⟨hall fun _ => ⟨items, hi, g1⟩, by simpa [p, hi] using g2, fun k => ?_⟩
        have q : ∀ k', a.path ≠ some (choiceAttr k') := by intro k'; cases k' <;> simp [p, choiceAttr]
        rw [g3]
        simp [q, h5]
      · cases h2
    · rename_i p1 p2 p3 p4 p5
      cases h2
      refine ⟨hall (by simp [p5]), by simpa [p5] using h4, fun k => ?_⟩
      have q : ∀ k', a.path ≠ some (choiceAttr k') := by
        intro k'; cases k'
        · exact p2
        · exact p3
      simp [q, h5]

/-- **C112** The macro accepts the attributes of a struct or enum exactly when every `asn1(…)` consists of
`parse` and `encode`, each with a list of `BER` and `DER`, and of `orig_input`. -/
theorem C112_accepted (attrs : List (Attr E)) :
    (∃ o, Options.ofAttrs attrs = .ok o) ↔
      ∀ a ∈ attrs, a.path = some "asn1" → ∃ items, a.items = some items ∧ ∀ it ∈ items, OptionItem it := by
  constructor
  · rintro ⟨o, h⟩
    exact (options_ok attrs h).1
  · unfold Options.ofAttrs
    generalize ({} : Options E) = o
    induction attrs generalizing o with
    | nil => exact fun _ => ⟨o, rfl⟩
    | cons a l ih =>
      intro h
      have : ∃ o1, o.step a = .ok o1 := by
        unfold Options.step
        split
        · exact ⟨_, rfl⟩
        split
        · exact ⟨_, rfl⟩
        split
        · exact ⟨_, rfl⟩
        split
        · exact ⟨_, rfl⟩
        split
        · rename_i p
          obtain ⟨items, h1, h2⟩ := h a (by simp) p
          rw [h1]
          exact items_total items h2 o
        · exact ⟨_, rfl⟩
      obtain ⟨o1, h1⟩ := this
      obtain ⟨o2, h2⟩ := ih o1 fun b hb => h b (List.mem_cons_of_mem _ hb)
      exact ⟨o2, by rw [List.foldlM_cons, h1]; exact h2⟩

theorem impls_mem (o : Options E) (m : Rules) :
    (.parser m ∈ o.impls ↔ m ∈ o.parsers) ∧ (.encoder m ∈ o.impls ↔ m ∈ o.encoders) := by
  unfold Options.impls
  cases m <;> simp [List.mem_filter]

/-- **C112** Which of the four traits are implemented: `BerParser` exactly when there is no `parse` item or the
last one lists `BER`, and so on for the others. -/
theorem C112_impls (attrs : List (Attr E)) {o : Options E} (h : Options.ofAttrs attrs = .ok o) (m : Rules) :
    (.parser m ∈ o.impls ↔ Wanted "parse" (asn1Items attrs) m) ∧
      (.encoder m ∈ o.impls ↔ Wanted "encode" (asn1Items attrs) m) := by
  obtain ⟨_, h1, _⟩ := options_ok attrs h
  rw [(impls_mem o m).1, (impls_mem o m).2]
  exact ⟨h1.1 m, h1.2 m⟩

/-- **C112** No implementation is generated twice. -/
theorem C112_once (o : Options E) : o.impls.Nodup := by
  unfold Options.impls
  simp only [List.filter]
  generalize o.parsers.contains .ber = a
  generalize o.parsers.contains .der = b
  generalize o.encoders.contains .ber = c
  generalize o.encoders.contains .der = d
  cases a <;> cases b <;> cases c <;> cases d <;> decide

/-- **C112** Without the attribute `asn1` everything is generated. -/
theorem C112_default (attrs : List (Attr E)) (h : ∀ a ∈ attrs, a.path ≠ some "asn1") :
    ∃ o, Options.ofAttrs attrs = .ok o ∧ ∀ i, i ∈ o.impls := by
  obtain ⟨o, ho⟩ := (C112_accepted attrs).mpr fun a ha hp => absurd hp (h a ha)
  have hi : asn1Items attrs = [] := by
    unfold asn1Items
    rw [List.flatMap_eq_nil_iff]
    intro a ha
    rw [if_neg (h a ha)]
  refine ⟨o, ho, fun i => ?_⟩
  cases i with
  | parser m => exact (C112_impls attrs ho m).1.mpr (.inl (by simp [hi]))
  | encoder m => exact (C112_impls attrs ho m).2.mpr (.inl (by simp [hi]))

/-- **C112** A CHOICE is tagged as the last of `tagged_explicit` and `tagged_implicit` says (both may be
there, and the first is then ignored). -/
theorem C112_choice_kind (attrs : List (Attr E)) {o : Options E} (h : Options.ofAttrs attrs = .ok o) (k : TagKind) :
    o.tagKind = some k ↔ LastTagged attrs k :=
  (options_ok attrs h).2.2 k

theorem items_settings {o o' : Options E} {items : List (Item E)} (h : items.foldlM Options.item o = .ok o') :
    o'.error = o.error ∧ o'.debug = o.debug ∧
      (o'.origInput = true ↔ o.origInput = true ∨ ∃ it ∈ items, it.path = some "orig_input") := by
  induction items using snocInd generalizing o' with
  | h0 => cases h; simp
  | h1 l it ih =>
    obtain ⟨i, h1, h2⟩ := (foldlM_snoc _ _ _ _).mp h
    obtain ⟨h3, h4, h5⟩ := ih h1
    rcases optionItem_ok h2 with ⟨hp, _, _, rfl⟩ | ⟨hp, _, _, rfl⟩ | ⟨hp, _, rfl⟩
    · exact ⟨h3, h4, by simp [h5, hp, or_and_right, exists_or]⟩
    · exact ⟨h3, h4, by simp [h5, hp, or_and_right, exists_or]⟩
    · exact ⟨h3, h4, by simp [hp, or_and_right, exists_or]⟩

/-- **C112** The error type of the parsers is that of the last `error` attribute; `debug_derive` and `orig_input` count
wherever they are. -/
theorem C112_settings (attrs : List (Attr E)) {o : Options E} (h : Options.ofAttrs attrs = .ok o) :
    o.error = (attrs.filter fun a => a.path = some "error").getLast? ∧
      (o.debug = true ↔ ∃ a ∈ attrs, a.path = some "debug_derive") ∧
      (o.origInput = true ↔ ∃ it ∈ asn1Items attrs, it.path = some "orig_input") := by
  unfold Options.ofAttrs at h
  induction attrs using snocInd generalizing o with
  | h0 => cases h; simp [asn1Items]
  | h1 l a ih =>
    obtain ⟨i, h1, h2⟩ := (foldlM_snoc _ _ _ _).mp h
    obtain ⟨h3, h4, h5⟩ := ih h1
    rw [asn1Items_snoc]
    unfold Options.step at h2
    split at h2
    · rename_i p
      cases h2
      exact ⟨by simp [h3, p], by simp [p, or_and_right, exists_or], by simp [h5, p]⟩
    split at h2
    · rename_i p
      cases h2
      exact ⟨by simp [h3, p], by simp [h4, p, or_and_right, exists_or], by simp [h5, p]⟩
    split at h2
    · rename_i p
      cases h2
      exact ⟨by simp [h3, p], by simp [h4, p, or_and_right, exists_or], by simp [h5, p]⟩
    split at h2
    · rename_i p
      cases h2
      exact ⟨by simp [p], by simp [h4, p, or_and_right, exists_or], by simp [h5, p]⟩
    split at h2
    · rename_i p
      split at h2
      · rename_i items hi
        obtain ⟨g1, g2, g3⟩ := items_settings h2
        exact ⟨by simp [g1, h3, p], by simp [g2, h4, p, or_and_right, exists_or],
          by simp [g3, h5, p, hi, or_and_right, exists_or]⟩
      · cases h2
    · rename_i p1 p2 p3 p4 p5
      cases h2
      exact ⟨by simp [h3, p4], by simp [h4, p1, or_and_right, exists_or], by simp [h5, p5]⟩

/-- Cases: two `error` attributes, and `orig_input`. -/
example : ∃ o : Options Unit, Options.ofAttrs [{ path := some "error", toks := some [.ident "A"] },
    { path := some "asn1", items := some [⟨some "orig_input", none⟩] },
    { path := some "error", toks := some [.ident "B"] }] = .ok o ∧
      o.error = some { path := some "error", toks := some [.ident "B"] } ∧ o.origInput = true ∧ o.debug = false :=
  ⟨_, rfl, rfl, rfl, rfl⟩

/-- A case: `#[asn1(parse = "DER", encode = "")]`. -/
def exAsn1 : Attr Unit where
  path := some "asn1"
  items := some [⟨some "parse", some (.str (some ["DER"]) (some ()))⟩, ⟨some "encode", some (.str (some []) none)⟩]

example : ∃ o : Options Unit, Options.ofAttrs [exAsn1] = .ok o ∧ o.impls = [.parser .der] := ⟨_, rfl, rfl⟩

/-- Two kinds of tags: the second counts. -/
example : ∃ o : Options Unit, Options.ofAttrs [{ path := some "tagged_explicit" }, { path := some "tagged_implicit" }]
    = .ok o ∧ o.tagKind = some .implicit := ⟨_, rfl, rfl⟩

/-- **C112** The tags of the variants of a CHOICE, from their attributes: the number in the first `tag(n)`, or one
more than the one before, from 0. The macro refuses the type when a `tag` attribute is not a number that fits
32 bits, or two tags are the same. -/
theorem C112_variant_tags (variants : List (List (Attr E))) (tags : List Nat) :
    variantTags variants = .ok tags ↔
      ∃ given, TagsGiven variants given ∧ Numbered 0 given tags ∧ tags.Nodup := by
  have h1 : ∀ (l : List (Attr E)) g, variantTag l = .ok g ↔ TagGiven l g := by
    intro l
    induction l with
    | nil =>
      intro g
      unfold variantTag TagGiven
      constructor
      · intro h; cases h; exact .inl ⟨rfl, by simp⟩
      · rintro (⟨rfl, _⟩ | ⟨pre, a, post, n, h, _⟩)
        · rfl
        · simp at h
    | cons a l ih =>
      intro g
      unfold variantTag
      split
      · rename_i p
        constructor
        · intro h
          split at h
          · rename_i n hn
            split at h
            · rename_i hlt
              cases h
              exact .inr ⟨[], a, l, n, rfl, p, by simp, hn, hlt, rfl⟩
            · cases h
          · cases h
        · rintro (⟨rfl, h⟩ | ⟨pre, b, post, n, h, hb, hpre, hn, hlt, rfl⟩)
          · exact absurd p (h a (by simp))
          · cases pre with
            | cons c pre =>
              cases h
              exact absurd p (hpre a (by simp))
            | nil =>
              cases h
              rw [hn]
              dsimp only
              rw [if_pos hlt]
      · rename_i p
        rw [ih]
        constructor
        · rintro (⟨rfl, h⟩ | ⟨pre, b, post, n, rfl, hb, hpre, hn, hlt, rfl⟩)
          · exact .inl ⟨rfl, by simpa [p] using h⟩
          · exact .inr ⟨a :: pre, b, post, n, rfl, hb, by simpa [p] using hpre, hn, hlt, rfl⟩
        · rintro (⟨rfl, h⟩ | ⟨pre, b, post, n, h, hb, hpre, hn, hlt, rfl⟩)
          · exact .inl ⟨rfl, fun b hb => h b (List.mem_cons_of_mem _ hb)⟩
          · cases pre with
            | nil => cases h; exact absurd hb p
            | cons c pre =>
              cases h
              exact .inr ⟨pre, b, post, n, rfl, hb, fun c hc => hpre c (List.mem_cons_of_mem _ hc), hn, hlt, rfl⟩
  have h2 : ∀ (vs : List (List (Attr E))) given, vs.mapM variantTag = .ok given ↔ TagsGiven vs given := by
    intro vs
    induction vs with
    | nil =>
      intro given
      constructor
      · intro h; cases h; exact .nil
      · intro h; cases h; rfl
    | cons v vs ih =>
      intro given
      rw [List.mapM_cons]
      constructor
      · intro h
        obtain ⟨g, e1, h⟩ := bindE.mp h
        obtain ⟨gs, e2, h⟩ := bindE.mp h
        cases h
        exact .cons ((h1 v g).mp e1) ((ih gs).mp e2)
      · intro h
        cases h with
        | cons e1 e2 => exact bindE.mpr ⟨_, (h1 _ _).mpr e1, bindE.mpr ⟨_, (ih _).mpr e2, rfl⟩⟩
  unfold variantTags
  constructor
  · intro h
    obtain ⟨given, e1, h⟩ := bindE.mp h
    refine ⟨given, (h2 _ _).mp e1, ?_⟩
    split at h
    · rename_i ts hts
      cases h
      exact (C55_tags _ _).mp hts
    · cases h
  · rintro ⟨given, e1, e2⟩
    refine bindE.mpr ⟨given, (h2 _ _).mpr e1, ?_⟩
    rw [(C55_tags _ _).mpr e2]

example : variantTags ([[], [{ path := some "doc" }, { path := some "tag", toks := some [.int 4] }], []] :
    List (List (Attr Unit))) = .ok [0, 4, 5] := by rfl

end Asn1

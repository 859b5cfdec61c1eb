import Verif.Spec.CheckDerive
/-!
# Several derive macros on one type (C117)
-/
namespace Asn1
open Spec

variable {E : Type}

/-! ### Names and patterns -/

theorem name_matched (m : Macro) :
    (patterns.any fun p => p.toList.isPrefixOf m.name.toList) = decide (m ∈ sharing) := by
  cases m <;> decide +kernel

theorem pattern_name {p : String} (hp : p ∈ patterns) : ∃ m ∈ sharing, m.name = p := by
  simp only [patterns, List.mem_cons, List.not_mem_nil, or_false] at hp
  rcases hp with rfl | rfl | rfl | rfl | rfl | rfl | rfl | rfl | rfl | rfl | rfl | rfl
  · exact ⟨.berSequence, by decide, rfl⟩
  · exact ⟨.derSequence, by decide, rfl⟩
  · exact ⟨.berParserSequence, by decide, rfl⟩
  · exact ⟨.derParserSequence, by decide, rfl⟩
  · exact ⟨.berSet, by decide, rfl⟩
  · exact ⟨.derSet, by decide, rfl⟩
  · exact ⟨.berParserSet, by decide, rfl⟩
  · exact ⟨.derParserSet, by decide, rfl⟩
  · exact ⟨.berParserAlias, by decide, rfl⟩
  · exact ⟨.derParserAlias, by decide, rfl⟩
  · exact ⟨.berParserChoice, by decide, rfl⟩
  · exact ⟨.derParserChoice, by decide, rfl⟩

theorem isOneOf_some {ms : List Macro} {d : Derived} {m : Macro} (h : d.mac = some m) :
    Derived.isOneOf ms d = decide (m ∈ ms) := by
  unfold Derived.isOneOf
  rw [h]
  induction ms with
  | nil => simp
  | cons x ms ih =>
    rw [List.any_cons, ih]
    by_cases hx : m = x <;> by_cases hm : m ∈ ms <;> simp [hx, hm]

theorem isOneOf_none {ms : List Macro} {d : Derived} (h : d.mac = none) :
    Derived.isOneOf ms d = false := by
  unfold Derived.isOneOf
  rw [h]; simp

theorem matched_plain {d : Derived} (h : Derived.plain d) : d.matched = Derived.isOneOf sharing d := by
  unfold Derived.matched
  unfold Derived.plain at h
  cases hm : d.mac with
  | some m =>
    rw [hm] at h
    rw [h, isOneOf_some hm]
    exact name_matched m
  | none =>
    rw [hm] at h
    rw [isOneOf_none hm]
    cases hi : d.ident with
    | none => rfl
    | some s =>
      simp only [List.any_eq_false]
      intro p hp
      obtain ⟨m, hm, rfl⟩ := pattern_name hp
      intro hpre
      exact h s hi m hm (List.isPrefixOf_iff_prefix.mp hpre)

/-! ### What is generated -/

theorem tag_count_of (o : Options E) (below : List TypeAttr) (d : Derived) :
    (d.generates o below).count .tag =
      (if Derived.isOneOf complete d then 1 else 0) +
      (if checkLast below && Derived.isOneOf sharing d then 1 else 0) := by
  unfold Derived.generates
  cases hm : d.mac with
  | none => simp [isOneOf_none hm]
  | some m =>
    simp only [isOneOf_some hm]
    have hi : (o.impls.map Gen.impl).count .tag = 0 := by
      rw [List.count_eq_zero]; simp
    have h1 : ∀ i b, (implIf i b).count .tag = 0 := by
      intro i b; unfold implIf; cases b <;> simp
    have h2 : (tagIf below).count .tag = if checkLast below then 1 else 0 := by
      unfold tagIf; split <;> simp
    cases m <;> simp [Macro.generates, List.count_append, List.count_cons, hi, h1, h2, complete, sharing]

theorem tag_count_items (o : Options E) (below : List TypeAttr) (items : List Derived) :
    (items.flatMap (Derived.generates o below)).count .tag =
      howMany complete items + (if checkLast below then howMany sharing items else 0) := by
  unfold howMany
  induction items with
  | nil => simp
  | cons d items ih =>
    rw [List.flatMap_cons, List.count_append, ih, tag_count_of, List.countP_cons, List.countP_cons]
    cases checkLast below <;> simp <;> omega

theorem any_matched {items : List Derived} (h : ∀ d ∈ items, Derived.plain d) :
    items.any Derived.matched = items.any (Derived.isOneOf sharing) := by
  induction items with
  | nil => rfl
  | cons d items ih =>
    rw [List.any_cons, List.any_cons, matched_plain (h d (by simp)), ih fun x hx => h x (by simp [hx])]

theorem mem_derivedItems {attrs : List TypeAttr} {d : Derived} :
    d ∈ derivedItems attrs ↔ ∃ items, items ∈ derives attrs ∧ d ∈ items := List.mem_flatten

theorem checkLast_iff {attrs : List TypeAttr} (h : ∀ d ∈ derivedItems attrs, Derived.plain d) :
    checkLast attrs = (derives attrs).all fun items => !items.any (Derived.isOneOf sharing) := by
  unfold checkLast
  induction attrs with
  | nil => rfl
  | cons a attrs ih =>
    cases a with
    | other =>
      rw [List.any_cons]
      exact ih h
    | derive items =>
      have hi : ∀ d ∈ items, Derived.plain d := fun d hd => h d (mem_derivedItems.mpr ⟨items, by simp [derives], hd⟩)
      have hr : ∀ d ∈ derivedItems attrs, Derived.plain d := by
        intro d hd
        obtain ⟨is, h1, h2⟩ := mem_derivedItems.mp hd
        exact h d (mem_derivedItems.mpr ⟨is, by simp [derives, h1], h2⟩)
      rw [List.any_cons, derives, List.all_cons, ← ih hr, Bool.not_or]
      congr 2
      exact any_matched hi

theorem howMany_zero {ms : List Macro} {items : List Derived} (h : items.any (Derived.isOneOf ms) = false) :
    howMany ms items = 0 := by
  unfold howMany
  rw [List.countP_eq_zero]
  intro d hd
  simpa using List.any_eq_false.mp h d hd

theorem howMany_append (ms : List Macro) (xs ys : List Derived) :
    howMany ms (xs ++ ys) = howMany ms xs + howMany ms ys := List.countP_append

/-- **C117** How often the tag of a type is implemented, for any list of derive attributes whose macros are
written by their names: once for each macro that is complete on its own, and once for each macro in the last
attribute that has a macro meant to be combined. -/
theorem C117_tag_count (o : Options E) (attrs : List TypeAttr)
    (hp : ∀ d ∈ derivedItems attrs, Derived.plain d) :
    (generated o attrs).count .tag =
      howMany complete (derivedItems attrs) + howMany sharing (lastShared attrs) := by
  induction attrs with
  | nil => rfl
  | cons a attrs ih =>
    cases a with
    | other => exact ih hp
    | derive items =>
      have hr : ∀ d ∈ derivedItems attrs, Derived.plain d := by
        intro d hd
        obtain ⟨is, h1, h2⟩ := mem_derivedItems.mp hd
        exact hp d (mem_derivedItems.mpr ⟨is, by simp [derives, h1], h2⟩)
      have hd : derivedItems (.derive items :: attrs) = items ++ derivedItems attrs := by
        simp [derivedItems, derives]
      rw [generated, List.count_append, ih hr, tag_count_items, hd, howMany_append]
      have hc := checkLast_iff hr
      have hl : howMany sharing (lastShared (.derive items :: attrs)) =
          (if checkLast attrs then howMany sharing items else 0) + howMany sharing (lastShared attrs) := by
        unfold lastShared
        rw [derives, List.filter_cons]
        cases hcl : checkLast attrs with
        | true =>
          rw [hcl] at hc
          have hn : ((derives attrs).filter fun items => items.any (Derived.isOneOf sharing)) = [] := by
            rw [List.filter_eq_nil_iff]
            intro is his
            have := (List.all_eq_true.mp hc.symm) is his
            simpa using this
          rw [hn]
          by_cases hi : items.any (Derived.isOneOf sharing) = true
          · rw [if_pos hi]; simp [howMany]
          · rw [if_neg hi]
            have := howMany_zero (Bool.eq_false_iff.mpr hi)
            rw [this]; simp [howMany]
        | false =>
          rw [hcl] at hc
          have hn : ((derives attrs).filter fun items => items.any (Derived.isOneOf sharing)) ≠ [] := by
            intro hn
            rw [List.filter_eq_nil_iff] at hn
            have : ((derives attrs).all fun items => !items.any (Derived.isOneOf sharing)) = true := by
              rw [List.all_eq_true]
              intro is his
              simpa using hn is his
            rw [this] at hc
            exact Bool.noConfusion hc
          have he : ∀ x, (x :: ((derives attrs).filter fun items => items.any (Derived.isOneOf sharing))).getLast?
              = ((derives attrs).filter fun items => items.any (Derived.isOneOf sharing)).getLast? := by
            intro x
            rw [List.getLast?_cons]
            cases hg : ((derives attrs).filter fun items => items.any (Derived.isOneOf sharing)).getLast? with
            | none => exact absurd (List.getLast?_eq_none_iff.mp hg) hn
            | some y => rfl
          by_cases hi : items.any (Derived.isOneOf sharing) = true
          · rw [if_pos hi, he]; simp
          · rw [if_neg hi]; simp
      rw [hl]
      omega

theorem lastShared_mem {attrs : List TypeAttr} (h : ∃ d ∈ derivedItems attrs, Derived.isOneOf sharing d = true) :
    lastShared attrs ∈ derives attrs ∧ (lastShared attrs).any (Derived.isOneOf sharing) = true := by
  obtain ⟨d, hd, hs⟩ := h
  obtain ⟨is, h1, h2⟩ := mem_derivedItems.mp hd
  unfold lastShared
  cases hg : ((derives attrs).filter fun items => items.any (Derived.isOneOf sharing)).getLast? with
  | none =>
    have := List.getLast?_eq_none_iff.mp hg
    rw [List.filter_eq_nil_iff] at this
    exact absurd (List.any_eq_true.mpr ⟨d, h2, hs⟩) (this is h1)
  | some y =>
    have hm := List.mem_of_getLast? hg
    rw [List.mem_filter] at hm
    exact hm

theorem mem_derives {attrs : List TypeAttr} {is : List Derived} : is ∈ derives attrs ↔ .derive is ∈ attrs := by
  induction attrs with
  | nil => simp [derives]
  | cons a attrs ih => cases a <;> simp [derives, ih]

/-- **C117** Macros that are meant to be combined, each in an attribute of its own, implement the tag of the
type exactly once, whatever their number and order and whatever else is derived. -/
theorem C117_tag_once (o : Options E) (attrs : List TypeAttr)
    (hp : ∀ d ∈ derivedItems attrs, Derived.plain d)
    (hone : ∀ items, .derive items ∈ attrs → howMany sharing items ≤ 1)
    (hc : howMany complete (derivedItems attrs) = 0)
    (hs : ∃ d ∈ derivedItems attrs, Derived.isOneOf sharing d = true) :
    (generated o attrs).count .tag = 1 := by
  rw [C117_tag_count o attrs hp, hc]
  obtain ⟨h1, h2⟩ := lastShared_mem hs
  have := hone _ (mem_derives.mp h1)
  obtain ⟨d, hd, hd2⟩ := List.any_eq_true.mp h2
  have : 0 < howMany sharing (lastShared attrs) := List.countP_pos_iff.mpr ⟨d, hd, hd2⟩
  omega

/-- A case: the three attributes of a type with a BER parser, a DER parser and an encoder. -/
example : (generated (E := Unit) {}
    [.derive [⟨some "Debug", none⟩, ⟨some "BerParserSequence", some .berParserSequence⟩], .other,
      .derive [⟨some "DerParserSequence", some .derParserSequence⟩, ⟨some "ToDerSequence", some .toDerSequence⟩],
      .derive [⟨some "PartialEq", none⟩]]) =
      [.impl (.parser .ber), .tag, .impl (.parser .der), .impl (.encoder .der)] := by decide +kernel

/-- A macro that is complete on its own, and nothing to combine with it: exactly once too. -/
theorem C117_complete_once (o : Options E) (attrs : List TypeAttr)
    (hp : ∀ d ∈ derivedItems attrs, Derived.plain d)
    (hc : howMany complete (derivedItems attrs) = 1) (hs : howMany sharing (derivedItems attrs) = 0) :
    (generated o attrs).count .tag = 1 := by
  rw [C117_tag_count o attrs hp, hc]
  have : howMany sharing (lastShared attrs) = 0 := by
    unfold howMany at hs ⊢
    rw [List.countP_eq_zero] at hs ⊢
    intro d hd
    unfold lastShared at hd
    cases hg : ((derives attrs).filter fun items => items.any (Derived.isOneOf sharing)).getLast? with
    | none => rw [hg] at hd; simp at hd
    | some y =>
      rw [hg] at hd
      have hm := List.mem_of_getLast? hg
      rw [List.mem_filter] at hm
      exact hs d (mem_derivedItems.mpr ⟨y, hm.1, hd⟩)
  omega

/-- A case. -/
example : (generated (E := Unit) {}
    [.derive [⟨some "Debug", none⟩], .derive [⟨some "Sequence", some .sequence⟩, ⟨some "ToStatic", some .toStatic⟩]]) =
      [.tag, .impl (.parser .ber), .impl (.parser .der), .impl (.encoder .ber), .impl (.encoder .der),
        .toStatic] := by decide +kernel

/-! ### The other implementations -/

/-- What a macro implements besides the tag, whatever stands around it. -/
theorem generates_count (o : Options E) {g : Gen} (hg : g ≠ .tag) (below below' : List TypeAttr) (d : Derived) :
    (d.generates o below).count g = (d.generates o below').count g := by
  have ht : ∀ b, (tagIf b).count g = 0 := by
    intro b; unfold tagIf; split
    · rw [List.count_eq_zero]; simpa using hg
    · rfl
  unfold Derived.generates
  cases d.mac with
  | none => rfl
  | some m => cases m <;> simp [Macro.generates, List.count_append, List.count_cons, ht]

theorem generated_count (o : Options E) {g : Gen} (hg : g ≠ .tag) (attrs : List TypeAttr) :
    (generated o attrs).count g = ((derivedItems attrs).map fun d => (d.generates o []).count g).sum := by
  induction attrs with
  | nil => rfl
  | cons a attrs ih =>
    cases a with
    | other => exact ih
    | derive items =>
      have hd : derivedItems (.derive items :: attrs) = items ++ derivedItems attrs := by
        simp [derivedItems, derives]
      rw [generated, List.count_append, ih, hd, List.map_append, List.sum_append]
      congr 1
      induction items with
      | nil => rfl
      | cons d items ih2 =>
        rw [List.flatMap_cons, List.count_append, List.map_cons, List.sum_cons, ih2 (by simp [derivedItems, derives]),
          generates_count o hg attrs []]

theorem perm_sum {l l' : List Nat} (h : l.Perm l') : l.sum = l'.sum := by
  induction h with
  | nil => rfl
  | cons x _ ih => simp [ih]
  | swap x y l => simp; omega
  | trans _ _ h1 h2 => exact h1.trans h2

/-- **C117** How the macros are distributed over attributes, and their order, decides nothing but where the tag
comes from: every other implementation is generated as often. -/
theorem C117_grouping (o : Options E) (attrs attrs' : List TypeAttr)
    (h : (derivedItems attrs).Perm (derivedItems attrs')) (g : Gen) (hg : g ≠ .tag) :
    (generated o attrs).count g = (generated o attrs').count g := by
  rw [generated_count o hg, generated_count o hg]
  exact perm_sum (h.map _)

/-- A case: the same two macros in one attribute, and in two. -/
example : (generated (E := Unit) {}
      [.derive [⟨some "BerParserSet", some .berParserSet⟩, ⟨some "DerParserSet", some .derParserSet⟩]]) =
        [.tag, .impl (.parser .ber), .tag, .impl (.parser .der)] ∧
    (generated (E := Unit) {}
      [.derive [⟨some "DerParserSet", some .derParserSet⟩], .derive [⟨some "BerParserSet", some .berParserSet⟩]]) =
        [.impl (.parser .der), .tag, .impl (.parser .ber)] := by decide +kernel

/-- **C117** Which macro generates which implementation: every implementation other than the tag comes from
exactly these macros, once, if the options of the type ask for it. -/
theorem C117_sources (o : Options E) (d : Derived) (g : Gen) (hg : g ≠ .tag) (below : List TypeAttr) :
    (d.generates o below).count g =
      if Derived.isOneOf (sources g) d && wanted o g then 1 else 0 := by
  cases hm : d.mac with
  | none => unfold Derived.generates; rw [hm, isOneOf_none hm]; rfl
  | some m =>
    rw [generates_count o hg below []]
    unfold Derived.generates
    rw [hm, isOneOf_some hm]
    show ((m.generates o []).count g) = _
    have himpl : ∀ (i : Impl) (ms : Bool), (implIf i ms).count (.impl i) = if ms then 1 else 0 := by
      intro i ms; unfold implIf; cases ms <;> simp
    have hother : ∀ (i : Impl) (ms : Bool), Gen.impl i ≠ g → (implIf i ms).count g = 0 := by
      intro i ms h; unfold implIf; cases ms <;> simp [List.count_cons, h]
    have hi : (o.impls.map Gen.impl).count g = match g with
        | .impl (.parser r) => if o.parsers.contains r then 1 else 0
        | .impl (.encoder r) => if o.encoders.contains r then 1 else 0
        | _ => 0 := by
      unfold Options.impls
      rcases g with _ | _ | _ | _ | (r | r) | _
      · exact absurd rfl hg
      all_goals
        cases h1 : o.parsers.contains .ber <;> cases h2 : o.parsers.contains .der <;>
        cases h3 : o.encoders.contains .ber <;> cases h4 : o.encoders.contains .der <;>
        first
          | (simp only [List.filter, h1, h2, h3, h4]; rfl)
          | (cases r <;> simp only [List.filter, h1, h2, h3, h4] <;> rfl)
    rcases g with _ | _ | _ | _ | (r | r) | _
    · exact absurd rfl hg
    · cases m <;> simp [Macro.generates, hi, hother, tagIf, checkLast, sources, wanted]
    · cases m <;> simp [Macro.generates, hi, hother, tagIf, checkLast, sources, wanted]
    · cases m <;> simp [Macro.generates, hi, hother, tagIf, checkLast, sources, wanted]
    · cases r <;> cases m <;>
        simp [Macro.generates, hi, himpl, hother, tagIf, checkLast, sources, wanted]
    · cases r <;> cases m <;>
        simp [Macro.generates, hi, himpl, hother, tagIf, checkLast, sources, wanted]
    · cases m <;> simp [Macro.generates, hi, hother, tagIf, checkLast, sources, wanted]

/-- A case: `asn1(parse = "DER", encode = "")`. -/
example : (Derived.generates (E := Unit) { parsers := [.der], encoders := [] } []
    ⟨some "Sequence", some .sequence⟩) = [.tag, .impl (.parser .der)] := by decide +kernel

/-! ### Deviations -/

/-- **C117** Deviations. Two macros in the same attribute implement the tag twice, and so do two macros
written with a path; `BerSequence` and `DerSequence` implement `TryFrom` twice even when they are in
attributes of their own; `BerAlias` and `DerAlias` implement the tag twice in any case. A macro of somewhere
else whose name starts with one of the names, below, leaves the type without a tag. -/
theorem C117_deviations (o : Options E) (r : String) :
    (generated o [.derive [⟨some "BerParserSequence", some .berParserSequence⟩,
      ⟨some "DerParserSequence", some .derParserSequence⟩]]).count .tag = 2 ∧
    (generated o [.derive [⟨none, some .berParserSequence⟩],
      .derive [⟨none, some .derParserSequence⟩]]).count .tag = 2 ∧
    (generated o [.derive [⟨some "BerSequence", some .berSequence⟩],
      .derive [⟨some "DerSequence", some .derSequence⟩]]).count .tryFrom = 2 ∧
    (generated o [.derive [⟨some "BerAlias", some .berAlias⟩],
      .derive [⟨some "DerAlias", some .derAlias⟩]]).count .tag = 2 ∧
    (generated o [.derive [⟨some "BerSet", some .berSet⟩],
      .derive [⟨some ("BerSet" ++ r), none⟩]]).count .tag = 0 := by
  have h1 : ∀ i b, (implIf i b).count .tag = 0 := by
    intro i b; unfold implIf; cases b <;> simp
  have h2 : patterns.any (fun p => p.toList.isPrefixOf ("BerSet" ++ r).toList) = true := by
    rw [List.any_eq_true]
    refine ⟨"BerSet", by decide, ?_⟩
    rw [List.isPrefixOf_iff_prefix, String.toList_append]
    exact List.prefix_append _ _
  refine ⟨?_, ?_, ?_, ?_, ?_⟩
  · simp [generated, Derived.generates, Macro.generates, tagIf, checkLast, h1, List.count_append]
  · simp [generated, Derived.generates, Macro.generates, tagIf, checkLast, h1, List.count_append,
      TypeAttr.matched, Derived.matched]
  · simp [generated, Derived.generates, Macro.generates, tagIf]
    split <;> split <;> simp
  · simp [generated, Derived.generates, Macro.generates]
  · simp only [generated, Derived.generates, Macro.generates, tagIf, checkLast, List.flatMap_cons,
      List.flatMap_nil, List.any_cons, List.any_nil, TypeAttr.matched, Derived.matched, h2]
    simp

end Asn1

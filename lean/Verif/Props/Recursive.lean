import Verif.Proofs.Recursive
import Verif.Props.Built
/-!
# Types that contain themselves (C136)
-/
namespace Asn1
open Spec
variable {α ρ : Type} {real : Bool}

/-! ### Agreement everywhere -/

theorem agree_symm {n : Nat} {p q : Parser α} (h : AgreeBelow n p q) : AgreeBelow n q p :=
  fun h0 => ⟨(h h0).1.symm, fun hd i hi => ((h h0).2 hd i hi).symm⟩

theorem agree_trans {n : Nat} {p q r : Parser α} (h : AgreeBelow n p q) (h' : AgreeBelow n q r) :
    AgreeBelow n p r :=
  fun h0 => ⟨(h h0).1.trans (h' h0).1, fun hd i hi => ((h h0).2 hd i hi).trans ((h' h0).2 hd i hi)⟩

theorem eq_of_agree {p q : Parser α} (h : ∀ n, AgreeBelow n p q) : p = q := by
  have h1 : p.acceptTag = q.acceptTag := (h 1 (by decide)).1
  have h2 : p.content = q.content := funext fun hd => funext fun i =>
    (h (i.data.length + 1) (by omega)).2 hd i (by omega)
  cases p; cases q
  simp only at h1 h2
  rw [h1, h2]

/-- After `n` calls, contents of fewer than `2 n` bytes have been read. -/
theorem calls_agree {F : Parser ρ → Parser ρ} (hF : Narrows true F) (b c : Parser ρ) (n m k : Nat)
    (hn : k ≤ n) (hm : k ≤ m) : AgreeBelow (2 * k) (selfCalls F b n) (selfCalls F c m) := by
  induction k generalizing n m with
  | zero => intro h0; omega
  | succ k ih =>
    obtain ⟨n, rfl⟩ : ∃ n', n = n' + 1 := ⟨n - 1, by omega⟩
    obtain ⟨m, rfl⟩ : ∃ m', m = m' + 1 := ⟨m - 1, by omega⟩
    exact hF _ _ _ (ih n m (by omega) (by omega))

theorem calls_fixed {F : Parser ρ → Parser ρ} {p : Parser ρ} (hp : p = F p) (n : Nat) : selfCalls F p n = p := by
  induction n with
  | zero => rfl
  | succ n ih =>
    show F (selfCalls F p n) = p
    rw [ih, ← hp]

theorem calls_below {F : Parser ρ → Parser ρ} (hF : Narrows true F) {p : Parser ρ} (hp : p = F p) (b : Parser ρ)
    (n : Nat) : AgreeBelow (2 * n) (selfCalls F b n) p := by
  have := calls_agree hF b p n n n (Nat.le_refl _) (Nat.le_refl _)
  rwa [calls_fixed hp] at this

/-- The parser that refuses everything. -/
def refuse : Parser α := ⟨fun _ => false, fun _ i => nomErr i .invalidTag⟩

/-- The solution. -/
def solution (F : Parser ρ → Parser ρ) : Parser ρ where
  acceptTag := (F refuse).acceptTag
  content h i := (selfCalls F refuse (i.data.length + 1)).content h i

theorem solution_agree {F : Parser ρ → Parser ρ} (hF : Narrows true F) (n : Nat) :
    AgreeBelow (2 * n) (solution F) (selfCalls F refuse n) := by
  intro h0
  refine ⟨?_, fun h i hi => ?_⟩
  · exact (calls_agree hF refuse refuse 1 n 1 (by omega) (by omega) (by decide)).1
  · exact (calls_agree hF refuse refuse (i.data.length + 1) n (i.data.length / 2 + 1) (by omega) (by omega)
      (by omega)).2 h i (by omega)

theorem solution_eq {F : Parser ρ → Parser ρ} (hF : Narrows true F) : solution F = F (solution F) := by
  refine eq_of_agree fun n => ?_
  refine shorter_mono (n := 2 * n + 2) ?_ (by omega)
  exact agree_trans (solution_agree hF (n + 1)) (agree_symm (hF _ _ _ (solution_agree hF n)))

/-- **C136** The definition of a type in terms of itself, each time within another object, determines its parsers:
there is one pair, and only one, that satisfies it. -/
theorem C136_one_parser {Fb Fd : Parser ρ → Parser ρ} (h : SelfType real ρ true Fb Fd) :
    (∃ p, p = Fb p ∧ ∀ q, q = Fb q → q = p) ∧ (∃ p, p = Fd p ∧ ∀ q, q = Fd q → q = p) := by
  have key : ∀ F : Parser ρ → Parser ρ, Narrows true F → ∃ p, p = F p ∧ ∀ q, q = F q → q = p := by
    intro F hF
    refine ⟨solution F, solution_eq hF, fun q hq => eq_of_agree fun n => ?_⟩
    refine shorter_mono (n := 2 * n) ?_ (by omega)
    exact agree_trans (agree_symm (calls_below hF hq refuse n)) (agree_symm (solution_agree hF n))
  exact ⟨key _ (selfType_narrows h).1, key _ (selfType_narrows h).2⟩

/-- **C136** To read `n` bytes the parsers call themselves at most `n / 2` deep: whatever the parser would do
at the next call within those calls, the answer is the same. -/
theorem C136_depth {Fb Fd : Parser ρ → Parser ρ} (h : SelfType real ρ true Fb Fd) {pb pd : Parser ρ}
    (hb : pb = Fb pb) (hd : pd = Fd pd) (base : Parser ρ) (n : Nat) (i : Input) (hi : i.data.length / 2 ≤ n) :
    (selfCalls Fb base n).parseBer i = pb.parseBer i ∧ (selfCalls Fd base n).parseDer i = pd.parseDer i :=
  ⟨shorter_parse (calls_below (selfType_narrows h).1 hb base n) .ber i (by omega),
   shorter_parse (calls_below (selfType_narrows h).2 hd base n) .der i (by omega)⟩

/-! ### Safety -/

theorem fine_refuse : Fine real (refuse : Parser α) refuse :=
  ⟨fun _ => ⟨fun _ _ => noPanic_nomErr _ _, fun _ _ => noPanic_nomErr _ _⟩,
   ⟨fun _ _ _ _ _ _ => sim_nomErr, fun _ _ _ _ _ _ => sim_nomErr⟩, fun _ => rfl,
   sub_of_eq fun _ _ _ _ h => h⟩

theorem selfType_fine {g : Bool} {fb fd : Parser ρ → Parser α} (h : SelfType real ρ g fb fd)
    {pb pd : Parser ρ} (hp : Fine real pb pd) : Fine real (fb pb) (fd pd) := by
  refine SelfType.rec (real := real) (ρ := ρ)
    (motive_1 := fun _ _ fb fd _ => Fine real (fb pb) (fd pd))
    (motive_2 := fun {_} fb fd _ => FineFns real (fb pb) (fd pd))
    (motive_3 := fun {_} fb fd _ => FineFns real ((fb pb).fns .ber) ((fd pd).fns .der))
    (motive_4 := fun _ _ vb vd _ => FineVariants real (vb pb) (vd pd))
    ?_ ?_ ?_ ?_ ?_ ?_ ?_ ?_ ?_ ?_ ?_ ?_ ?_ ?_ ?_ ?_ ?_ ?_ ?_ ?_ ?_ ?_ ?_ h
  · exact hp
  · exact fun h => fine_built h
  · exact fun _ ih => ih
  · exact fun f _ ih => fine_map ih f
  · exact fun _ ih => fine_vec ih
  · exact fun _ ih => fine_sequenceOf ih
  · exact fun _ ih => fine_map (fine_setItems ih) _
  · exact fun S _ ih => fine_map (fine_setItems ih) _
  · exact fun N _ ih => fine_array N ih
  · exact fun _ ih => fine_tuple ih
  · exact fun cls tag _ ih => fine_explicit cls tag ih
  · exact fun cls tag _ ih => fine_implicit cls tag ih
  · exact fun tag _ ih => fine_struct tag ih
  · exact fun k _ ih => fine_choice k ih
  · exact fun _ ih => fine_alias ih
  · exact fineFns_nil
  · exact fun _ _ ih iht => fineFns_cons (fun hr i => ih.noPanic hr i) ih.free ih.accepts iht
  · exact fineFns_nil
  · exact fun tag _ _ ih iht => fineFns_cons
      (fun hr i => ⟨noPanic_required (ih.safe hr).1 tag i, noPanic_required (ih.safe hr).2 tag i⟩)
      ⟨free_required ih.strong.1 tag, free_required ih.strong.2 tag⟩ (accepts_required ih tag) iht
  · exact fun tag _ _ ih iht => fineFns_cons
      (fun hr i => ⟨noPanic_optional (ih.safe hr).1 tag i, noPanic_optional (ih.safe hr).2 tag i⟩)
      ⟨free_optional ih.strong.1 tag, free_optional ih.strong.2 tag⟩ (accepts_optional ih tag) iht
  · intro g T Ts fb fd gb gd tag x _ _ ih iht
    have hf : ∀ (m : Rules) (p : Parser T), p.Strong → Free (Field.parse m (.default tag p x)) := fun m p hp i j hd =>
      sim_bind (free_optional (m := m) hp tag i j hd) fun a b hab => sim_ok ⟨hab.1, by rw [hab.2]⟩
    refine fineFns_cons (fun hr i => ⟨?_, ?_⟩) ⟨hf .ber _ ih.strong.1, hf .der _ ih.strong.2⟩ ?_ iht
    · exact NoPanic.bind (noPanic_optional (ih.safe hr).1 tag i) fun _ _ => noPanic_ok _
    · exact NoPanic.bind (noPanic_optional (ih.safe hr).2 tag i) fun _ _ => noPanic_ok _
    · intro i r v hv
      obtain ⟨⟨r1, y⟩, h1, h2⟩ := bind_eq_ok.mp hv
      exact bind_eq_ok.mpr ⟨(r1, y), accepts_optional ih tag _ _ _ h1, h2⟩
  · exact fineVariants_nil
  · exact fun tag _ _ ih iht => fineVariants_cons tag ih iht

theorem calls_fine {Fb Fd : Parser ρ → Parser ρ} (h : SelfType real ρ true Fb Fd) (n : Nat) :
    Fine real (selfCalls Fb refuse n) (selfCalls Fd refuse n) := by
  induction n with
  | zero => exact fine_refuse
  | succ n ih => exact selfType_fine h ih

theorem fixed_fine {Fb Fd : Parser ρ → Parser ρ} (h : SelfType real ρ true Fb Fd) {pb pd : Parser ρ}
    (hb : pb = Fb pb) (hd : pd = Fd pd) : Fine real pb pd := by
  have eb : ∀ n, _ := calls_below (selfType_narrows h).1 hb refuse
  have ed : ∀ n, _ := calls_below (selfType_narrows h).2 hd refuse
  have cb : ∀ h i n, i.data.length < n → pb.content h i = (selfCalls Fb refuse n).content h i :=
    fun h i n hi => ((eb n (by omega)).2 h i (by omega)).symm
  have cd : ∀ h i n, i.data.length < n → pd.content h i = (selfCalls Fd refuse n).content h i :=
    fun h i n hi => ((ed n (by omega)).2 h i (by omega)).symm
  refine ⟨fun hr => ⟨fun hh i => ?_, fun hh i => ?_⟩, ⟨fun hh hh' i j hs hij => ?_, fun hh hh' i j hs hij => ?_⟩,
    fun t => ?_, fun hh i r v hl hv => ?_⟩
  · rw [cb hh i _ (Nat.lt_succ_self _)]
    exact ((calls_fine h _).safe hr).1 hh i
  · rw [cd hh i _ (Nat.lt_succ_self _)]
    exact ((calls_fine h _).safe hr).2 hh i
  · rw [cb hh i _ (Nat.lt_succ_self _), cb hh' j (i.data.length + 1) (by rw [hij]; omega)]
    exact (calls_fine h _).strong.1 _ _ _ _ hs hij
  · rw [cd hh i _ (Nat.lt_succ_self _), cd hh' j (i.data.length + 1) (by rw [hij]; omega)]
    exact (calls_fine h _).strong.2 _ _ _ _ hs hij
  · rw [← (eb 1 (by decide)).1, ← (ed 1 (by decide)).1]
    exact (calls_fine h 1).tags t
  · rw [cd hh i _ (Nat.lt_succ_self _)] at hv
    rw [cb hh i _ (Nat.lt_succ_self _)]
    exact (calls_fine h _).sub _ _ _ _ hl hv

/-- **C136** `parse_ber` and `parse_der` of a type that contains itself, made of types other than REAL, return on
every input: they neither panic nor loop. -/
theorem C136_no_panic {Fb Fd : Parser ρ → Parser ρ} (h : SelfType false ρ true Fb Fd) {pb pd : Parser ρ}
    (hb : pb = Fb pb) (hd : pd = Fd pd) (i : Input) : NoPanic (pb.parseBer i) ∧ NoPanic (pd.parseDer i) :=
  (fixed_fine h hb hd).noPanic rfl i

/-- **C136** What they return depends only on the bytes consumed. -/
theorem C136_only_consumed_bytes {Fb Fd : Parser ρ → Parser ρ} (h : SelfType real ρ true Fb Fd) {pb pd : Parser ρ}
    (hb : pb = Fb pb) (hd : pd = Fd pd) : OnlyBytes pb.parseBer ∧ OnlyBytes pd.parseDer :=
  ⟨onlyBytes_ber (fixed_fine h hb hd).strong.1.loc, onlyBytes_der (fixed_fine h hb hd).strong.2.loc⟩

/-- **C136** What `parse_der` accepts, `parse_ber` accepts with the same value and the same remainder. -/
theorem C136_der_subset_ber {Fb Fd : Parser ρ → Parser ρ} (h : SelfType real ρ true Fb Fd) {pb pd : Parser ρ}
    (hb : pb = Fb pb) (hd : pd = Fd pd) : Accepts pd.parseDer pb.parseBer := (fixed_fine h hb hd).accepts

/-! ### No limit on the depth -/

/-- `#[derive(BerAlias, DerAlias)] struct Nest(Vec<Nest>)`. -/
inductive Nest where
  | mk (items : List Nest)

/-- The text of its parsers. -/
def nestF (m : Rules) (p : Parser Nest) : Parser Nest :=
  (aliasP (match m with | .ber => vecBer p | .der => vecDer p)).map fun a => .mk a.inner

theorem nest_self : SelfType false Nest true (nestF .ber) (nestF .der) :=
  .named (fun a : Alias (List Nest) => Nest.mk a.inner) (.alias (.vec .self))

/-- The value of depth `n`: a `Nest` within a `Nest` within …, the innermost one empty. -/
def Nest.chain : Nat → Nest
  | 0 => .mk []
  | n + 1 => .mk [chain n]

/-- Its encoding. -/
def chainBytes : Nat → Bytes
  | 0 => full .universal true 16 []
  | n + 1 => full .universal true 16 (chainBytes n)

theorem lenOctets_nine {n : Nat} (hn : n < 2 ^ 64) : (lenOctets (.definite n)).length ≤ 9 := by
  rcases (writeLength_spec (.definite n) (by intro m hm; simp at hm; omega)).2 with
    ⟨h, _⟩ | ⟨m, h, ⟨h1, b, e, hb⟩ | ⟨h1, b, x, xs, e, hb, hx, hle, hv⟩⟩
  · simp at h
  · rw [e]; simp
  · rw [e]; simp only [List.length_cons] at hle ⊢; omega

theorem chain_size (n : Nat) (hn : n < 2 ^ 60) :
    0 < (chainBytes n).length ∧ (chainBytes n).length ≤ 10 * n + 2 := by
  induction n with
  | zero => decide +kernel
  | succ n ih =>
    obtain ⟨h1, h2⟩ := ih (by omega)
    have h3 := lenOctets_nine (n := (chainBytes n).length) (by omega)
    have h4 : (identOctets .universal true 16).length = 1 := by decide +kernel
    simp only [chainBytes, full, List.length_append, h4]
    omega

/-- The object that `chainBytes` is. -/
theorem chain_any (m : Rules) (cs : Bytes) (hs : cs.length < 2 ^ 64) (i : Input) (rest : Bytes)
    (hi : i.data = full .universal true 16 cs ++ rest) :
    ∃ a, m.any i = .ok (after i (full .universal true 16 cs).length, a) ∧ a.header.tag = 16 ∧
      a.header.constructed = true ∧ a.data.data = cs := by
  have hdat : (first (after i ((full .universal true 16 cs).length - cs.length)) cs.length).data = cs := by
    rw [first_data, full_content i .universal true 16 cs rest hi]; simp
  cases m
  · exact ⟨_, parseBerAny_full i _ _ _ cs rest (by decide) hs hi, rfl, rfl, hdat⟩
  · exact ⟨_, parseDerAny_full i _ _ _ cs rest (by decide) hs hi, rfl, rfl, hdat⟩

theorem nest_parse {m : Rules} {p : Parser Nest} {i r : Input} {v : Nest} :
    m.parse (nestF m p) i = .ok (r, v) ↔ ∃ a x l, m.any i = .ok (r, a) ∧ a.header.tag = 16 ∧
      a.header.constructed = true ∧ Repeats (m.parse p) a.data l x ∧ v = .mk l := by
  rw [rules_parse_ok]
  have hc : ∀ h j x, (nestF m p).content h j = .ok (x, v) ↔
      ∃ l, h.constructed = true ∧ Repeats (m.parse p) j l x ∧ v = .mk l := by
    intro h j x
    unfold nestF
    rw [map_content, alias_map]
    simp only [map_content]
    cases m
    · simp only [vecBer_content]
      constructor
      · rintro ⟨a, ⟨l, ⟨h1, h2⟩, rfl⟩, h3⟩; exact ⟨l, h1, h2, h3⟩
      · rintro ⟨l, h1, h2, h3⟩; exact ⟨_, ⟨l, ⟨h1, h2⟩, rfl⟩, h3⟩
    · simp only [vecDer_content]
      constructor
      · rintro ⟨a, ⟨l, ⟨h1, h2⟩, rfl⟩, h3⟩; exact ⟨l, h1, h2, h3⟩
      · rintro ⟨l, h1, h2, h3⟩; exact ⟨_, ⟨l, ⟨h1, h2⟩, rfl⟩, h3⟩
  have ht : ∀ t, (nestF m p).acceptTag t = true ↔ t = 16 := by
    intro t
    cases m <;> exact tagIs_iff
  constructor
  · rintro ⟨a, x, h1, h2, h3⟩
    obtain ⟨l, h4, h5, h6⟩ := (hc _ _ _).mp h3
    exact ⟨a, x, l, h1, (ht _).mp h2, h4, h5, h6⟩
  · rintro ⟨a, x, l, h1, h2, h4, h5, h6⟩
    exact ⟨a, x, h1, (ht _).mpr h2, (hc _ _ _).mpr ⟨l, h4, h5, h6⟩⟩

theorem chain_read {m : Rules} {p : Parser Nest} (hp : p = nestF m p) (n : Nat) (hn : n < 2 ^ 60) (i : Input)
    (rest : Bytes) (hi : i.data = chainBytes n ++ rest) :
    m.parse p i = .ok (after i (chainBytes n).length, .chain n) := by
  induction n generalizing i rest with
  | zero =>
    obtain ⟨a, h1, h2, h3, h4⟩ := chain_any m [] (by decide) i rest hi
    rw [hp]
    exact nest_parse.mpr ⟨a, _, [], h1, h2, h3, .nil h4, rfl⟩
  | succ n ih =>
    have hs := chain_size n (by omega)
    obtain ⟨a, h1, h2, h3, h4⟩ := chain_any m (chainBytes n) (by omega) i rest hi
    have h5 := ih (by omega) a.data [] (by rw [h4, List.append_nil])
    rw [hp]
    refine nest_parse.mpr ⟨a, _, [.chain n], h1, h2, h3, .cons ?_ h5 (.nil ?_), rfl⟩
    · intro h; rw [← h4, h] at hs; exact absurd hs.1 (by decide)
    · rw [after_data, h4]; simp

theorem chain_refused {m : Rules} (n k : Nat) (hn : n < 2 ^ 60) (hk : k ≤ n) (i : Input)
    (rest : Bytes) (hi : i.data = chainBytes n ++ rest) (r : Input) (v : Nest) :
    m.parse (selfCalls (nestF m) refuse k) i ≠ .ok (r, v) := by
  induction k generalizing n i rest r v with
  | zero =>
    intro h
    obtain ⟨a, x, _, h2, _⟩ := rules_parse_ok.mp h
    cases h2
  | succ k ih =>
    intro h
    obtain ⟨n, rfl⟩ : ∃ n', n = n' + 1 := ⟨n - 1, by omega⟩
    have hs := chain_size n (by omega)
    obtain ⟨a, h1, h2, h3, h4⟩ := chain_any m (chainBytes n) (by omega) i rest hi
    obtain ⟨a', x, l, h1', _, _, h5, _⟩ := nest_parse.mp h
    rw [h1] at h1'
    injection h1' with h1'; injection h1' with _ h1'; subst h1'
    cases h5 with
    | nil h => rw [← h4, h] at hs; exact absurd hs.1 (by decide)
    | cons _ hp _ => exact ih n (by omega) (by omega) a.data [] (by rw [h4, List.append_nil]) _ _ hp

/-- **C136** (what a user might expect and does not hold) The nesting is not limited: the limit of 50 levels
(`MAX_RECURSION`) is on the objects skipped, not on the calls of typed parsers. For every `n` there are at most
`10 n + 2` bytes that `parse_ber` and `parse_der` of `struct Nest(Vec<Nest>)` accept with a value of depth `n`, and
`n` calls, one within the other, are not enough to read them. -/
theorem C136_no_limit_deviation {m : Rules} {p : Parser Nest} (hp : p = nestF m p) (n : Nat) (hn : n < 2 ^ 60) :
    ∃ bs : Bytes, bs.length ≤ 10 * n + 2 ∧ (∃ r, m.parse p (Input.fromSlice bs) = .ok (r, .chain n)) ∧
      ∀ k ≤ n, ∀ r v, m.parse (selfCalls (nestF m) refuse k) (Input.fromSlice bs) ≠ .ok (r, v) := by
  refine ⟨chainBytes n, (chain_size n hn).2, ⟨_, chain_read hp n hn _ [] (by rw [List.append_nil]; rfl)⟩, ?_⟩
  exact fun k hk r v => chain_refused n k hn hk _ [] (by rw [List.append_nil]; rfl) r v

/-! ### Cases

`struct Branch { label: u32, children: Vec<Branch>, note: Option<[0] IMPLICIT bool> }`, and the filters of LDAP:
`enum Filter { And(SetOf<Filter>), Or(SetOf<Filter>), Present(OctetString) }` with the implicit tags 0, 1 and 7. -/

/-- A tree. -/
inductive Branch where
  | node (label : Nat) (children : List Branch) (note : Option Bool)

/-- The text of its parsers. -/
def branchF (m : Rules) (p : Parser Branch) : Parser Branch :=
  (structP m 16 (.cons (.required .untagged (match m with | .ber => (uintC 4).ber | .der => (uintC 4).der))
    (.cons (.required .untagged (match m with | .ber => vecBer p | .der => vecDer p))
      (.cons (.optional (.implicit .contextSpecific 0) (match m with | .ber => boolC.ber | .der => boolC.der))
        .nil)))).map fun v => .node v.1 v.2.1 v.2.2.1

theorem branch_self (real : Bool) : SelfType real Branch true (branchF .ber) (branchF .der) :=
  .named (fun v : Tup [Nat, List Branch, Option Bool] => Branch.node v.1 v.2.1 v.2.2.1)
    (.struct 16 (.required .untagged (.built (.universal (.uint 4 (by decide)))) (.required .untagged (.vec .self)
      (.optional (.implicit .contextSpecific 0) (.built (.universal .bool)) .nil))))

/-- A filter. -/
inductive Filter where
  | and (fs : List Filter)
  | or (fs : List Filter)
  | present (name : Bytes)

/-- The text of its parsers. -/
def filterF (m : Rules) (p : Parser Filter) : Parser Filter :=
  (choiceP m .implicit
    (.cons 0 (setOfP (match m with | .ber => anyBer.parseBer | .der => anyDer.parseDer) p)
    (.cons 1 (setOfP (match m with | .ber => anyBer.parseBer | .der => anyDer.parseDer) p)
    (.cons 7 (match m with | .ber => octetC.ber | .der => octetC.der) .nil)))).map fun
      | .inl s => .and s.items
      | .inr (.inl s) => .or s.items
      | .inr (.inr (.inl b)) => .present b

theorem filter_self (real : Bool) : SelfType real Filter true (filterF .ber) (filterF .der) :=
  .named (fun v : HSum [SetOf Filter, SetOf Filter, Bytes] => match v with
      | .inl s => Filter.and s.items
      | .inr (.inl s) => .or s.items
      | .inr (.inr (.inl b)) => .present b)
    (.choice .implicit (.cons 0 (.setOf .self) (.cons 1 (.setOf .self) (.cons 7 (.built (.universal .octetString)) .nil))))

/-- What a tree has at the top, and the labels of its children. -/
def branchOutcome : PRes Branch → Option (Bytes × Nat × List Nat × Option Bool)
  | .ok (r, .node l cs n) => some (r.data, l, cs.map fun | .node l _ _ => l, n)
  | .error _ => none

/-- A tree with two children, the second of which has one. -/
def branchBytes : Bytes :=
  [0x30, 32, 2, 1, 7, 0x30, 27, 0x30, 5, 2, 1, 8, 0x30, 0, 0x30, 18, 2, 1, 9, 0x30, 10, 0x30, 8, 2, 1, 10, 0x30, 0,
    0x80, 1, 0xff, 0x80, 1, 0, 0xee]

example : ∃ pb pd, pb = branchF .ber pb ∧ pd = branchF .der pd ∧
    branchOutcome (pd.parseDer (Input.fromSlice branchBytes)) = some ([0xee], 7, [8, 9], none) ∧
    NoPanic (pb.parseBer (Input.fromSlice (branchBytes.take 20))) := by
  obtain ⟨⟨pb, hb, _⟩, pd, hd, _⟩ := C136_one_parser (branch_self false)
  refine ⟨pb, pd, hb, hd, ?_, (C136_no_panic (branch_self false) hb hd _).1⟩
  rw [← (C136_depth (branch_self false) hb hd refuse 18 (Input.fromSlice branchBytes) (by decide)).2]
  decide +kernel

/-- The shape of a filter, two levels deep. -/
def filterOutcome : PRes Filter → Option (Nat × List Nat)
  | .ok (_, .and fs) => some (0, fs.map fun | .and _ => 0 | .or _ => 1 | .present _ => 7)
  | .ok (_, .or fs) => some (1, fs.map fun | .and _ => 0 | .or _ => 1 | .present _ => 7)
  | .ok (_, .present _) => some (7, [])
  | .error _ => none

/-- `(&(a)(|(b)))` -/
example : ∃ p, p = filterF .ber p ∧
    filterOutcome (p.parseBer (Input.fromSlice [0xa0, 8, 0x87, 1, 0x61, 0xa1, 3, 0x87, 1, 0x62])) =
      some (0, [7, 1]) := by
  obtain ⟨⟨pb, hb, _⟩, pd, hd, _⟩ := C136_one_parser (filter_self false)
  refine ⟨pb, hb, ?_⟩
  rw [← (C136_depth (filter_self false) hb hd refuse 5 (Input.fromSlice _) (by decide)).1]
  decide +kernel

/-- The occurrence must be within another object: a type that is nothing but itself is not determined. -/
example : SelfType false Nat false (fun p => p) (fun p => p) ∧
    ∃ p q : Parser Nat, p = (fun p => p) p ∧ q = (fun p => p) q ∧ p ≠ q :=
  ⟨.self, refuse, ⟨fun _ => true, fun _ i => .ok (i, 0)⟩, rfl, rfl, fun h => by
    have := congrArg (fun p => p.acceptTag 0) h
    cases this⟩

end Asn1

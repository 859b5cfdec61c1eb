import Verif.Props.Work
import Verif.Spec.WorkTyped
import Verif.Proofs.Weight
/-!
# The counting parsers are the parsers of the crate
-/
namespace Asn1
open Spec
variable {α β : Type}

theorem tick_ext {x y : Tick α} (h1 : x.1 = y.1) (h2 : x.2 = y.2) : x = y := Prod.ext h1 h2

theorem tick_bind_fst (x : Tick α) (f : α → Tick β) : (x >>= f).1 = x.1 >>= fun a => (f a).1 := by
  obtain ⟨y, n⟩ := x
  cases y <;> rfl

@[simp] theorem tick_free_fst (x : Except PErr α) : (Tick.free x).1 = x := rfl
@[simp] theorem tick_one_fst (x : Except PErr α) : (Tick.one x).1 = x := rfl
@[simp] theorem tick_pure_fst (a : α) : (pure a : Tick α).1 = .ok a := rfl

/-- Bind after bind, in the plain parsers. -/
theorem plain_bind {x : Tick α} {y : Except PErr α} {f : α → Tick β} {g : α → Except PErr β}
    (h : x.1 = y) (hf : ∀ a, (f a).1 = g a) : (x >>= f).1 = y >>= g := by
  rw [tick_bind_fst, h]
  cases y with
  | error e => rfl
  | ok a => exact hf a

theorem plain_ite {c : Prop} [Decidable c] {x y : Tick α} {x' y' : Except PErr α} (h1 : x.1 = x') (h2 : y.1 = y') :
    (if c then x else y).1 = if c then x' else y' := by
  split
  · exact h1
  · exact h2

theorem plain_ext {p : CParser α} {q : Parser α} (h1 : p.acceptTag = q.acceptTag)
    (h2 : ∀ h i, (p.content h i).1 = q.content h i) : p.plain = q := by
  obtain ⟨a, c⟩ := q
  show Parser.mk _ _ = Parser.mk _ _
  simp only at h1 h2
  rw [h1]
  congr 1
  funext h i
  exact h2 h i

theorem plain_accept {p : CParser α} {q : Parser α} (h : p.plain = q) : p.acceptTag = q.acceptTag := by rw [← h]; rfl
theorem plain_content {p : CParser α} {q : Parser α} (h : p.plain = q) (hd : Header) (i : Input) :
    (p.content hd i).1 = q.content hd i := by rw [← h]; rfl

theorem plain_leaf (p : Parser α) : (CParser.leaf p).plain = p := rfl

theorem plain_parse {p : CParser α} {q : Parser α} (h : p.plain = q) (m : Rules) (i : Input) :
    (p.parse m i).1 = m.parse q i := by
  subst h
  cases m with
  | ber =>
    refine plain_bind rfl fun x => plain_ite rfl (plain_bind (berContentCount_ok _ _ _).1 fun y => ?_)
    exact plain_bind rfl fun z => rfl
  | der =>
    refine plain_bind rfl fun x => plain_bind rfl fun l => plain_ite rfl (plain_bind rfl fun y => ?_)
    exact plain_bind rfl fun z => rfl

theorem plain_anyParse (m : Rules) (i : Input) : (m.anyC.parse m i).1 = m.anyParse i := by
  cases m with
  | ber => exact plain_parse (plain_leaf anyBer) .ber i
  | der => exact plain_parse (plain_leaf anyDer) .der i

theorem plain_forIter {σ : Type} {m : Rules} {f : σ → Any → Tick (Bool × σ)} {g : σ → Any → Except PErr (Bool × σ)}
    (hf : ∀ s a, (f s a).1 = g s a) : ∀ fuel it s,
    (forIterTick m f fuel it s).1 = forIter m.anyParse g fuel it s := by
  intro fuel
  induction fuel with
  | zero => exact fun _ _ => rfl
  | succ n ih =>
    intro it s
    unfold forIterTick forIter
    rw [tick_bind_fst]
    show (it.next m.anyParse >>= _) = _
    cases it.next m.anyParse with
    | error e => rfl
    | ok x =>
      obtain ⟨o, it'⟩ := x
      cases o with
      | none => rfl
      | some o =>
        cases o with
        | err j e => rfl
        | obj sp a =>
          simp only [bind_ok]
          rw [tick_bind_fst, hf]
          cases g s a with
          | error e => rfl
          | ok z =>
            obtain ⟨b, s'⟩ := z
            cases b with
            | true => exact ih it' s'
            | false => rfl

theorem plain_collect {p : CParser α} {q : Parser α} (h : p.plain = q) (m : Rules) (it : AnyIter) :
    (collectTick m it p).1 = it.tryParseCollect m.anyParse q := by
  subst h
  refine plain_bind (plain_forIter (fun l a => ?_) _ _ _) fun x => rfl
  unfold collectStepTick parseCollectStep
  rw [plain_ite (x' := nomErr a.data (.unexpectedTag none a.header.tag))
    (y' := match p.plain.content a.header a.data with
      | .ok (_, v) => .ok (true, l ++ [v])
      | .error e => .error e) rfl ?_]
  · rfl
  · rw [tick_bind_fst]
    show ((p.plain.content a.header a.data) >>= _) = _
    cases p.plain.content a.header a.data with
    | error e => rfl
    | ok z => rfl

theorem plain_segmented {acc : Nat → Bool} {e : α} {ap : α → α → α} {leaf : Header → Input → PRes α} :
    ∀ n h i, (segmentedTick acc e ap leaf n h i).1 = parseSegmented acc e ap leaf n h i := by
  intro n
  induction n with
  | zero => exact fun _ _ => rfl
  | succ n ih =>
    intro h i
    unfold segmentedTick parseSegmented
    refine plain_ite rfl (plain_ite (plain_bind ?_ fun x => plain_bind (plain_forIter (fun s a => ?_) _ _ _)
      fun y => rfl) (plain_bind (berContentCount_ok _ _ _).1 fun x => plain_bind rfl fun y => rfl))
    · unfold segContentTick segContent
      exact plain_ite (berContentCount_ok _ _ _).1 rfl
    · unfold segStepTick segStep
      refine plain_ite rfl (plain_ite rfl (plain_ite rfl ?_))
      rw [tick_bind_fst, ih]
      simp only
      cases parseSegmented acc e ap leaf n a.header a.data with
      | error e => rfl
      | ok z => rfl

theorem plain_octets : CParser.octets.plain = octetBer :=
  plain_ext rfl fun _ _ => plain_ite rfl (plain_segmented _ _ _)

theorem plain_bits : CParser.bits.plain = bitBer :=
  plain_ext rfl fun _ _ => plain_ite rfl (plain_segmented _ _ _)

theorem plain_text (k : StrKind) : (CParser.text k).plain = strBer k :=
  plain_ext rfl fun _ _ => plain_bind (plain_ite rfl (plain_segmented _ _ _)) fun _ => rfl

theorem plain_bmp : (CParser.wide 30 bmpOfBytes).plain = bmpBer :=
  plain_ext rfl fun _ _ => plain_bind (plain_ite rfl (plain_segmented _ _ _)) fun _ => rfl

theorem plain_univ : (CParser.wide 28 univOfBytes).plain = univBer :=
  plain_ext rfl fun _ _ => plain_bind (plain_ite rfl (plain_segmented _ _ _)) fun _ => rfl

theorem plain_primitive {p : CParser α} {q : Parser α} (h : p.plain = q) :
    p.primitive.plain = ⟨q.acceptTag, fun hd i => do
      hd.assertPrimitive i
      q.content hd i⟩ := by
  subst h
  exact plain_ext rfl fun _ _ => plain_bind rfl fun _ => rfl

theorem plain_map {p : CParser α} {q : Parser α} (h : p.plain = q) (f : α → β) : (p.map f).plain = q.map f := by
  subst h
  refine plain_ext rfl fun hd i => ?_
  show (p.content hd i >>= _).1 = _
  rw [tick_bind_fst]
  show ((p.plain.content hd i) >>= _) = match p.plain.content hd i with | .ok (rem, a) => .ok (rem, f a) | .error e => .error e
  cases p.plain.content hd i <;> rfl

theorem plain_vec {p : CParser α} {q : Parser α} (h : p.plain = q) (m : Rules) :
    (CParser.vec m p).plain = vecP m.anyParse q :=
  plain_ext rfl fun _ _ => plain_bind rfl fun _ => plain_ite rfl (plain_collect h m _)

theorem plain_setItems {p : CParser α} {q : Parser α} (h : p.plain = q) (m : Rules) :
    (CParser.setItems m p).plain = setItemsP m.anyParse q :=
  plain_ext rfl fun _ _ => plain_bind rfl fun _ => plain_collect h m _

theorem plain_array {p : CParser α} {q : Parser α} (h : p.plain = q) (m : Rules) (N : Nat) :
    (CParser.array N m p).plain = arrayP N m.anyParse q :=
  plain_ext rfl fun _ _ => plain_bind (plain_content (plain_vec h m) _ _) fun _ => rfl

theorem plain_explicit {p : CParser α} {q : Parser α} (h : p.plain = q) (m : Rules) (cls : Class) (tag : Nat) :
    (CParser.explicit m cls tag p).plain = explicitP cls tag (m.parse q) :=
  plain_ext rfl fun _ _ => plain_bind rfl fun _ => plain_ite rfl (plain_ite rfl
    (plain_bind (plain_parse h m _) fun _ => rfl))

theorem plain_implicit {p : CParser α} {q : Parser α} (h : p.plain = q) (cls : Class) (tag : Nat) :
    (CParser.implicit cls tag p).plain = implicitP cls tag q :=
  plain_ext rfl fun _ _ => plain_ite rfl (plain_bind (plain_content h _ _) fun _ => rfl)

theorem plain_option {p : CParser α} {q : Parser α} (h : p.plain = q) (m : Rules) (i : Input) :
    (optionTick m p i).1 = optionParse m.header q i := by
  subst h
  refine plain_ite rfl (plain_bind rfl fun x => plain_ite rfl (plain_bind (berContentCount_ok _ _ _).1 fun y =>
    plain_bind ?_ fun z => rfl))
  exact plain_ite rfl (plain_bind (berContentCount_ok _ _ _).1 fun y => plain_bind rfl fun z => rfl)

theorem plain_tagged {p : CParser (TaggedValue α)} {q : Parser (TaggedValue α)} (h : p.plain = q) (m : Rules)
    (i : Input) : (taggedTick m p i).1 = taggedField m q i :=
  plain_bind (plain_parse h m i) fun _ => rfl

theorem plain_optTagged {p : CParser (TaggedValue α)} {q : Parser (TaggedValue α)} (h : p.plain = q) (m : Rules)
    (n : Nat) (i : Input) : (optTaggedTick m n p i).1 = optTaggedField m n q i :=
  plain_ite rfl (plain_bind rfl fun _ => plain_ite (plain_bind (plain_parse h m i) fun _ => rfl) rfl)

theorem plain_optional {p : CParser α} {q : Parser α} (h : p.plain = q) (m : Rules) (tag : FieldTag) (i : Input) :
    (optionalTick m tag p i).1 = optionalField m tag q i := by
  cases tag with
  | untagged => exact plain_option h m i
  | explicit cls n => exact plain_optTagged (plain_explicit h m cls n) m n i
  | implicit cls n => exact plain_optTagged (plain_implicit h cls n) m n i

theorem plain_required {p : CParser α} {q : Parser α} (h : p.plain = q) (m : Rules) (tag : FieldTag) (i : Input) :
    (requiredTick m tag p i).1 = requiredField m tag q i := by
  cases tag with
  | untagged => exact plain_parse h m i
  | explicit cls n => exact plain_tagged (plain_explicit h m cls n) m i
  | implicit cls n => exact plain_tagged (plain_implicit h cls n) m i

theorem plain_variantAccept {p : CParser α} {q : Parser α} (h : p.plain = q) (k : ChoiceKind) (t n : Nat) :
    acceptTick k t p n = variantAccept k t q n := by
  subst h
  cases k <;> rfl

theorem plain_variant {p : CParser α} {q : Parser α} (h : p.plain = q) (m : Rules) (k : ChoiceKind) (hd : Header)
    (i : Input) : (variantTick m k p hd i).1 = variantContent m k q hd i := by
  cases k with
  | explicit => exact plain_parse h m i
  | implicit => exact plain_content h hd i
  | untagged => exact plain_content h hd i

theorem plain_context {p : CParser α} {q : Parser α} (h : p.plain = q) (tag : Nat) (i : Input) :
    (contextTick tag p i).1 = contextBer tag q i := plain_parse (plain_implicit h _ _) .ber i

theorem plain_pdvPair {p : CParser α} {q : Parser α} {p' : CParser β} {q' : Parser β} (h : p.plain = q)
    (h' : p'.plain = q') (i : Input) : (pdvPairTick p p' i).1 = pdvPair q q' i :=
  plain_bind (plain_context h 0 i) fun _ => plain_bind (plain_context h' 1 _) fun _ => rfl

theorem plain_pdvIdentification (a : Any) : (pdvIdentificationTick a).1 = pdvIdentification a := by
  unfold pdvIdentificationTick
  split
  · rename_i h0
    unfold pdvIdentification
    rw [h0, tick_bind_fst, plain_pdvPair (plain_leaf oidP) (plain_leaf oidP)]
    simp only
    cases pdvPair oidP oidP a.data <;> rfl
  · split
    · rename_i h3
      unfold pdvIdentification
      rw [h3, tick_bind_fst, plain_pdvPair (plain_leaf integerBer) (plain_leaf oidP)]
      simp only
      cases pdvPair integerBer oidP a.data <;> rfl
    · rfl

theorem plain_pdv : CParser.pdv.plain = pdvP :=
  plain_ext rfl fun _ _ => plain_bind (plain_context (plain_leaf anyBer) 0 _) fun _ =>
    plain_bind (plain_pdvIdentification _) fun _ =>
      plain_bind (plain_option (plain_implicit (plain_text _) _ _) .ber _) fun _ =>
        plain_bind (plain_context (plain_leaf sliceBer) 2 _) fun _ => rfl

theorem map_sequenceOf (parse : Input → PRes Any) (p : Parser α) :
    (vecP parse p).map SequenceOf.mk = sequenceOfP parse p := by
  unfold Parser.map sequenceOfP
  congr 1
  funext h i
  cases (vecP parse p).content h i <;> rfl

theorem map_alias (p : Parser α) : p.map Alias.mk = aliasP p := by
  unfold Parser.map aliasP
  congr 1
  funext h i
  cases p.content h i <;> rfl

mutual

theorem plain_ty (m : Rules) : {α : Type} → (t : Ty α) → (t.counter m).plain = t.parser m
  | _, .leaf pb pd _ => by cases m <;> rfl
  | _, .octetString => by
    cases m
    · exact plain_octets
    · exact plain_primitive plain_octets
  | _, .bitString => by
    cases m
    · exact plain_bits
    · exact plain_primitive plain_bits
  | _, .text k => by
    cases m
    · exact plain_text k
    · exact plain_primitive (plain_text k)
  | _, .string => by
    cases m
    · exact plain_text utf8StringK
    · rfl
  | _, .bmpString => by
    cases m
    · exact plain_bmp
    · exact plain_primitive plain_bmp
  | _, .universalString => by
    cases m
    · exact plain_univ
    · exact plain_primitive plain_univ
  | _, .embeddedPdv => plain_pdv
  | _, .vec t => plain_vec (plain_ty m t) m
  | _, .sequenceOf t => by
    exact (plain_map (plain_vec (plain_ty m t) m) SequenceOf.mk).trans (map_sequenceOf _ _)
  | _, .setOf t => plain_map (plain_setItems (plain_ty m t) m) SetOf.mk
  | _, .set S t => plain_map (plain_setItems (plain_ty m t) m) S.ofList
  | _, .array N t => plain_array (plain_ty m t) m N
  | _, .tuple ts => plain_ext rfl fun _ i => plain_tys m ts i
  | _, .explicit cls tag t => plain_explicit (plain_ty m t) m cls tag
  | _, .implicit cls tag t => plain_implicit (plain_ty m t) cls tag
  | _, .struct tag fs => plain_ext rfl fun _ i => plain_bind rfl fun _ => plain_fields m fs i
  | _, .choice k vs => by
    refine plain_ext (funext fun n => plain_accepts m k vs n) fun h i => ?_
    cases k with
    | explicit => exact plain_bind rfl fun _ => plain_variants m .explicit vs h i
    | implicit => exact plain_variants m .implicit vs h i
    | untagged => exact plain_variants m .untagged vs h i
  | _, .alias t => by
    exact (plain_map (plain_ty m t) Alias.mk).trans (map_alias _)

theorem plain_tys (m : Rules) : {Ts : List Type} → (ts : Tys Ts) → (i : Input) → (ts.run m i).1 = (ts.fns m).run i
  | _, .nil, _ => rfl
  | _, .cons t ts, i => plain_bind (plain_parse (plain_ty m t) m i) fun _ =>
      plain_bind (plain_tys m ts _) fun _ => rfl

theorem plain_fields (m : Rules) : {Ts : List Type} → (fs : FieldTys Ts) → (i : Input) →
    (fs.run m i).1 = ((fs.fields m).fns m).run i
  | _, .nil, _ => rfl
  | _, .required tag t fs, i => plain_bind (plain_required (plain_ty m t) m tag i) fun _ =>
      plain_bind (plain_fields m fs _) fun _ => rfl
  | _, .optional tag t fs, i => plain_bind (plain_optional (plain_ty m t) m tag i) fun _ =>
      plain_bind (plain_fields m fs _) fun _ => rfl
  | _, .default tag x t fs, i => by
    show _ = (optionalField m tag (t.parser m) i >>= _) >>= _
    refine (plain_bind (plain_optional (plain_ty m t) m tag i) fun _ =>
      plain_bind (plain_fields m fs _) fun _ => rfl).trans ?_
    cases optionalField m tag (t.parser m) i <;> rfl

theorem plain_accepts (m : Rules) (k : ChoiceKind) : {Ts : List Type} → (vs : VariantTys Ts) → (n : Nat) →
    vs.accept m k n = (vs.variants m).accept k n
  | _, .nil, _ => rfl
  | _, .cons tag t vs, n => by
    show (acceptTick k tag (t.counter m) n || vs.accept m k n) =
      (variantAccept k tag (t.parser m) n || (vs.variants m).accept k n)
    rw [plain_variantAccept (plain_ty m t), plain_accepts m k vs n]

theorem plain_variants (m : Rules) (k : ChoiceKind) : {Ts : List Type} → (vs : VariantTys Ts) → (h : Header) →
    (i : Input) → (vs.content m k h i).1 = (vs.variants m).content m k h i
  | _, .nil, _, _ => rfl
  | _, .cons tag t vs, h, i => by
    show (if acceptTick k tag (t.counter m) h.tag = true then _ else _ : Tick _).1 =
      if variantAccept k tag (t.parser m) h.tag = true then _ else _
    rw [plain_variantAccept (plain_ty m t)]
    exact plain_ite (plain_bind (plain_variant (plain_ty m t) m k h i) fun _ => rfl)
      (plain_bind (plain_variants m k vs h i) fun _ => rfl)

end

end Asn1

import Verif.Spec.Built
import Verif.Props.ContainersSafe
import Verif.Props.DeriveEnum
import Verif.Props.DeriveChoice
import Verif.Props.RealAgree
import Verif.Props.CharStringsAgree
/-!
# Type constructors preserve: no panic, position independence, DER within BER
-/
namespace Asn1
open Spec

variable {α β : Type}

/-- What DER accepts of a content, BER accepts with the same value. -/
def SubContent (pd pb : Parser α) : Prop :=
  ∀ h i r v, h.length = .definite i.data.length → pd.content h i = .ok (r, v) →
    ∃ r', pb.content h i = .ok (r', v)

/-- What is carried through the type constructors. -/
structure Fine (real : Bool) (pb pd : Parser α) : Prop where
  safe : real = false → pb.Safe ∧ pd.Safe
  strong : pb.Strong ∧ pd.Strong
  tags : ∀ t, pd.acceptTag t = pb.acceptTag t
  sub : SubContent pd pb

variable {real : Bool}

theorem Fine.accepts {pb pd : Parser α} (h : Fine real pb pd) : Accepts pd.parseDer pb.parseBer :=
  fun _ _ _ hv => der_subset_ber (fun t ht => (h.tags t) ▸ ht) h.sub hv

theorem Fine.noPanic {pb pd : Parser α} (h : Fine real pb pd) (hr : real = false) (i : Input) :
    NoPanic (pb.parseBer i) ∧ NoPanic (pd.parseDer i) :=
  ⟨safe_parseBer (h.safe hr).1 i, safe_parseDer (h.safe hr).2 i⟩

theorem Fine.free {pb pd : Parser α} (h : Fine real pb pd) : Free pb.parseBer ∧ Free pd.parseDer :=
  ⟨free_ber h.strong.1, free_der h.strong.2⟩

theorem sub_of_eq {pd pb : Parser α}
    (h : ∀ hd i r v, pd.content hd i = .ok (r, v) → pb.content hd i = .ok (r, v)) : SubContent pd pb :=
  fun hd i r v _ hv => ⟨r, h hd i r v hv⟩

theorem sub_map {pd pb : Parser α} (h : SubContent pd pb) (f : α → β) :
    SubContent (pd.map f) (pb.map f) := by
  intro hd i r v hl hv
  obtain ⟨x, h1, h2⟩ := map_content.mp hv
  obtain ⟨r', h3⟩ := h _ _ _ _ hl h1
  exact ⟨r', map_content.mpr ⟨x, h3, h2⟩⟩

theorem sub_contents {pd pb : Parser α} {P Q : Bool → Bytes → α → Prop} (hd : Contents pd P)
    (hb : Contents pb Q) (h : ∀ c cs v, P c cs v → Q c cs v) : SubContent pd pb := by
  intro hh i r v hl hv
  have hc : Consistent hh i := consistent_of hl
  exact (hb _ _ _ hc).mpr (h _ _ _ ((hd _ _ _ hc).mp ⟨r, hv⟩))

theorem sub_guard {pd pb : Parser α} {g : Header → Input → Except PErr Unit}
    (h : ∀ hd i, pd.content hd i = (g hd i >>= fun _ => pb.content hd i)) : SubContent pd pb := by
  refine sub_of_eq fun hd i r v hv => ?_
  rw [h] at hv
  obtain ⟨_, _, h2⟩ := bind_eq_ok.mp hv
  exact h2

theorem fine_universal {c : Codec α} (h : UniversalType c) : Fine real c.ber c.der := by
  cases h with
  | uint N hN =>
    exact ⟨fun _ => safe_uint N, strong_uint N, fun _ => rfl, sub_guard fun _ _ => rfl⟩
  | int N hN =>
    exact ⟨fun _ => safe_int N, strong_int N, fun _ => rfl, sub_guard fun _ _ => rfl⟩
  | integer => exact ⟨fun _ => safe_integer, strong_integer, fun _ => rfl, sub_guard fun _ _ => rfl⟩
  | bool =>
    refine ⟨fun _ => ⟨safe_map safe_boolean.1, safe_map safe_boolean.2⟩, strong_bool, fun _ => rfl,
      sub_map (sub_of_eq fun hd i r v hv => (booleanDerContent_ok.mp hv).1) _⟩
  | null => exact ⟨fun _ => ⟨safe_null, safe_null⟩, ⟨strong_null, strong_null⟩, fun _ => rfl,
      sub_of_eq fun _ _ _ _ h => h⟩
  | enumerated =>
    refine ⟨fun _ => safe_enum, strong_enum, fun _ => rfl, sub_of_eq fun hd i r v hv => ?_⟩
    obtain ⟨_, h4⟩ := (uintDer_content (by decide)).mp (enumDer_content.mp hv)
    exact enumBer_content.mpr ((uintContent_ok (by decide)).mpr h4)
  | octetString => exact ⟨fun _ => safe_octet, strong_octet, fun _ => rfl, sub_guard fun _ _ => rfl⟩
  | bitString => exact ⟨fun _ => safe_bit, strong_bit, fun _ => rfl, sub_guard fun _ _ => rfl⟩
  | oid => exact ⟨fun _ => ⟨safe_oid, safe_oid⟩, ⟨strong_oid, strong_oid⟩, fun _ => rfl,
      sub_of_eq fun _ _ _ _ h => h⟩
  | utcTime => exact ⟨fun _ => safe_utc, strong_utc, fun _ => rfl,
      sub_of_eq fun _ _ _ _ h => utcBer_content.mpr (utcDer_content.mp h)⟩
  | generalizedTime =>
    refine ⟨fun _ => safe_gen, strong_gen, fun _ => rfl, sub_of_eq fun _ _ _ _ h => ?_⟩
    obtain ⟨h1, h2, h3, _⟩ := genDer_content.mp h
    exact genBer_content.mpr ⟨h1, h2, h3⟩
  | @text k tag A hk =>
    refine ⟨fun _ => safe_str k, strong_str k, fun _ => rfl,
      sub_contents (strDer_contents hk) (str_contents hk) ?_⟩
    rintro c cs v ⟨h1, h2, h3⟩
    exact ⟨.inl ⟨h1, h2.symm⟩, h3⟩
  | refStr =>
    exact ⟨fun _ => ⟨safe_refStr.1, safe_refStr.2.1⟩, strong_refStr, fun _ => rfl,
      sub_contents refStrDer_contents refStr_contents fun _ _ _ h => h⟩
  | string =>
    exact ⟨fun _ => ⟨safe_refStr.2.2, safe_refStr.2.1⟩, ⟨strong_string, strong_refStr.2⟩, fun _ => rfl,
      sub_contents refStrDer_contents string_contents fun _ _ _ h => .inl ⟨h.1, h.2.symm⟩⟩
  | bmpString =>
    exact ⟨fun _ => safe_bmp, strong_bmp, fun _ => rfl,
      sub_contents bmpDer_contents bmp_contents fun _ _ _ h => ⟨fun _ => h.2.1, h.2.2⟩⟩
  | universalString =>
    exact ⟨fun _ => safe_univ, strong_univ, fun _ => rfl,
      sub_contents univDer_contents univ_contents fun _ _ _ h => ⟨fun _ => h.2.1, h.2.2⟩⟩

theorem fine_same {p : Parser α} (h : p.Strong) : Fine true p p :=
  ⟨by simp, ⟨h, h⟩, fun _ => rfl, sub_of_eq fun _ _ _ _ h => h⟩

/-! ### Containers -/

theorem fine_map {pb pd : Parser α} (h : Fine real pb pd) (f : α → β) :
    Fine real (pb.map f) (pd.map f) :=
  ⟨fun hr => ⟨safe_map (h.safe hr).1, safe_map (h.safe hr).2⟩,
   ⟨strong_map h.strong.1 f, strong_map h.strong.2 f⟩, h.tags, sub_map h.sub f⟩

theorem fine_vec {pb pd : Parser α} (h : Fine real pb pd) : Fine real (vecBer pb) (vecDer pd) := by
  refine ⟨fun hr => ⟨safe_vec objParser_ber (h.safe hr).1, safe_vec objParser_der (h.safe hr).2⟩,
    ⟨strong_vec objSim_ber h.strong.1, strong_vec objSim_der h.strong.2⟩, fun _ => rfl,
    sub_of_eq fun hd i r v hv => ?_⟩
  obtain ⟨h1, h2⟩ := vecDer_content.mp hv
  exact vecBer_content.mpr ⟨h1, repeats_accepts h.accepts h2⟩

theorem sequenceOf_map (parse : Input → PRes Any) (p : Parser α) :
    sequenceOfP parse p = (vecP parse p).map SequenceOf.mk := by
  unfold sequenceOfP Parser.map
  congr 1
  funext h i
  cases (vecP parse p).content h i <;> rfl

theorem fine_sequenceOf {pb pd : Parser α} (h : Fine real pb pd) :
    Fine real (sequenceOfP anyBer.parseBer pb) (sequenceOfP anyDer.parseDer pd) := by
  rw [sequenceOf_map, sequenceOf_map]
  exact fine_map (fine_vec h) _

theorem fine_setItems {pb pd : Parser α} (h : Fine real pb pd) :
    Fine real (setItemsP anyBer.parseBer pb) (setItemsP anyDer.parseDer pd) := by
  refine ⟨fun hr => ⟨safe_setItems objParser_ber (h.safe hr).1, safe_setItems objParser_der (h.safe hr).2⟩,
    ⟨strong_setItems objSim_ber h.strong.1, strong_setItems objSim_der h.strong.2⟩, fun _ => rfl,
    sub_of_eq fun hd i r v hv => ?_⟩
  obtain ⟨h1, h2⟩ := setItemsDer_content.mp hv
  exact setItemsBer_content.mpr ⟨h1, repeats_accepts h.accepts h2⟩

theorem fine_array {pb pd : Parser α} (N : Nat) (h : Fine real pb pd) :
    Fine real (arrayP N anyBer.parseBer pb) (arrayP N anyDer.parseDer pd) := by
  refine ⟨fun hr => ⟨safe_array objParser_ber (h.safe hr).1, safe_array objParser_der (h.safe hr).2⟩,
    ⟨strong_array objSim_ber h.strong.1, strong_array objSim_der h.strong.2⟩, fun _ => rfl, ?_⟩
  intro hd i r v hl hv
  obtain ⟨r', h1⟩ := (fine_vec h).sub _ _ _ _ hl (arrayP_content.mp hv)
  exact ⟨r', arrayP_content.mpr h1⟩

/-- The components of a tuple, or the fields of a struct. -/
structure FineFns (real : Bool) {Ts : List Type} (fb fd : TupFns Ts) : Prop where
  safe : real = false → SafeAll fb ∧ SafeAll fd
  free : FreeAll fb ∧ FreeAll fd
  sub : AcceptsAll fd fb

theorem fineFns_nil : FineFns real .nil .nil := ⟨fun _ => ⟨.nil, .nil⟩, ⟨.nil, .nil⟩, .nil⟩

theorem fineFns_cons {T : Type} {Ts : List Type} {f g : Input → PRes T} {fs gs : TupFns Ts}
    (h1 : real = false → ∀ i, NoPanic (f i) ∧ NoPanic (g i)) (h2 : Free f ∧ Free g) (h3 : Accepts g f)
    (h : FineFns real fs gs) : FineFns real (.cons f fs) (.cons g gs) :=
  ⟨fun hr => ⟨.cons (fun i => (h1 hr i).1) (h.safe hr).1, .cons (fun i => (h1 hr i).2) (h.safe hr).2⟩,
   ⟨.cons h2.1 h.free.1, .cons h2.2 h.free.2⟩, .cons h3 h.sub⟩

theorem fine_tuple {Ts : List Type} {fb fd : TupFns Ts} (h : FineFns real fb fd) :
    Fine real (tupleP fb) (tupleP fd) :=
  ⟨fun hr => ⟨fun _ i => safe_run (h.safe hr).1 i, fun _ i => safe_run (h.safe hr).2 i⟩,
   ⟨strong_tuple h.free.1, strong_tuple h.free.2⟩, fun _ => rfl,
   sub_of_eq fun _ _ _ _ hv => run_accepts h.sub _ _ _ hv⟩

theorem safe_raw (tag : Nat) : (rawP tag).Safe := by
  intro h i
  refine NoPanic.bind (noPanic_assertConstructed h i) fun _ _ => ?_
  refine NoPanic.bind ?_ fun _ _ => noPanic_ok _
  rw [Input.len, takeSplit_eq, if_pos (Nat.le_refl _)]
  exact noPanic_ok _

theorem fine_raw (tag : Nat) : Fine real (rawP tag) (rawP tag) :=
  ⟨fun _ => ⟨safe_raw tag, safe_raw tag⟩, ⟨strong_raw tag, strong_raw tag⟩, fun _ => rfl,
   sub_of_eq fun _ _ _ _ h => h⟩

/-! ### Tagged values -/

theorem fine_explicit {pb pd : Parser α} (cls : Class) (tag : Nat) (h : Fine real pb pd) :
    Fine real (explicitP cls tag pb.parseBer) (explicitP cls tag pd.parseDer) := by
  refine ⟨fun hr => ⟨safe_explicit fun i => (h.noPanic hr i).1, safe_explicit fun i => (h.noPanic hr i).2⟩,
    ⟨strong_explicit h.free.1, strong_explicit h.free.2⟩, fun _ => rfl, sub_of_eq fun hd i r v hv => ?_⟩
  have := explicitP_content.mp hv
  exact explicitP_content.mpr ⟨this.1, this.2.1, this.2.2.1, h.accepts _ _ _ this.2.2.2⟩

theorem fine_implicit {pb pd : Parser α} (cls : Class) (tag : Nat) (h : Fine real pb pd) :
    Fine real (implicitP cls tag pb) (implicitP cls tag pd) := by
  refine ⟨fun hr => ⟨safe_implicit (h.safe hr).1, safe_implicit (h.safe hr).2⟩,
    ⟨strong_implicit h.strong.1, strong_implicit h.strong.2⟩, fun _ => rfl, fun hd i r v hl hv => ?_⟩
  obtain ⟨h1, h2⟩ := implicitP_content.mp hv
  obtain ⟨r', h3⟩ := h.sub _ _ _ _ hl h2
  exact ⟨r', implicitP_content.mpr ⟨h1, h3⟩⟩

/-! ### Fields -/

theorem sim_header {m : Rules} {i j : Input} (hd : i.data = j.data) :
    Sim (fun a b => a.1.data = b.1.data ∧ SameHdr a.2 b.2) (m.header i) (m.header j) := by
  have key : Sim (fun a b => a.1.data = b.1.data ∧ SameHdr a.2 b.2) (parseHeader i) (parseHeader j) := by
    rintro ⟨r, h⟩ ha
    obtain ⟨e, h1, _, h2⟩ := parseHeader_local ha
    refine ⟨_, h2 j r.data (hd ▸ h1), ?_, rfl, rfl, rfl, rfl, rfl⟩
    rw [after_data, ← hd, h1, List.drop_left' rfl]
  cases m
  · exact key
  · rintro ⟨r, h⟩ ha
    obtain ⟨h1, h2⟩ := parseHeaderDer_ok.mp ha
    obtain ⟨⟨r', h'⟩, h3, h4, h5⟩ := key _ h1
    exact ⟨(r', h'), parseHeaderDer_ok.mpr ⟨h3, h5.2.2.2.1 ▸ h2⟩, h4, h5⟩

theorem noPanic_header (m : Rules) (i : Input) : NoPanic (m.header i) := by
  cases m
  · exact ⟨good_parseHeader.noPanic i, good_parseHeader.noDiverge i⟩
  · exact ⟨good_parseHeaderDer.noPanic i, good_parseHeaderDer.noDiverge i⟩

theorem noPanic_parse {m : Rules} {p : Parser α} (hp : p.Safe) (i : Input) : NoPanic (m.parse p i) := by
  cases m
  · exact safe_parseBer hp i
  · exact safe_parseDer hp i

theorem noPanic_required {m : Rules} {p : Parser α} (hp : p.Safe) (tag : FieldTag) (i : Input) :
    NoPanic (requiredField m tag p i) := by
  cases tag with
  | untagged => exact noPanic_parse hp i
  | explicit cls n =>
    exact NoPanic.bind (noPanic_parse (safe_explicit fun i => noPanic_parse hp i) i) fun _ _ => noPanic_ok _
  | implicit cls n =>
    exact NoPanic.bind (noPanic_parse (safe_implicit hp) i) fun _ _ => noPanic_ok _

theorem noPanic_optTagged {m : Rules} {p : Parser (TaggedValue α)} (hp : p.Safe) (n : Nat) (i : Input) :
    NoPanic (optTaggedField m n p i) := by
  unfold optTaggedField
  split
  · exact noPanic_ok _
  · refine NoPanic.bind (noPanic_header m i) fun x _ => ?_
    simp only
    split
    · exact NoPanic.bind (noPanic_parse hp i) fun _ _ => noPanic_ok _
    · exact noPanic_ok _

theorem noPanic_optionContent {p : Parser α} (hp : p.Safe) (h : Header) (i : Input) :
    NoPanic (optionContent p h i) := by
  unfold optionContent
  split
  · exact noPanic_ok _
  · exact NoPanic.bind (noPanic_berContent h i) fun _ _ => NoPanic.bind (hp _ _) fun _ _ => noPanic_ok _

theorem noPanic_optionParse {m : Rules} {p : Parser α} (hp : p.Safe) (i : Input) :
    NoPanic (optionParse m.header p i) := by
  unfold optionParse
  split
  · exact noPanic_ok _
  · refine NoPanic.bind (noPanic_header m i) fun x _ => ?_
    simp only
    split
    · exact noPanic_ok _
    · exact NoPanic.bind (noPanic_berContent _ _) fun _ _ =>
        NoPanic.bind (noPanic_optionContent hp _ _) fun _ _ => noPanic_ok _

theorem noPanic_optional {m : Rules} {p : Parser α} (hp : p.Safe) (tag : FieldTag) (i : Input) :
    NoPanic (optionalField m tag p i) := by
  cases tag with
  | untagged => exact noPanic_optionParse hp i
  | explicit cls n => exact noPanic_optTagged (safe_explicit fun i => noPanic_parse hp i) n i
  | implicit cls n => exact noPanic_optTagged (safe_implicit hp) n i

theorem free_parse {m : Rules} {p : Parser α} (hp : p.Strong) : Free (m.parse p) := by
  cases m
  · exact free_ber hp
  · exact free_der hp

theorem free_taggedField {m : Rules} {p : Parser (TaggedValue α)} (hp : p.Strong) :
    Free (taggedField m p) := fun i j hd =>
  sim_bind (free_parse hp i j hd) fun a b hab => sim_ok ⟨hab.1, by rw [hab.2]⟩

theorem free_required {m : Rules} {p : Parser α} (hp : p.Strong) (tag : FieldTag) :
    Free (requiredField m tag p) := by
  cases tag with
  | untagged => exact free_parse hp
  | explicit cls n => exact free_taggedField (strong_explicit (free_parse hp))
  | implicit cls n => exact free_taggedField (strong_implicit hp)

theorem free_optTagged {m : Rules} {p : Parser (TaggedValue α)} (hp : p.Strong) (n : Nat) :
    Free (optTaggedField m n p) := by
  intro i j hd
  unfold optTaggedField
  simp only [Input.isEmpty, hd]
  refine sim_ite (sim_ok ⟨hd, rfl⟩) (sim_bind (sim_header hd) fun a b hab => ?_)
  simp only [hab.2.2.2.1]
  exact sim_ite (sim_bind (free_parse hp i j hd) fun a b hab => sim_ok ⟨hab.1, by rw [hab.2]⟩)
    (sim_ok ⟨hd, rfl⟩)

theorem sim_optionContent {p : Parser α} (hp : p.Strong) {h h' : Header} {i j : Input} (hh : SameHdr h h')
    (hd : i.data = j.data) : Sim SameR (optionContent p h i) (optionContent p h' j) := by
  unfold optionContent
  simp only [hh.2.2.1]
  refine sim_ite (sim_ok ⟨hd, rfl⟩) (sim_bind (sim_berContent hh hd 49) fun a b hab => ?_)
  exact sim_bind (hp _ _ _ _ hh hab.2) fun c d hcd => sim_ok ⟨hab.1, by rw [hcd.2]⟩

theorem free_optionParse {m : Rules} {p : Parser α} (hp : p.Strong) : Free (optionParse m.header p) := by
  intro i j hd
  unfold optionParse
  simp only [Input.isEmpty, hd]
  refine sim_ite (sim_ok ⟨hd, rfl⟩) (sim_bind (sim_header hd) fun a b hab => ?_)
  simp only [hab.2.2.2.1]
  refine sim_ite (sim_ok ⟨hd, rfl⟩) (sim_bind (sim_berContent hab.2 hab.1 49) fun c d hcd => ?_)
  exact sim_bind (sim_optionContent hp hab.2 hcd.2) fun e f hef => sim_ok ⟨hcd.1, by rw [hef.2]⟩

theorem free_optional {m : Rules} {p : Parser α} (hp : p.Strong) (tag : FieldTag) :
    Free (optionalField m tag p) := by
  cases tag with
  | untagged => exact free_optionParse hp
  | explicit cls n => exact free_optTagged (strong_explicit (free_parse hp)) n
  | implicit cls n => exact free_optTagged (strong_implicit hp) n

theorem accepts_required {pb pd : Parser α} (h : Fine real pb pd) (tag : FieldTag) :
    Accepts (requiredField .der tag pd) (requiredField .ber tag pb) := by
  intro i r v hv
  cases tag with
  | untagged => exact h.accepts _ _ _ hv
  | explicit cls n => exact taggedField_ok.mpr ((fine_explicit cls n h).accepts _ _ _ (taggedField_ok.mp hv))
  | implicit cls n => exact taggedField_ok.mpr ((fine_implicit cls n h).accepts _ _ _ (taggedField_ok.mp hv))

theorem accepts_optTagged {pb pd : Parser (TaggedValue α)} (h : Fine real pb pd) (n : Nat) :
    Accepts (optTaggedField .der n pd) (optTaggedField .ber n pb) := by
  intro i r v hv
  unfold optTaggedField at hv ⊢
  split at hv
  · rename_i he
    rw [if_pos he]; exact hv
  · rename_i he
    rw [if_neg he]
    obtain ⟨⟨r1, hh⟩, h1, h2⟩ := bind_eq_ok.mp hv
    refine bind_eq_ok.mpr ⟨(r1, hh), (parseHeaderDer_ok.mp h1).1, ?_⟩
    simp only at h2 ⊢
    split at h2
    · rename_i ht
      rw [if_pos ht]
      obtain ⟨⟨r2, t⟩, h3, h4⟩ := bind_eq_ok.mp h2
      exact bind_eq_ok.mpr ⟨(r2, t), h.accepts _ _ _ h3, h4⟩
    · rename_i ht
      rw [if_neg ht]; exact h2

theorem accepts_optional {pb pd : Parser α} (h : Fine real pb pd) (tag : FieldTag) :
    Accepts (optionalField .der tag pd) (optionalField .ber tag pb) := by
  intro i r v hv
  cases tag with
  | untagged =>
    rcases (optionParse_ok (m := .der)).mp hv with ⟨x, h1, h2, h3⟩ | ⟨h1, h2, h3⟩
    · exact (optionParse_ok (m := .ber)).mpr (.inl ⟨x, h1, h.accepts _ _ _ h2, h3⟩)
    · refine (optionParse_ok (m := .ber)).mpr (.inr ⟨h1, h2, h3.imp id ?_⟩)
      rintro ⟨r1, hh, h4, h5⟩
      exact ⟨r1, hh, (parseHeaderDer_ok.mp h4).1, h.tags _ ▸ h5⟩
  | explicit cls n => exact accepts_optTagged (fine_explicit cls n h) n _ _ _ hv
  | implicit cls n => exact accepts_optTagged (fine_implicit cls n h) n _ _ _ hv

theorem fine_struct {Ts : List Type} {fb fd : Fields Ts} (tag : Nat)
    (h : FineFns real (fb.fns .ber) (fd.fns .der)) :
    Fine real (structP .ber tag fb) (structP .der tag fd) := by
  refine ⟨fun hr => ⟨?_, ?_⟩, ⟨?_, ?_⟩, fun _ => rfl, sub_of_eq fun hd i r v hv => ?_⟩
  · exact fun hd i => NoPanic.bind (noPanic_assertConstructed hd i) fun _ _ => safe_run (h.safe hr).1 i
  · exact fun hd i => NoPanic.bind (noPanic_assertConstructed hd i) fun _ _ => safe_run (h.safe hr).2 i
  · exact fun hd hd' i j hh hij => sim_bind (sim_assertConstructed hh) fun _ _ _ =>
      strong_tuple h.free.1 hd hd' i j hh hij
  · exact fun hd hd' i j hh hij => sim_bind (sim_assertConstructed hh) fun _ _ _ =>
      strong_tuple h.free.2 hd hd' i j hh hij
  · obtain ⟨u, h1, h2⟩ := bind_eq_ok.mp hv
    exact bind_eq_ok.mpr ⟨u, h1, run_accepts h.sub _ _ _ h2⟩

/-! ### CHOICE, ENUMERATED, aliases -/

/-- The variants of a CHOICE. -/
structure FineVariants (real : Bool) {Ts : List Type} (vb vd : Variants Ts) : Prop where
  safe : real = false → ∀ k h i, NoPanic (vb.content .ber k h i) ∧ NoPanic (vd.content .der k h i)
  strong : ∀ k h h' i j, SameHdr h h' → i.data = j.data →
    Sim SameR (vb.content .ber k h i) (vb.content .ber k h' j) ∧
    Sim SameR (vd.content .der k h i) (vd.content .der k h' j)
  tags : ∀ k t, vd.accept k t = vb.accept k t
  sub : ∀ k h i r v, h.length = .definite i.data.length → vd.content .der k h i = .ok (r, v) →
    ∃ r', vb.content .ber k h i = .ok (r', v)

theorem fineVariants_nil : FineVariants real .nil .nil :=
  ⟨fun _ _ _ _ => ⟨noPanic_nomErr _ _, noPanic_nomErr _ _⟩,
   fun _ _ _ _ _ _ _ => ⟨sim_nomErr, sim_nomErr⟩, fun _ _ => rfl, by rintro _ _ _ _ _ _ ⟨⟩⟩

theorem noPanic_variant {m : Rules} {p : Parser α} (hp : p.Safe) (k : ChoiceKind) (h : Header) (i : Input) :
    NoPanic (variantContent m k p h i) := by
  cases k
  · exact noPanic_parse hp i
  · exact hp h i
  · exact hp h i

theorem sim_variant {m : Rules} {p : Parser α} (hp : p.Strong) (k : ChoiceKind) {h h' : Header} {i j : Input}
    (hh : SameHdr h h') (hd : i.data = j.data) :
    Sim SameR (variantContent m k p h i) (variantContent m k p h' j) := by
  cases k
  · exact free_parse hp i j hd
  · exact hp _ _ _ _ hh hd
  · exact hp _ _ _ _ hh hd

theorem variantAccept_tags {pb pd : Parser α} (h : Fine real pb pd) (k : ChoiceKind) (t tag : Nat) :
    variantAccept k t pd tag = variantAccept k t pb tag := by
  cases k
  · rfl
  · rfl
  · exact h.tags tag

theorem sub_variant {pb pd : Parser α} (h : Fine real pb pd) (k : ChoiceKind) {hd : Header} {i r : Input}
    {v : α} (hl : hd.length = .definite i.data.length)
    (hv : variantContent .der k pd hd i = .ok (r, v)) :
    ∃ r', variantContent .ber k pb hd i = .ok (r', v) := by
  cases k
  · exact ⟨r, h.accepts _ _ _ hv⟩
  · exact h.sub _ _ _ _ hl hv
  · exact h.sub _ _ _ _ hl hv

theorem fineVariants_cons {T : Type} {Ts : List Type} {pb pd : Parser T} {vb vd : Variants Ts} (tag : Nat)
    (h : Fine real pb pd) (ht : FineVariants real vb vd) :
    FineVariants real (.cons tag pb vb) (.cons tag pd vd) := by
  refine ⟨fun hr k hd i => ⟨?_, ?_⟩, fun k hd hd' i j hh hij => ⟨?_, ?_⟩, fun k t => ?_, ?_⟩
  · unfold Variants.content
    split
    · exact NoPanic.bind (noPanic_variant (h.safe hr).1 k hd i) fun _ _ => noPanic_ok _
    · exact NoPanic.bind (ht.safe hr k hd i).1 fun _ _ => noPanic_ok _
  · unfold Variants.content
    split
    · exact NoPanic.bind (noPanic_variant (h.safe hr).2 k hd i) fun _ _ => noPanic_ok _
    · exact NoPanic.bind (ht.safe hr k hd i).2 fun _ _ => noPanic_ok _
  · unfold Variants.content
    simp only [hh.2.2.1]
    exact sim_ite (sim_bind (sim_variant h.strong.1 k hh hij) fun a b hab => sim_ok ⟨hab.1, by rw [hab.2]⟩)
      (sim_bind (ht.strong k _ _ _ _ hh hij).1 fun a b hab => sim_ok ⟨hab.1, by rw [hab.2]⟩)
  · unfold Variants.content
    simp only [hh.2.2.1]
    exact sim_ite (sim_bind (sim_variant h.strong.2 k hh hij) fun a b hab => sim_ok ⟨hab.1, by rw [hab.2]⟩)
      (sim_bind (ht.strong k _ _ _ _ hh hij).2 fun a b hab => sim_ok ⟨hab.1, by rw [hab.2]⟩)
  · unfold Variants.accept
    rw [variantAccept_tags h, ht.tags]
  · intro k hd i r v hl hv
    unfold Variants.content at hv ⊢
    rw [variantAccept_tags h] at hv
    split at hv
    · rename_i hacc
      rw [if_pos hacc]
      obtain ⟨⟨r1, x⟩, h1, h2⟩ := bind_eq_ok.mp hv
      obtain ⟨r', h3⟩ := sub_variant h k hl h1
      injection h2 with h2
      injection h2 with _ h2
      exact ⟨r', bind_eq_ok.mpr ⟨(r', x), h3, h2 ▸ rfl⟩⟩
    · rename_i hacc
      rw [if_neg hacc]
      obtain ⟨⟨r1, x⟩, h1, h2⟩ := bind_eq_ok.mp hv
      obtain ⟨r', h3⟩ := ht.sub k _ _ _ _ hl h1
      injection h2 with h2
      injection h2 with _ h2
      exact ⟨r', bind_eq_ok.mpr ⟨(r', x), h3, h2 ▸ rfl⟩⟩

theorem fine_choice {Ts : List Type} {vb vd : Variants Ts} (k : ChoiceKind) (h : FineVariants real vb vd) :
    Fine real (choiceP .ber k vb) (choiceP .der k vd) := by
  refine ⟨fun hr => ⟨fun hd i => ?_, fun hd i => ?_⟩,
    ⟨fun hd hd' i j hh hij => ?_, fun hd hd' i j hh hij => ?_⟩, fun t => h.tags k t,
    fun hd i r v hl hv => ?_⟩
  · have := fun k => (h.safe hr k hd i).1
    cases k
    · exact NoPanic.bind (noPanic_assertConstructed hd i) fun _ _ => this _
    · exact this _
    · exact this _
  · have := fun k => (h.safe hr k hd i).2
    cases k
    · exact NoPanic.bind (noPanic_assertConstructed hd i) fun _ _ => this _
    · exact this _
    · exact this _
  · have := fun k => (h.strong k hd hd' i j hh hij).1
    cases k
    · exact sim_bind (sim_assertConstructed hh) fun _ _ _ => this _
    · exact this _
    · exact this _
  · have := fun k => (h.strong k hd hd' i j hh hij).2
    cases k
    · exact sim_bind (sim_assertConstructed hh) fun _ _ _ => this _
    · exact this _
    · exact this _
  · cases k
    · obtain ⟨u, h1, h2⟩ := bind_eq_ok.mp hv
      obtain ⟨r', h3⟩ := h.sub _ _ _ _ _ hl h2
      exact ⟨r', bind_eq_ok.mpr ⟨u, h1, h3⟩⟩
    · exact h.sub _ _ _ _ _ hl hv
    · exact h.sub _ _ _ _ _ hl hv

theorem fine_enum (ds : List Nat) : Fine real (enumP enumeratedBer ds) (enumP enumeratedDer ds) := by
  have h : Fine real enumC.ber enumC.der := fine_universal .enumerated
  have hs : ∀ {p : Parser Nat}, p.Safe → (enumP p ds).Safe := by
    intro p hp hd i
    refine NoPanic.bind (safe_assertPrimitive hd i) fun _ _ => NoPanic.bind (hp hd i) fun x _ => ?_
    simp only
    split
    · exact noPanic_ok _
    · exact noPanic_nomErr _ _
  have hl : ∀ {p : Parser Nat}, p.Strong → (enumP p ds).Strong := by
    intro p hp hd hd' i j hh hij
    refine sim_bind (sim_assertPrimitive hh) fun _ _ _ => sim_bind (hp _ _ _ _ hh hij) fun a b hab => ?_
    simp only [hab.2]
    split
    · exact sim_ok ⟨hab.1, rfl⟩
    · exact sim_nomErr
  refine ⟨fun hr => ⟨hs (h.safe hr).1, hs (h.safe hr).2⟩, ⟨hl h.strong.1, hl h.strong.2⟩, fun _ => rfl, ?_⟩
  intro hd i r v hlen hv
  obtain ⟨u, h1, h2⟩ := bind_eq_ok.mp hv
  obtain ⟨⟨r1, n⟩, h3, h4⟩ := bind_eq_ok.mp h2
  obtain ⟨r', h5⟩ := h.sub _ _ _ _ hlen h3
  simp only at h4
  cases hf : ds.finIdxOf? n with
  | none => rw [hf] at h4; cases h4
  | some k =>
    rw [hf] at h4
    simp only [Except.ok.injEq, Prod.mk.injEq] at h4
    refine ⟨r', bind_eq_ok.mpr ⟨u, h1, bind_eq_ok.mpr ⟨(r', n), h5, ?_⟩⟩⟩
    simp only [hf, h4.2]

theorem alias_map (p : Parser α) : aliasP p = p.map Alias.mk := by
  unfold aliasP Parser.map
  congr 1
  funext h i
  cases p.content h i <;> rfl

theorem fine_alias {pb pd : Parser α} (h : Fine real pb pd) : Fine real (aliasP pb) (aliasP pd) := by
  rw [alias_map, alias_map]
  exact fine_map h _

/-! ### `Any`, EMBEDDED PDV, `Boolean` and `&[u8]` -/

theorem safe_slice : sliceBer.Safe := fun h i => by
  show NoPanic (sliceContent h i)
  unfold sliceContent
  split
  · exact noPanic_nomErr _ _
  · exact NoPanic.bind (noPanic_takeAll _) fun _ _ => noPanic_ok _

theorem safe_any : anyBer.Safe := fun h i => by
  show NoPanic (anyBer.content h i)
  unfold anyBer
  simp only
  cases h.length with
  | definite n => exact NoPanic.bind (noPanic_takeS _ _) fun _ _ => noPanic_ok _
  | indefinite => exact NoPanic.bind (noPanic_takeS _ _) fun _ _ => noPanic_ok _

theorem noPanic_context {p : Parser α} (hp : p.Safe) (tag : Nat) (i : Input) :
    NoPanic (contextBer tag p i) := safe_parseBer (safe_implicit hp) i

theorem noPanic_pair {β : Type} {p : Parser α} {q : Parser β} (hp : p.Safe) (hq : q.Safe) (i : Input) :
    NoPanic (pdvPair p q i) :=
  NoPanic.bind (noPanic_context hp _ _) fun _ _ => NoPanic.bind (noPanic_context hq _ _) fun _ _ => noPanic_ok _

theorem noPanic_mapE {β γ : Type} {x : Except PErr β} (f : β → γ) (h : NoPanic x) : NoPanic (x.map f) := by
  cases x with
  | ok x => exact noPanic_ok _
  | error e => exact ⟨fun h' => h.1 (by simpa [Except.map] using h'), fun h' => h.2 (by simpa [Except.map] using h')⟩

theorem safe_pdv : pdvP.Safe := fun h i => by
  show NoPanic (pdvContent h i)
  unfold pdvContent
  refine NoPanic.bind (noPanic_context safe_any _ _) fun x _ => NoPanic.bind ?_ fun y _ =>
    NoPanic.bind (noPanic_optionParse (m := .ber) (safe_implicit (safe_str _).1) _) fun _ _ =>
    NoPanic.bind (noPanic_context safe_slice _ _) fun _ _ => noPanic_ok _
  unfold pdvIdentification
  split
  · exact noPanic_mapE _ (noPanic_pair safe_oid safe_oid _)
  · exact noPanic_mapE _ (safe_oid _ _)
  · exact noPanic_mapE _ (safe_integer.1 _ _)
  · exact noPanic_mapE _ (noPanic_pair safe_integer.1 safe_oid _)
  · exact noPanic_mapE _ (safe_oid _ _)
  · exact noPanic_ok _
  · exact noPanic_nomErr _ _

theorem sameAny_parts {a b : Any} : SameAny a b ↔ anyParts a = anyParts b := by
  obtain ⟨⟨_, _, _, _, _, _⟩, _, _, _⟩ := a
  obtain ⟨⟨_, _, _, _, _, _⟩, _, _, _⟩ := b
  simp [SameAny, SameHdr, anyParts, and_assoc]

theorem strong_anyParts : (anyBer.map anyParts).Strong ∧ (anyDer.map anyParts).Strong := by
  have key : ∀ p : Parser Any, (∀ h h' i j, SameHdr h h' → i.data = j.data →
      Sim (fun a b => a.1.data = b.1.data ∧ SameAny a.2 b.2) (p.content h i) (p.content h' j)) →
      (p.map anyParts).Strong := by
    intro p hp h h' i j hh hd
    rintro ⟨r, v⟩ hv
    obtain ⟨a, h1, h2⟩ := map_content.mp hv
    obtain ⟨⟨r', a'⟩, h3, h4, h5⟩ := hp h h' i j hh hd _ h1
    exact ⟨(r', v), map_content.mpr ⟨a', h3, h2.trans (sameAny_parts.mp h5)⟩, h4, rfl⟩
  constructor
  · refine key _ fun h h' i j hh hd => ?_
    show Sim _ (anyBer.content h i) (anyBer.content h' j)
    unfold anyBer
    simp only [hh.2.2.2.1, Input.len, hd]
    cases h'.length with
    | definite n => exact sim_bind (R := SameDD) (sim_takeS hd _) fun a b hab => sim_ok ⟨hab.1, hh, hab.2⟩
    | indefinite => exact sim_bind (R := SameDD) (sim_takeS hd _) fun a b hab => sim_ok ⟨hab.1, hh, hab.2⟩
  · exact key _ fun h h' i j hh hd => sim_bind (sim_derContent hh hd) fun a b hab =>
      sim_ok ⟨hab.1, hh, hab.2⟩

theorem safe_anyDer : anyDer.Safe := fun h i =>
  NoPanic.bind (noPanic_derContent h i) fun _ _ => noPanic_ok _

theorem sim_contextAny {tag : Nat} {i j : Input} (hd : i.data = j.data) :
    Sim (fun a b => a.1.data = b.1.data ∧ SameAny a.2.inner b.2.inner) (contextBer tag anyBer i)
      (contextBer tag anyBer j) := by
  rintro ⟨r, ⟨a⟩⟩ h
  have key : ∀ (i r : Input) (v : AnyParts), (implicitP .contextSpecific tag (anyBer.map anyParts)).parseBer i
      = .ok (r, ⟨v⟩) ↔ ∃ a, contextBer tag anyBer i = .ok (r, ⟨a⟩) ∧ v = anyParts a := by
    intro i r v
    unfold contextBer
    rw [parseBer_ok]
    simp only [parseBer_ok]
    have hc : ∀ h x e, (implicitP .contextSpecific tag (anyBer.map anyParts)).content h x = .ok (e, ⟨v⟩) ↔
        ∃ a, (implicitP .contextSpecific tag anyBer).content h x = .ok (e, ⟨a⟩) ∧ v = anyParts a := by
      intro h x e
      unfold implicitP
      simp only
      split
      · simp [nomErr]
      · rw [bind_eq_ok]
        constructor
        · rintro ⟨⟨e', w⟩, h1, h2⟩
          obtain ⟨a, h3, h4⟩ := map_content.mp h1
          injection h2 with h2
          injection h2 with h2 h5
          injection h5 with h5
          subst h2 h5
          exact ⟨a, bind_eq_ok.mpr ⟨_, h3, rfl⟩, h4⟩
        · rintro ⟨a, h1, h2⟩
          obtain ⟨⟨e', w⟩, h3, h4⟩ := bind_eq_ok.mp h1
          injection h4 with h4
          injection h4 with h4 h5
          injection h5 with h5
          subst h4 h5
          exact ⟨(e', v), map_content.mpr ⟨_, h3, h2⟩, rfl⟩
    constructor
    · rintro ⟨a, e, h1, h2, h3⟩
      obtain ⟨b, h4, h5⟩ := (hc _ _ _).mp h3
      exact ⟨b, ⟨a, e, h1, h2, h4⟩, h5⟩
    · rintro ⟨b, ⟨a, e, h1, h2, h4⟩, h5⟩
      exact ⟨a, e, h1, h2, (hc _ _ _).mpr ⟨b, h4, h5⟩⟩
  obtain ⟨⟨r', ⟨v⟩⟩, h1, h2, h3⟩ := free_ber (strong_implicit strong_anyParts.1) i j hd _
    ((key i r _).mpr ⟨a, h, rfl⟩)
  obtain ⟨b, h4, h5⟩ := (key j r' v).mp h1
  refine ⟨_, h4, h2, sameAny_parts.mpr ?_⟩
  injection h3 with h3
  rw [← h5, h3]

theorem sim_context {p : Parser α} (hp : p.Strong) (tag : Nat) {i j : Input} (hd : i.data = j.data) :
    Sim SameR (contextBer tag p i) (contextBer tag p j) := free_ber (strong_implicit hp) i j hd

theorem sim_mapE {γ δ : Type} {R : β → γ → Prop} {x : Except PErr β} {y : Except PErr γ} {f : β → δ} {g : γ → δ}
    (h : Sim R x y) (hf : ∀ a b, R a b → f a = g b) : Sim Eq (x.map f) (y.map g) := by
  intro a ha
  cases x with
  | error e => cases ha
  | ok x =>
    obtain ⟨b, h1, h2⟩ := h x rfl
    rw [h1]
    injection ha with ha
    exact ⟨_, rfl, by rw [← ha, hf _ _ h2]⟩

theorem sim_pair {p : Parser α} {q : Parser β} (hp : p.Strong) (hq : q.Strong) {i j : Input}
    (hd : i.data = j.data) : Sim Eq (pdvPair p q i) (pdvPair p q j) :=
  sim_bind (sim_context hp 0 hd) fun a b hab => sim_bind (sim_context hq 1 hab.1) fun c d hcd =>
    sim_ok (by rw [hab.2, hcd.2])

theorem strong_pdv : pdvP.Strong := by
  intro h h' i j hh hd
  show Sim SameR (pdvContent h i) (pdvContent h' j)
  unfold pdvContent
  refine sim_bind (sim_contextAny hd) fun a b hab => ?_
  refine sim_bind (R := Eq) ?_ fun x y hxy => ?_
  · unfold pdvIdentification
    have ht := hab.2.1.2.2.1
    have hdd := hab.2.2
    rw [ht]
    split
    · exact sim_mapE (sim_pair strong_oid strong_oid hdd) fun _ _ h => by rw [h]
    · exact sim_mapE (strong_oid _ _ _ _ hab.2.1 hdd) fun _ _ h => by rw [h.2]
    · exact sim_mapE (strong_integer.1 _ _ _ _ hab.2.1 hdd) fun _ _ h => by rw [h.2]
    · exact sim_mapE (sim_pair strong_integer.1 strong_oid hdd) fun _ _ h => by rw [h]
    · exact sim_mapE (strong_oid _ _ _ _ hab.2.1 hdd) fun _ _ h => by rw [h.2]
    · exact sim_ok rfl
    · exact sim_nomErr
  · refine sim_bind (free_optionParse (m := .ber) (strong_implicit (strong_str _).1) _ _ hab.1) fun c d hcd => ?_
    refine sim_bind (sim_context strong_slice.1 2 hcd.1) fun e f hef => ?_
    exact sim_ok ⟨hef.1, by rw [hxy, hcd.2, hef.2]⟩

theorem strong_boolean : booleanBer.Strong ∧ booleanDer.Strong := by
  refine ⟨fun _ _ _ _ hh hd => sim_booleanContent hh hd, ?_⟩
  intro h h' i j hh hd
  refine sim_bind (sim_booleanContent hh hd) fun a b hab => ?_
  obtain ⟨a1, a2⟩ := a
  obtain ⟨b1, b2⟩ := b
  obtain ⟨h1, h2⟩ := hab
  simp only at h1 h2
  subst h2
  simp only
  refine sim_ite ?_ ?_
  · exact sim_nomErr
  · exact sim_ok ⟨h1, rfl⟩

theorem safe_sliceDer : sliceDer.Safe := fun h i =>
  NoPanic.bind (safe_assertPrimitive h i) fun _ _ => safe_slice h i

theorem fine_any : Fine real (anyBer.map anyParts) (anyDer.map anyParts) := by
  refine ⟨fun _ => ⟨safe_map safe_any, safe_map safe_anyDer⟩, strong_anyParts, fun _ => rfl,
    sub_map (sub_of_eq fun h i r v hv => ?_) _⟩
  obtain ⟨⟨r', d⟩, h1, h2⟩ := bind_eq_ok.mp hv
  unfold derContent at h1
  show anyBer.content h i = _
  unfold anyBer
  simp only
  cases hl : h.length with
  | definite n =>
    rw [hl] at h1
    exact bind_eq_ok.mpr ⟨_, h1, h2⟩
  | indefinite =>
    rw [hl] at h1
    cases h1

/-! ### Every built type -/

theorem fineFns_field {T : Type} {Ts : List Type} {f g : Field T} {fb fd : Fields Ts}
    (h1 : real = false → ∀ i, NoPanic (f.parse .ber i) ∧ NoPanic (g.parse .der i))
    (h2 : Free (f.parse .ber) ∧ Free (g.parse .der)) (h3 : Accepts (g.parse .der) (f.parse .ber))
    (h : FineFns real (fb.fns .ber) (fd.fns .der)) :
    FineFns real ((Fields.cons f fb).fns .ber) ((Fields.cons g fd).fns .der) :=
  fineFns_cons h1 h2 h3 h

theorem fine_built {pb pd : Parser α} (h : Built real pb pd) : Fine real pb pd := by
  refine Built.rec (real := real) (motive_1 := fun {_} pb pd _ => Fine real pb pd)
    (motive_2 := fun {_} fb fd _ => FineFns real fb fd)
    (motive_3 := fun {_} fb fd _ => FineFns real (fb.fns .ber) (fd.fns .der))
    (motive_4 := fun {_} vb vd _ => FineVariants real vb vd)
    ?_ ?_ ?_ ?_ ?_ ?_ ?_ ?_ ?_ ?_ ?_ ?_ ?_ ?_ ?_ ?_ ?_ ?_ ?_ ?_ ?_ ?_ ?_ ?_ ?_ ?_ ?_ ?_ ?_ h
  · exact fun h => fine_universal h
  · rintro lib rfl; exact fine_same (strong_real lib)
  · rintro lib rfl; exact fine_same (strong_map (strong_real lib) _)
  · rintro lib rfl; exact fine_same (strong_map (strong_real lib) _)
  · exact ⟨fun _ => safe_boolean, strong_boolean, fun _ => rfl,
      sub_of_eq fun hd i r v hv => (booleanDerContent_ok.mp hv).1⟩
  · exact ⟨fun _ => ⟨safe_slice, safe_sliceDer⟩, strong_slice, fun _ => rfl, sub_guard fun _ _ => rfl⟩
  · exact fine_any
  · exact ⟨fun _ => ⟨safe_pdv, safe_pdv⟩, ⟨strong_pdv, strong_pdv⟩, fun _ => rfl,
      sub_of_eq fun _ _ _ _ h => h⟩
  · exact fun _ ih => fine_vec ih
  · exact fun _ ih => fine_sequenceOf ih
  · exact fun _ ih => fine_map (fine_setItems ih) _
  · exact fun S _ ih => fine_map (fine_setItems ih) _
  · exact fun N _ ih => fine_array N ih
  · exact fun _ ih => fine_tuple ih
  · exact fun tag => fine_raw tag
  · exact fun cls tag _ ih => fine_explicit cls tag ih
  · exact fun cls tag _ ih => fine_implicit cls tag ih
  · exact fun tag _ ih => fine_struct tag ih
  · exact fun k _ ih => fine_choice k ih
  · exact fun ds => fine_enum ds
  · exact fun _ ih => fine_alias ih
  · exact fineFns_nil
  · exact fun _ _ ih iht => fineFns_cons (fun hr i => ih.noPanic hr i) ih.free ih.accepts iht
  · exact fineFns_nil
  · exact fun tag _ _ ih iht => fineFns_field
      (fun hr i => ⟨noPanic_required (ih.safe hr).1 tag i, noPanic_required (ih.safe hr).2 tag i⟩)
      ⟨free_required ih.strong.1 tag, free_required ih.strong.2 tag⟩ (accepts_required ih tag) iht
  · exact fun tag _ _ ih iht => fineFns_field
      (fun hr i => ⟨noPanic_optional (ih.safe hr).1 tag i, noPanic_optional (ih.safe hr).2 tag i⟩)
      ⟨free_optional ih.strong.1 tag, free_optional ih.strong.2 tag⟩ (accepts_optional ih tag) iht
  · refine fun tag x _ _ ih iht => fineFns_field (fun hr i => ⟨?_, ?_⟩) ⟨?_, ?_⟩ ?_ iht
    · exact NoPanic.bind (noPanic_optional (ih.safe hr).1 tag i) fun _ _ => noPanic_ok _
    · exact NoPanic.bind (noPanic_optional (ih.safe hr).2 tag i) fun _ _ => noPanic_ok _
    · exact fun i j hd => sim_bind (free_optional ih.strong.1 tag i j hd) fun a b hab =>
        sim_ok ⟨hab.1, by rw [hab.2]⟩
    · exact fun i j hd => sim_bind (free_optional ih.strong.2 tag i j hd) fun a b hab =>
        sim_ok ⟨hab.1, by rw [hab.2]⟩
    · intro i r v hv
      obtain ⟨y, h1, h2⟩ := bind_eq_ok.mp hv
      exact bind_eq_ok.mpr ⟨y, accepts_optional ih tag _ _ _ h1, h2⟩
  · exact fineVariants_nil
  · exact fun tag _ _ ih iht => fineVariants_cons tag ih iht

end Asn1

import Verif.Model.DynTagged
import Verif.Spec.DynTagged
import Verif.Proofs.Minimal
import Verif.Props.Tagged
import Verif.Props.TaggedMore
import Verif.Props.Containers
import Verif.Props.Sets
import Verif.Props.AnySet
import Verif.Props.DeriveChoice
/-!
# C105: what a type says about its header is what its encoder writes
-/
namespace Asn1
open Spec Wr

variable {α : Type}

theorem writes_three {x y z : Wr Nat} {ids ls cs : Bytes} {n1 n2 n3 : Nat} (h1 : Writes x ids n1)
    (h2 : Writes y ls n2) (h3 : Writes z cs n3) :
    Writes ((x >>= fun a => y >>= fun b => pure (a + b)) >>= fun m => z >>= fun k => pure (m + k))
      (ids ++ (ls ++ cs)) (n1 + n2 + n3) := by
  have h4 := h1.bind (f := fun a => y >>= fun b => pure (a + b)) (h2.bind (f := fun b => pure (n1 + b))
    (writes_pure (n1 + n2)))
  have h5 := h4.bind (f := fun m => z >>= fun k => pure (m + k)) (h3.bind (f := fun k => pure (n1 + n2 + k))
    (writes_pure (n1 + n2 + n3)))
  exact h5.congr (by simp) rfl

/-- The three parts of a successful encoding. -/
theorem toVec_parts {t : ToBer α} {v : α} {bs : Bytes} :
    t.toVec v = .ok bs ↔ ∃ ids ls cs n1 n2 n3,
      Writes (t.encoder.writeTagInfo (t.tagInfo v).1 (t.tagInfo v).2.1 (t.tagInfo v).2.2) ids n1 ∧
      Writes (writeLength (t.contentLen v)) ls n2 ∧ Writes (t.writeContent v) cs n3 ∧ bs = ids ++ (ls ++ cs) := by
  constructor
  · intro h
    have hw : ∃ n, Writes (t.encode v) bs n := by
      unfold ToBer.toVec at h
      split at h
      · rename_i bs' n he
        cases h
        exact ⟨n, he⟩
      · cases h
    obtain ⟨n, hw⟩ := hw
    unfold ToBer.encode at hw
    obtain ⟨hs, x, n1, h1, h2, rfl⟩ := hw.bind_inv
    obtain ⟨cs, y, n3, h3, h4, rfl⟩ := h2.bind_inv
    obtain ⟨rfl, _⟩ := h4.unique (writes_pure _)
    unfold ToBer.writeHeader at h1
    obtain ⟨ids, z, m1, h5, h6, rfl⟩ := h1.bind_inv
    obtain ⟨ls, w, m2, h7, h8, rfl⟩ := h6.bind_inv
    obtain ⟨rfl, _⟩ := h8.unique (writes_pure _)
    exact ⟨ids, ls, cs, m1, m2, n3, h5, h7, h3, by simp⟩
  · rintro ⟨ids, ls, cs, n1, n2, n3, h1, h2, h3, rfl⟩
    have hw : Writes (t.encode v) (ids ++ (ls ++ cs)) (n1 + n2 + n3) := by
      exact writes_three h1 h2 h3
    unfold ToBer.toVec
    unfold Writes at hw
    rw [hw]

/-- The encoder announces what `DynTagged` says, and its header writer uses it. -/
theorem info_dyn {t : ToBer α} {dyn : Dyn α} (h : DynTagged t dyn) (v : α) :
    t.tagInfo v = dyn v ∧ t.encoder.info (dyn v) = dyn v := by
  induction h with
  | ref _ ih => exact ih v
  | alias h ih => exact ⟨(ih v.inner).1, rfl⟩
  | _ => exact ⟨rfl, rfl⟩

/-- The same for the types that leave `constructed` at its default, but for the form. -/
theorem info_default {t : ToBer α} {dyn : Dyn α} (h : DynTaggedDefault t dyn) (v : α) :
    t.tagInfo v = ((dyn v).1, true, (dyn v).2.2) ∧ t.encoder.info (t.tagInfo v) = t.tagInfo v ∧ (dyn v).2.1 = false := by
  induction h with
  | ref _ ih => exact ih v
  | alias h ih => exact ⟨(ih v.inner).1, rfl, (ih v.inner).2.2⟩
  | _ => exact ⟨rfl, rfl, rfl⟩

/-- The encoder `t'` writes the header `id'` and then what `t` writes after its header. -/
theorem retag_toVec {β : Type} {t : ToBer α} {t' : ToBer β} {v : α} {v' : β} {bs : Bytes}
    (he : t.encoder.info (t.tagInfo v) = t.tagInfo v) (hn : (t.tagInfo v).2.2 < 2 ^ 32)
    (he' : t'.encoder.info (t'.tagInfo v') = t'.tagInfo v') (hn' : (t'.tagInfo v').2.2 < 2 ^ 32)
    (hl : t'.contentLen v' = t.contentLen v) (hc : t'.writeContent v' = t.writeContent v)
    (hv : t.toVec v = .ok bs) :
    ∃ rest out, StartsWith (t.tagInfo v) bs rest ∧ t'.toVec v' = .ok out ∧ StartsWith (t'.tagInfo v') out rest := by
  obtain ⟨ids, ls, cs, n1, n2, n3, h1, h2, h3, rfl⟩ := toVec_parts.mp hv
  rw [writeTagInfo_eq, he] at h1
  obtain ⟨rfl, _⟩ := h1.unique (writeTag_spec _ _ _ hn).1
  refine ⟨ls ++ cs, identOctets (t'.tagInfo v').1 (t'.tagInfo v').2.1 (t'.tagInfo v').2.2 ++ (ls ++ cs),
    ⟨_, identOctets_x690 _ _ hn, rfl⟩, ?_, ⟨_, identOctets_x690 _ _ hn', rfl⟩⟩
  refine toVec_parts.mpr ⟨_, ls, cs,
    (identOctets (t'.tagInfo v').1 (t'.tagInfo v').2.1 (t'.tagInfo v').2.2).length, n2, n3, ?_, by rw [hl]; exact h2,
    by rw [hc]; exact h3, rfl⟩
  rw [writeTagInfo_eq, he']
  exact (writeTag_spec _ _ _ hn').1

/-- **C105** `class`, `constructed` and `tag` of `DynTagged` are those of the identifier octets that the encoder
of the type writes, for every type of the table `DynTagged`. -/
theorem C105_reported {t : ToBer α} {dyn : Dyn α} (h : DynTagged t dyn) {v : α} {bs : Bytes}
    (hn : (dyn v).2.2 < 2 ^ 32) (hv : t.toVec v = .ok bs) : ∃ rest, StartsWith (dyn v) bs rest := by
  obtain ⟨e1, e2⟩ := info_dyn h v
  rw [← e1] at hn e2 ⊢
  obtain ⟨rest, _, h1, _⟩ := retag_toVec e2 hn e2 hn rfl rfl hv
  exact ⟨rest, h1⟩

/-- A case: a list of `u16`. -/
example : ∃ rest, StartsWith (.universal, true, 16) [0x30, 3, 2, 1, 5] rest :=
  C105_reported (DynTagged.vec (uintToBer 2)) (v := [5]) (by decide) (by decide +kernel)

/-- **C105** An IMPLICIT tag replaces the class and the tag number of the encoding, and nothing else: the form and
the octets that follow are those of the type itself.
Missing: the types that do not declare that they are constructed (`C105_default_deviation`). -/
theorem C105_implicit_partial {t : ToBer α} {dyn : Dyn α} (h : DynTagged t dyn) (cls : Class) {tag : Nat}
    (htag : tag < 2 ^ 32) {v : α} {bs : Bytes} (hn : (dyn v).2.2 < 2 ^ 32) (hv : t.toVec v = .ok bs) :
    ∃ rest out, StartsWith (dyn v) bs rest ∧
      (implicitToBer cls tag (fun v => (dyn v).2.1) t).toVec ⟨v⟩ = .ok out ∧
      StartsWith (cls, (dyn v).2.1, tag) out rest := by
  obtain ⟨e1, e2⟩ := info_dyn h v
  rw [← e1] at e2 hn
  have := retag_toVec (t' := implicitToBer cls tag (fun v => (dyn v).2.1) t) (v' := ⟨v⟩) e2 hn rfl htag rfl rfl hv
  rw [e1] at this
  exact this

/-- A case: the same list under `[3] IMPLICIT`. -/
example : (listToBer 16 (uintToBer 2)).toVec [5] = .ok [0x30, 3, 2, 1, 5] ∧
    (implicitToBer .contextSpecific 3 (fun v => (universalDyn (List Nat) true 16 v).2.1) (listToBer 16 (uintToBer 2))).toVec
      ⟨[5]⟩ = .ok [0xa3, 3, 2, 1, 5] := by decide +kernel

/-- **C105** A variant of a derived CHOICE: without tagging it is written as its payload alone; with IMPLICIT
tagging, as its payload with another class and tag number.
Missing: the types that do not declare that they are constructed (`C105_choice_lost`). -/
theorem C105_choice_partial {T : Type} {Ts : List Type} {t : ToBer T} {dyn : Dyn T} (h : DynTagged t dyn) {n : Nat}
    (hnn : n < 2 ^ 32) (es : EncVariants Ts) {v : T} (hn : (dyn v).2.2 < 2 ^ 32) :
    (∀ bs, t.toVec v = .ok bs →
      (choiceToBer .untagged (.cons n dyn t es)).toVec (.inl v : T ⊕ HSum Ts) = .ok bs ∧
      ∃ rest out, StartsWith (dyn v) bs rest ∧
        (choiceToBer .implicit (.cons n dyn t es)).toVec (.inl v : T ⊕ HSum Ts) = .ok out ∧
        StartsWith (.contextSpecific, (dyn v).2.1, n) out rest) ∧
    (∀ k x, (choiceToBer k (.cons n dyn t es)).toVec (.inr x : T ⊕ HSum Ts) = (choiceToBer k es).toVec x) := by
  obtain ⟨e1, e2⟩ := info_dyn h v
  rw [← e1] at e2 hn
  refine ⟨fun bs hv => ⟨?_, ?_⟩, fun k x => rfl⟩
  · obtain ⟨ids, ls, cs, n1, n2, n3, h1, h2, h3, rfl⟩ := toVec_parts.mp hv
    refine toVec_parts.mpr ⟨ids, ls, cs, n1, n2, n3, ?_, h2, h3, rfl⟩
    show Writes (writeTagGeneric (dyn v).1 (dyn v).2.1 (dyn v).2.2) ids n1
    rw [writeTagInfo_eq, e2, e1] at h1
    exact h1
  · have := retag_toVec (t' := choiceToBer .implicit (.cons n dyn t es)) (v' := (.inl v : T ⊕ HSum Ts)) e2 hn rfl hnn
      rfl rfl hv
    rw [e1] at this
    exact this

/-- A case: a list in a CHOICE. -/
example : (choiceToBer .implicit (.cons 3 (universalDyn (List Nat) true 16) (listToBer 16 (uintToBer 2)) .nil)).toVec
    (.inl [5] : List Nat ⊕ HSum []) = .ok [0xa3, 3, 2, 1, 5] := by decide +kernel

/-- **C105** A field of a derived struct with the attribute `tag_implicit` (and `encode_tagged_implicit`) keeps the
form that the encoder of the type writes, also for the types of the table `DynTaggedDefault`. -/
theorem C105_field {t : ToBer α} {dyn : Dyn α} (h : DynTagged t dyn ∨ DynTaggedDefault t dyn) (cls : Class)
    {tag : Nat} (htag : tag < 2 ^ 32) {v : α} {bs : Bytes} (hn : (dyn v).2.2 < 2 ^ 32) (hv : t.toVec v = .ok bs) :
    ∃ form rest out n, StartsWith ((dyn v).1, form, (dyn v).2.2) bs rest ∧
      Writes ((FieldTag.implicit cls tag).write t v) out n ∧ StartsWith (cls, form, tag) out rest := by
  have hi : t.encoder.info (t.tagInfo v) = t.tagInfo v ∧ (t.tagInfo v).2.2 < 2 ^ 32 ∧
      ((dyn v).1, (t.tagInfo v).2.1, (dyn v).2.2) = t.tagInfo v := by
    rcases h with h | h
    · obtain ⟨e1, e2⟩ := info_dyn h v
      rw [e1]
      exact ⟨e2, hn, rfl⟩
    · obtain ⟨e1, e2, e3⟩ := info_default h v
      refine ⟨e2, ?_, ?_⟩
      · rw [e1]; exact hn
      · rw [e1]
  obtain ⟨he, hn', hd⟩ := hi
  obtain ⟨ids, ls, cs, n1, n2, n3, h1, h2, h3, rfl⟩ := toVec_parts.mp hv
  rw [writeTagInfo_eq, he] at h1
  obtain ⟨rfl, _⟩ := h1.unique (writeTag_spec _ _ _ hn').1
  refine ⟨(t.tagInfo v).2.1, ls ++ cs, identOctets cls (t.tagInfo v).2.1 tag ++ (ls ++ cs),
    (identOctets cls (t.tagInfo v).2.1 tag).length + n2 + n3, ?_, ?_, ⟨_, identOctets_x690 _ _ htag, rfl⟩⟩
  · rw [hd]
    exact ⟨_, identOctets_x690 _ _ hn', rfl⟩
  · show Writes (t.encodeTaggedImplicit cls tag v) _ _
    exact writes_three (writeTag_spec cls (t.tagInfo v).2.1 tag htag).1 h2 h3

/-- A case: a list in a field `[3] IMPLICIT`. -/
example : ((FieldTag.implicit .contextSpecific 3).write (listToBer 16 (uintToBer 2)) [5]).exec =
    ([0xa3, 3, 2, 1, 5], .ok 5) := by decide +kernel

/-! ### The types that say they are primitive -/

/-- **C105** Deviation. `SetOf`, `AnySequence`, `AnySet` and an explicit `TaggedParser` (and references to them and
aliases of them) say that they are primitive, while they are written as constructed objects. An IMPLICIT tag and
an untagged CHOICE use the former: the content octets of a constructed object follow the header of a primitive
one. -/
theorem C105_default_deviation {t : ToBer α} {dyn : Dyn α} (h : DynTaggedDefault t dyn) (cls : Class) {tag : Nat}
    (htag : tag < 2 ^ 32) {Ts : List Type} (es : EncVariants Ts) {v : α} {bs : Bytes} (hn : (dyn v).2.2 < 2 ^ 32)
    (hv : t.toVec v = .ok bs) :
    ∃ rest out out' out'', StartsWith ((dyn v).1, true, (dyn v).2.2) bs rest ∧
      (implicitToBer cls tag (fun v => (dyn v).2.1) t).toVec ⟨v⟩ = .ok out ∧ StartsWith (cls, false, tag) out rest ∧
      (choiceToBer .implicit (.cons tag dyn t es)).toVec (.inl v : α ⊕ HSum Ts) = .ok out' ∧
      StartsWith (.contextSpecific, false, tag) out' rest ∧
      (choiceToBer .untagged (.cons tag dyn t es)).toVec (.inl v : α ⊕ HSum Ts) = .ok out'' ∧
      StartsWith ((dyn v).1, false, (dyn v).2.2) out'' rest := by
  obtain ⟨e1, e2, e3⟩ := info_default h v
  have hn' : (t.tagInfo v).2.2 < 2 ^ 32 := by rw [e1]; exact hn
  obtain ⟨r1, o1, h1, h2, h3⟩ :=
    retag_toVec (t' := implicitToBer cls tag (fun v => (dyn v).2.1) t) (v' := ⟨v⟩) e2 hn' rfl htag rfl rfl hv
  obtain ⟨r2, o2, h4, h5, h6⟩ :=
    retag_toVec (t' := choiceToBer .implicit (.cons tag dyn t es)) (v' := (.inl v : α ⊕ HSum Ts)) e2 hn' rfl htag
      rfl rfl hv
  obtain ⟨r3, o3, h7, h8, h9⟩ :=
    retag_toVec (t' := choiceToBer .untagged (.cons tag dyn t es)) (v' := (.inl v : α ⊕ HSum Ts)) e2 hn' rfl hn
      rfl rfl hv
  have same : ∀ {r r' : Bytes}, StartsWith (t.tagInfo v) bs r → StartsWith (t.tagInfo v) bs r' → r' = r := by
    rintro r r' ⟨i1, g1, q1⟩ ⟨i2, g2, q2⟩
    rw [x690_unique g1 g2] at q1
    exact (List.append_cancel_left (q2.symm.trans q1))
  obtain rfl := same h1 h4
  obtain rfl := same h1 h7
  have f1 : (implicitToBer cls tag (fun v => (dyn v).2.1) t).tagInfo ⟨v⟩ = (cls, false, tag) := by
    show (cls, (dyn v).2.1, tag) = _
    rw [e3]
  have f2 : (choiceToBer .implicit (.cons tag dyn t es)).tagInfo (.inl v : α ⊕ HSum Ts) =
      (.contextSpecific, false, tag) := by
    show (Class.contextSpecific, (dyn v).2.1, tag) = _
    rw [e3]
  have f3 : (choiceToBer .untagged (.cons tag dyn t es)).tagInfo (.inl v : α ⊕ HSum Ts) =
      ((dyn v).1, false, (dyn v).2.2) := by
    show dyn v = _
    rw [← e3]
  rw [e1] at h1
  rw [f1] at h3
  rw [f2] at h6
  rw [f3] at h9
  exact ⟨_, o1, o2, o3, h1, h2, h3, h5, h6, h8, h9⟩

/-- A case: a `SetOf` of two numbers. -/
example : DynTaggedDefault (listToBer 17 (uintToBer 2)) (universalDyn (List Nat) false 17) ∧
    (listToBer 17 (uintToBer 2)).toVec [1, 2] = .ok [0x31, 0x06, 0x02, 0x01, 0x01, 0x02, 0x01, 0x02] :=
  ⟨.setOf _, by decide +kernel⟩

/-- An object whose header says that it is primitive is not read as a constructed one. -/
theorem starts_primitive {c : Class} {n : Nat} {out rest more : Bytes} (h : StartsWith (c, false, n) out rest)
    {i r : Input} {hd : Header} (hi : i.data = out ++ more) (hp : parseHeader i = .ok (r, hd)) :
    hd.constructed = false := by
  obtain ⟨id, h1, h2⟩ := h
  obtain ⟨ident, len, h3, _, h4, _⟩ := parseHeader_ok.mp hp
  have a1 : ∃ b bs low, id = b :: bs ∧ b.toNat = identByte c false low ∧ low < 32 := by
    cases h1 with
    | low b h hb => exact ⟨b, [], n, rfl, hb, Nat.lt_succ_of_lt h⟩
    | high b bs hb => exact ⟨b, bs, 31, rfl, hb, by omega⟩
  have a2 : ∃ b bs low, ident = b :: bs ∧ b.toNat = identByte hd.cls hd.constructed low ∧ low < 32 := by
    cases h3 with
    | low b h hb => exact ⟨b, [], _, rfl, hb, by omega⟩
    | high b bs hb => exact ⟨b, bs, 31, rfl, hb, by omega⟩
  obtain ⟨b, bs, low, rfl, hb, hlow⟩ := a1
  obtain ⟨b', bs', low', rfl, hb', hlow'⟩ := a2
  rw [hi, h2] at h4
  have : b = b' := by
    simp at h4
    exact h4.1
  subst this
  rw [hb] at hb'
  cases hc : hd.constructed with
  | false => rfl
  | true =>
    rw [hc] at hb'
    unfold identByte at hb'
    simp at hb'
    omega

/-- What a parser that insists on constructed objects makes of it. -/
theorem lost {c : Class} {n : Nat} {out rest more : Bytes} (h : StartsWith (c, false, n) out rest) {β : Type}
    {p : Parser β} (hp : ∀ hd i r v, p.content hd i = .ok (r, v) → hd.constructed = true) :
    (p.parseBer (Input.fromSlice (out ++ more))).isOk = false ∧
    (p.parseDer (Input.fromSlice (out ++ more))).isOk = false := by
  refine ⟨notOk fun y hy => ?_, notOk fun y hy => ?_⟩
  · obtain ⟨a, e, h1, _, h3⟩ := parseBer_ok.mp hy
    obtain ⟨r1, h4, _⟩ := parseBerAny_ok.mp h1
    have := starts_primitive h (more := more) rfl h4
    rw [hp _ _ _ _ h3] at this
    cases this
  · obtain ⟨a, e, h1, _, h3⟩ := parseDer_ok.mp hy
    obtain ⟨r1, _, h4, _⟩ := parseDerAny_ok.mp h1
    have := starts_primitive h (more := more) rfl h4
    rw [hp _ _ _ _ h3] at this
    cases this

theorem setOf_constructed {β : Type} {parse : Input → PRes Any} {p : Parser β} {hd : Header} {i r : Input}
    {v : SetOf β} (h : (setOfP parse p).content hd i = .ok (r, v)) : hd.constructed = true := by
  obtain ⟨l, h6, rfl⟩ := map_content.mp h
  obtain ⟨_, h7, _⟩ := bind_eq_ok.mp h6
  exact assertConstructed_ok.mp h7

theorem anySeq_constructed {tag : Nat} {parse : Input → PRes Any} {hd : Header} {i r : Input} {v : List Any}
    (h : (anySeqP tag parse).content hd i = .ok (r, v)) : hd.constructed = true := by
  obtain ⟨_, h7, _⟩ := bind_eq_ok.mp h
  exact assertConstructed_ok.mp h7

theorem anySet_constructed {H : HashImpl} {parse : Input → PRes Any} {hd : Header} {i r : Input} {v : AnySet}
    (h : (anySetP H parse).content hd i = .ok (r, v)) : hd.constructed = true := by
  obtain ⟨l, h6, rfl⟩ := map_content.mp h
  exact anySeq_constructed h6

theorem implicit_constructed {β : Type} {cls : Class} {tag : Nat} {p : Parser β}
    (hp : ∀ hd i r v, p.content hd i = .ok (r, v) → hd.constructed = true) (hd : Header) (i r : Input)
    (v : TaggedValue β) (h : (implicitP cls tag p).content hd i = .ok (r, v)) : hd.constructed = true := by
  obtain ⟨_, h2⟩ := implicitP_content.mp h
  exact hp _ _ _ _ h2

/-- **C105** Deviation: such an encoding cannot be read back. `[tag] IMPLICIT SetOf<T>`, `[tag] IMPLICIT
AnySequence` and `[tag] IMPLICIT AnySet` encode any value that can be encoded without the tag, and no decoder of
the same type accepts the result, whatever follows. -/
theorem C105_lost (cls : Class) {tag : Nat} (htag : tag < 2 ^ 32) :
    (∀ (t : ToBer α) (vs : List α) (bs : Bytes), (listToBer 17 t).toVec vs = .ok bs →
      ∃ out, (implicitToBer cls tag (fun v => (universalDyn (List α) false 17 v).2.1) (listToBer 17 t)).toVec ⟨vs⟩ =
          .ok out ∧
        ∀ (more : Bytes) (β : Type) (p : Parser β) (g : Bytes → Except SErr (Bytes × β)),
          ((implicitP cls tag (setOfP anyBer.parseBer p)).parseBer (Input.fromSlice (out ++ more))).isOk = false ∧
          ((implicitP cls tag (setOfP anyDer.parseDer p)).parseDer (Input.fromSlice (out ++ more))).isOk = false ∧
          (fromBerWith (implicitTryFrom cls tag 17 (seqTryFrom 17 g)) (out ++ more)).isOk = false ∧
          (implicitFromDer cls tag 17 (seqTryFrom 17 g) (out ++ more)).isOk = false) ∧
    (∀ (vs : List Any) (bs : Bytes), (listToBer 16 anyToBer).toVec vs = .ok bs →
      ∃ out, (implicitToBer cls tag (fun v => (universalDyn (List Any) false 16 v).2.1)
          (listToBer 16 anyToBer)).toVec ⟨vs⟩ = .ok out ∧
        ∀ more : Bytes,
          ((implicitP cls tag (anySeqP 16 anyBer.parseBer)).parseBer (Input.fromSlice (out ++ more))).isOk = false ∧
          ((implicitP cls tag (anySeqP 16 anyDer.parseDer)).parseDer (Input.fromSlice (out ++ more))).isOk = false) ∧
    (∀ (H : HashImpl) (s : AnySet) (bs : Bytes), (anySetToBer H).toVec s = .ok bs →
      ∃ out, (implicitToBer cls tag (fun v => (universalDyn AnySet false 17 v).2.1) (anySetToBer H)).toVec ⟨s⟩ =
          .ok out ∧
        ∀ more : Bytes,
          ((implicitP cls tag (anySetP H anyBer.parseBer)).parseBer (Input.fromSlice (out ++ more))).isOk = false ∧
          ((implicitP cls tag (anySetP H anyDer.parseDer)).parseDer (Input.fromSlice (out ++ more))).isOk = false) := by
  refine ⟨fun t vs bs hv => ?_, fun vs bs hv => ?_, fun H s bs hv => ?_⟩
  · obtain ⟨rest, out, _, _, _, h1, h2, _⟩ :=
      C105_default_deviation (.setOf t) cls htag (Ts := []) .nil (by decide : (17 : Nat) < 2 ^ 32) hv
    refine ⟨out, h1, fun more β p g => ⟨(lost h2 (implicit_constructed fun _ _ _ _ => setOf_constructed)).1,
      (lost h2 (implicit_constructed fun _ _ _ _ => setOf_constructed)).2, notOk fun y hy => ?_,
      notOk fun y hy => ?_⟩⟩
    · obtain ⟨r, a, h3, _, h4⟩ := fromBerWith_ok.mp hy
      obtain ⟨_, h5, _⟩ := parseBerAny_ok.mp h3
      obtain ⟨_, _, h6⟩ := implicitTryFrom_ok.mp h4
      have h7 := (seqTryFrom_ok.mp h6).2.1
      have := starts_primitive h2 (more := more) rfl h5
      rw [show a.header.constructed = true from h7] at this
      cases this
    · obtain ⟨r, a, h3, _, _, _, h6⟩ := implicitFromDer_ok.mp hy
      obtain ⟨_, _, h5, _⟩ := parseDerAny_ok.mp h3
      have h7 := (seqTryFrom_ok.mp h6).2.1
      have := starts_primitive h2 (more := more) rfl h5
      rw [show a.header.constructed = true from h7] at this
      cases this
  · obtain ⟨rest, out, _, _, _, h1, h2, _⟩ :=
      C105_default_deviation .anySequence cls htag (Ts := []) .nil (by decide : (16 : Nat) < 2 ^ 32) hv
    exact ⟨out, h1, fun more => ⟨(lost h2 (implicit_constructed fun _ _ _ _ => anySeq_constructed)).1,
      (lost h2 (implicit_constructed fun _ _ _ _ => anySeq_constructed)).2⟩⟩
  · obtain ⟨rest, out, _, _, _, h1, h2, _⟩ :=
      C105_default_deviation (.anySet H) cls htag (Ts := []) .nil (by decide : (17 : Nat) < 2 ^ 32) hv
    exact ⟨out, h1, fun more => ⟨(lost h2 (implicit_constructed fun _ _ _ _ => anySet_constructed)).1,
      (lost h2 (implicit_constructed fun _ _ _ _ => anySet_constructed)).2⟩⟩

/-- A case: `SetOf<u16>` under an IMPLICIT tag is written as a primitive object. -/
example : (listToBer 17 (uintToBer 2)).toVec [1, 2] = .ok [0x31, 6, 2, 1, 1, 2, 1, 2] ∧
    (implicitToBer .contextSpecific 0 (fun v => (universalDyn (List Nat) false 17 v).2.1)
      (listToBer 17 (uintToBer 2))).toVec ⟨[1, 2]⟩ = .ok [0x80, 6, 2, 1, 1, 2, 1, 2] := by decide +kernel

/-- **C105** Deviation: the same in a derived CHOICE. A variant that holds a `SetOf`, in a CHOICE without tagging
or with IMPLICIT tagging, is written, and is never read back as that variant. -/
theorem C105_choice_lost {k : ChoiceKind} (hk : k ≠ .explicit) {n : Nat} (hn : n < 2 ^ 32) {Ts Us : List Type}
    (es : EncVariants Ts) (t : ToBer α) (vs : List α) (bs : Bytes) (hv : (listToBer 17 t).toVec vs = .ok bs) :
    ∃ out, (choiceToBer k (.cons n (universalDyn (List α) false 17) (listToBer 17 t) es)).toVec
        (.inl vs : List α ⊕ HSum Ts) = .ok out ∧
      ∀ (more : Bytes) (β : Type) (p : Parser β) (ds : Variants Us) (r : Input) (w : SetOf β),
        (choiceP .ber k (.cons n (setOfP anyBer.parseBer p) ds)).parseBer (Input.fromSlice (out ++ more)) ≠
          .ok (r, (.inl w : SetOf β ⊕ HSum Us)) ∧
        (choiceP .der k (.cons n (setOfP anyDer.parseDer p) ds)).parseDer (Input.fromSlice (out ++ more)) ≠
          .ok (r, (.inl w : SetOf β ⊕ HSum Us)) := by
  obtain ⟨rest, _, o1, o2, _, _, _, h1, h2, h3, h4⟩ :=
    C105_default_deviation (.setOf t) .universal hn es (by decide : (17 : Nat) < 2 ^ 32) hv
  have hout : ∃ c m out, (choiceToBer k (.cons n (universalDyn (List α) false 17) (listToBer 17 t) es)).toVec
      (.inl vs : List α ⊕ HSum Ts) = .ok out ∧ StartsWith (c, false, m) out rest := by
    cases k with
    | explicit => exact absurd rfl hk
    | implicit => exact ⟨_, _, o1, h1, h2⟩
    | untagged => exact ⟨_, _, o2, h3, h4⟩
  obtain ⟨c, m, out, h5, h6⟩ := hout
  have key : ∀ {mode : Rules} {β : Type} {parse : Input → PRes Any} {p : Parser β} {ds : Variants Us} {hd : Header}
      {i r : Input} {w : SetOf β}, (choiceP mode k (.cons n (setOfP parse p) ds)).content hd i =
        .ok (r, (.inl w : SetOf β ⊕ HSum Us)) → hd.constructed = true := by
    intro mode β parse p ds hd i r w h
    have h' : Variants.content mode k (.cons n (setOfP parse p) ds) hd i = .ok (r, (.inl w : SetOf β ⊕ HSum Us)) := by
      cases k with
      | explicit => exact absurd rfl hk
      | implicit => exact h
      | untagged => exact h
    unfold Variants.content at h'
    split at h'
    · obtain ⟨⟨r1, x⟩, h8, h9⟩ := bind_eq_ok.mp h'
      have h10 : (setOfP parse p).content hd i = .ok (r1, x) := by
        cases k with
        | explicit => exact absurd rfl hk
        | implicit => exact h8
        | untagged => exact h8
      exact setOf_constructed h10
    · obtain ⟨⟨r1, x⟩, h8, h9⟩ := bind_eq_ok.mp h'
      injection h9 with h9
      injection h9 with _ h9
      cases h9
  refine ⟨out, h5, fun more β p ds r w => ⟨fun hy => ?_, fun hy => ?_⟩⟩
  · obtain ⟨a, e, h7, _, h8⟩ := parseBer_ok.mp hy
    obtain ⟨_, h9, _⟩ := parseBerAny_ok.mp h7
    have := starts_primitive h6 (more := more) rfl h9
    rw [key h8] at this
    cases this
  · obtain ⟨a, e, h7, _, h8⟩ := parseDer_ok.mp hy
    obtain ⟨_, _, h9, _⟩ := parseDerAny_ok.mp h7
    have := starts_primitive h6 (more := more) rfl h9
    rw [key h8] at this
    cases this

/-- A case: a `SetOf` in a CHOICE with IMPLICIT tags is written as a primitive object. -/
example : (choiceToBer .implicit (.cons 3 (universalDyn (List Nat) false 17) (listToBer 17 (uintToBer 2)) .nil)).toVec
    (.inl [5] : List Nat ⊕ HSum []) = .ok [0x83, 3, 2, 1, 5] := by decide +kernel

/-- **C105** A type made with one of the old alias macros says that it is primitive, also when the type it renames
is constructed. -/
theorem C105_old_alias (dyn : Dyn α) (v : Alias α) :
    oldAliasDyn dyn v = aliasDyn dyn v ↔ (dyn v.inner).2.1 = false := by
  unfold oldAliasDyn aliasDyn
  constructor
  · intro h
    exact (congrArg (fun x => x.2.1) h).symm
  · intro h
    rw [← h]

/-- Cases: `[0] IMPLICIT Vec<u32>` is written `a0 03 ...`; `[0] IMPLICIT SetOf<u32>` is written `80 03 ...`. -/
example :
    (implicitToBer .contextSpecific 0 (fun v => (universalDyn (List Nat) true 16 v).2.1)
      (listToBer 16 (uintToBer 4))).toVec ⟨[5]⟩ = .ok [0xa0, 0x03, 0x02, 0x01, 0x05] ∧
    (listToBer 17 (uintToBer 4)).toVec [5] = .ok [0x31, 0x03, 0x02, 0x01, 0x05] ∧
    (implicitToBer .contextSpecific 0 (fun v => (universalDyn (List Nat) false 17 v).2.1)
      (listToBer 17 (uintToBer 4))).toVec ⟨[5]⟩ = .ok [0x80, 0x03, 0x02, 0x01, 0x05] := by decide +kernel

example : DynTagged (listToBer 16 (uintToBer 4)) (universalDyn _ true 16) := .vec _

example : StartsWith (.contextSpecific, true, 201) [0xbf, 0x81, 0x49, 0x00] [0x00] :=
  ⟨[0xbf, 0x81, 0x49], .high _ _ (by decide) ⟨[0x81], 0x49, rfl, by decide, by decide⟩ (by decide) (by decide)
    (by intro x xs h; cases h; decide), rfl⟩

end Asn1

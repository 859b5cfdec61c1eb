import Verif.Model.Builders
import Verif.Props.RawSeq
import Verif.Props.DeriveOption
import Verif.Props.Indefinite
import Verif.Props.Tagged
import Verif.Props.Header
/-!
# Editing headers and generic objects (C101); references and deprecated helpers (C102)
-/
namespace Asn1
open Spec Wr

/-- The identifier octets determine class, flag and tag number. -/
theorem ident_determines {c c' : Class} {p p' : Bool} {t t' : Nat} {id : Bytes}
    (h : Ident c p t id) (h' : Ident c' p' t' id) : c = c' ∧ p = p' ∧ t = t' := by
  have key : ∀ {c : Class} {p : Bool} {t : Nat}, Ident c p t id →
      parseHeader (Input.fromSlice (id ++ [0])) =
        .ok (after (Input.fromSlice (id ++ [0])) (id.length + 1),
          ⟨c, p, t, .definite 0, some id, some (first (Input.fromSlice (id ++ [0])) (id.length + 1))⟩) := by
    intro c p t h
    refine parseHeader_ok.mpr ⟨id, [0], h, Len.short 0 (by decide) rfl, ?_, rfl, rfl, rfl⟩
    simp [after, Input.fromSlice]
  have := (key h).symm.trans (key h')
  injection this with this
  injection this with _ this
  injection this with h1 h2 h3
  exact ⟨h1, h2, h3⟩

/-- **C101** Each `with_…` method of a header sets that field and leaves the others, and the class
tests say which class the header has. -/
theorem C101_header_fields (h : Header) (cls : Class) (b : Bool) (tag : Nat) (len : Length) :
    (h.withClass cls).cls = cls ∧ (h.withConstructed b).constructed = b ∧ (h.withTag tag).tag = tag ∧
    (h.withLength len).length = len ∧
    (∀ r, (h.withRawTag r).rawTag = r) ∧ (∀ r, (h.withRawHeader r).rawHeader = r) ∧
    -- the other fields
    ((h.withClass cls).withClass h.cls = h ∧ (h.withConstructed b).withConstructed h.constructed = h ∧
      (h.withTag tag).withTag h.tag = h ∧ (h.withLength len).withLength h.length = h ∧
      (∀ r, (h.withRawTag r).withRawTag h.rawTag = h) ∧
      (∀ r, (h.withRawHeader r).withRawHeader h.rawHeader = h)) ∧
    (h.isClass cls = true ↔ h.cls = cls) := by
  refine ⟨rfl, rfl, rfl, rfl, fun _ => rfl, fun _ => rfl, ⟨rfl, rfl, rfl, rfl, fun _ => rfl, fun _ => rfl⟩, ?_⟩
  unfold Header.isClass
  rw [decide_eq_true_iff]
  constructor
  · intro e
    cases h1 : h.cls <;> cases cls <;> simp_all [Class.toNat]
  · intro e; rw [e]

/-- A case. -/
example : ((Header.new .universal true 16 (.definite 3)).withTag 17).withTag 16 = Header.new .universal true 16 (.definite 3) ∧
    ((Header.new .universal true 16 (.definite 3)).withTag 17).tag = 17 := ⟨rfl, rfl⟩

/-- **C101** A generic object read from bytes, given another class and another tag number, encodes to
bytes that read as an object with the new class and tag number and the old form and content.
Missing: the edited object keeps its old raw tag, so it differs from what its own encoding decodes to. -/
theorem C101_retagged_partial (i r : Input) (a : Any)
    (h : parseBerAny i = .ok (r, a) ∨ parseDerAny i = .ok (r, a))
    (hs : a.data.data.length < 2 ^ 64) (cls : Class) (tag : Nat) (ht : tag < 2 ^ 32) :
    ∃ bs, anyToBer.toVec ((a.withClass cls).withTag tag) = .ok bs ∧
      ∀ (j : Input) (rest : Bytes), j.data = bs ++ rest →
        ∃ b, parseDerAny j = .ok (after j bs.length, b) ∧ parseBerAny j = .ok (after j bs.length, b) ∧
          b.header.cls = cls ∧ b.header.constructed = a.header.constructed ∧ b.header.tag = tag ∧
          b.header.length = .definite a.data.data.length ∧ b.data.data = a.data.data ∧
          -- deviation: the edited object still has the identifier octets it was read with, and is
          -- not equal to the object that its own encoding reads as
          ((a.withClass cls).withTag tag).header.rawTag = a.header.rawTag ∧
          (((a.withClass cls).withTag tag).header.eq b.header = true →
            cls = a.header.cls ∧ tag = a.header.tag) := by
  have hb : parseBerAny i = .ok (r, a) := by
    rcases h with h | h
    · exact h
    · exact C11_der_subset_ber_any _ _ _ h
  obtain ⟨r1, hp, _⟩ := parseBerAny_ok.mp hb
  obtain ⟨id, len, hid, _, _, _, hraw, _⟩ := parseHeader_ok.mp hp
  have he : Encodes anyToBer ((a.withClass cls).withTag tag) a.data.data := any_encodes _ ht
  refine ⟨_, he.toVec hs, fun j rest hj => ?_⟩
  have h1 := parseDerAny_full j _ _ _ a.data.data rest ht hs hj
  refine ⟨_, h1, C11_der_subset_ber_any _ _ _ h1, rfl, rfl, rfl, rfl, ?_, rfl, fun he => ?_⟩
  · rw [first_data]
    have h2 : (after j (List.length (full cls a.header.constructed tag a.data.data) - a.data.data.length)).data =
        a.data.data ++ rest := full_content j _ _ _ a.data.data rest hj
    show List.take _ (after j (List.length (full cls a.header.constructed tag a.data.data) -
      a.data.data.length)).data = _
    rw [h2]; simp
  · unfold Header.eq at he
    have hx : ((a.withClass cls).withTag tag).header.rawTag = some id := hraw
    rw [hx] at he
    simp only [Option.isSome_some, if_true, Bool.and_eq_true, decide_eq_true_eq, Option.some.injEq] at he
    have hid2 := identOctets_ident cls a.header.constructed ht
    have e : id = identOctets cls a.header.constructed tag := he.2
    obtain ⟨g1, _, g3⟩ := ident_determines (e ▸ hid) hid2
    exact ⟨g1.symm, g3.symm⟩

/-- A case: an INTEGER given the tag `[7]`. The result reads back, and differs from what was edited. -/
example : ∃ r a, parseDerAny (Input.fromSlice [0x02, 0x01, 0x05]) = .ok (r, a) ∧
    anyToBer.toVec ((a.withClass .contextSpecific).withTag 7) = .ok [0x87, 0x01, 0x05] ∧
    ∃ r' b, parseDerAny (Input.fromSlice [0x87, 0x01, 0x05]) = .ok (r', b) ∧
      ((a.withClass .contextSpecific).withTag 7).header.eq b.header = false :=
  ⟨_, _, rfl, by decide, _, _, rfl, by decide⟩

/-- **C101** An object made from a tag number and a content (`Any::from_tag_and_data`) encodes to a
universal object with this tag number and this content, which is constructed for SEQUENCE and SET and
primitive for every other tag number; and the object read from these bytes has an equal header. -/
theorem C101_from_tag_and_data (tag : Nat) (data : Input) (ht : tag < 2 ^ 32) (hs : data.data.length < 2 ^ 64) :
    ∃ bs, anyToBer.toVec (Any.fromTagAndData tag data) = .ok bs ∧
      ∀ (j : Input) (rest : Bytes), j.data = bs ++ rest →
        ∃ b, parseDerAny j = .ok (after j bs.length, b) ∧ parseBerAny j = .ok (after j bs.length, b) ∧
          b.header.cls = .universal ∧ (b.header.constructed = true ↔ tag = 16 ∨ tag = 17) ∧
          b.header.tag = tag ∧ b.data.data = data.data ∧
          (Any.fromTagAndData tag data).header.eq b.header = true := by
  have he : Encodes anyToBer (Any.fromTagAndData tag data) data.data := any_encodes _ ht
  refine ⟨_, he.toVec hs, fun j rest hj => ?_⟩
  have h1 := parseDerAny_full j _ _ _ data.data rest ht hs hj
  refine ⟨_, h1, C11_der_subset_ber_any _ _ _ h1, rfl, ?_, rfl, ?_, ?_⟩
  · show (decide (tag = 16) || decide (tag = 17)) = true ↔ _
    simp
  · rw [first_data]
    have h2 := full_content j _ _ _ data.data rest hj
    have h3 : (anyToBer.tagInfo (Any.fromTagAndData tag data)).2.2 = tag := rfl
    rw [h3] at h2
    rw [h2]; simp
  · simp [Header.eq, Any.fromTagAndData, Input.len, anyToBer]

/-- Cases: a SET and an OCTET STRING. -/
example : anyToBer.toVec (Any.fromTagAndData 17 (Input.fromSlice [0x05, 0x00])) = .ok [0x31, 0x02, 0x05, 0x00] ∧
    anyToBer.toVec (Any.fromTagAndData 4 (Input.fromSlice [0x05, 0x00])) = .ok [0x04, 0x02, 0x05, 0x00] := by
  decide

/-- **C101** A header made from a tag number alone (`Header::new_simple`, `Header::from`) encodes to the
header of an empty universal object, constructed for SEQUENCE and SET and primitive for every other tag
number; and the header read from these bytes is equal to it. -/
theorem C101_new_simple (tag : Nat) (ht : tag < 2 ^ 32) :
    ∃ bs, headerToBer.toVec (Header.newSimple tag) = .ok bs ∧
      ∀ (j : Input) (rest : Bytes), j.data = bs ++ rest →
        ∃ rem h, parseHeader j = .ok (rem, h) ∧ rem.data = rest ∧
          h.cls = .universal ∧ (h.constructed = true ↔ tag = 16 ∨ tag = 17) ∧ h.tag = tag ∧
          h.length = .definite 0 ∧ (Header.newSimple tag).eq h = true := by
  obtain ⟨bs, h1, h2⟩ := C01_header_roundtrip .universal (tag = 16 || tag = 17) tag (.definite 0) ht
    (by rintro n ⟨⟩; decide) (by rintro ⟨⟩)
  refine ⟨bs, h1, fun j rest hj => ?_⟩
  obtain ⟨rem, h, g1, g2, g3, g4, g5, g6, _⟩ := h2 j rest hj
  refine ⟨rem, h, g1, g6, g2, by rw [g3]; simp, g4, g5, ?_⟩
  obtain ⟨_, _, _, _, _, _, g7, _⟩ := parseHeader_ok.mp g1
  simp [Header.eq, Header.newSimple, Header.new, g2, g3, g4, g5, g7]

example : headerToBer.toVec (Header.newSimple 17) = .ok [0x31, 0] ∧
    headerToBer.toVec (Header.newSimple 4) = .ok [0x04, 0] := by decide +kernel

/-! ### References -/

/-- **C102** A reference to a value encodes as the value does (for every type but `Option`): same bytes,
same lengths, same content, and the same answers of every writer.
Missing: references to `Option` (`C102_reference_deviation`). -/
theorem C102_reference_partial (t : ToBer α) (v : α) :
    (refToBer t).toVec v = t.toVec v ∧ (refToBer t).contentLen v = t.contentLen v ∧
    (refToBer t).totalLen v = t.totalLen v ∧
    (∀ w hist, ((refToBer t).encode v).runFaulty w hist = (t.encode v).runFaulty w hist) ∧
    (∀ cls n, ((refToBer t).encodeTaggedExplicit cls n v).exec = (t.encodeTaggedExplicit cls n v).exec) ∧
    (∀ cls n, ((refToBer t).encodeTaggedImplicit cls n v).exec = (t.encodeTaggedImplicit cls n v).exec) :=
  ⟨rfl, rfl, rfl, fun _ _ => rfl, fun _ _ => rfl, fun _ _ => rfl⟩

/-- **C102** Deviation: an absent `Option` encodes to nothing, but a reference to one to an
end-of-contents marker; and encoding a reference to a present one never returns, whereas the value
itself encodes. -/
theorem C102_reference_deviation (t : ToBer α) (v : α) (fuel : Nat) :
    optionToVec t (none : Option α) = .ok [] ∧
    refOptionToVec (fuel + 1) t (none : Option α) = some (.ok [0, 0]) ∧
    optionToVec t (some v) = t.toVec v ∧
    refOptionToVec fuel t (some v) = none := by
  refine ⟨rfl, ?_, rfl, ?_⟩
  · show some ((((EncTy.option t).fixed (.universal, false, 0))).toVec none) = _
    have h3 : (((EncTy.option t).fixed (.universal, false, 0)).writeHeader none).exec = ([0, 0], .ok 2) :=
      show (headerToBer.writeHeader (Header.new .universal false 0 (.definite 0))).exec = _ by decide
    have h4 : (((EncTy.option t).fixed (.universal, false, 0)).writeContent none).exec = ([], .ok 0) := rfl
    unfold ToBer.toVec ToBer.encode
    rw [exec_bind, h3]
    simp only
    rw [exec_bind, h4]
    simp
  · have := ((C35_option_tag_diverges t v).1 fuel).1
    show Option.map _ (Option.map (fun tag => (Class.universal, false, tag)) (optionTag fuel (some v))) = none
    rw [this]; rfl

/-- **C102** `to_der_vec_raw` is `to_der_vec`. Deviation: `to_der_len`, documented as the length of the
object including the header, is the length of its content, which is always less than what
`to_der_vec` writes. -/
theorem C102_deprecated {t : ToBer α} {v : α} {cs : Bytes} (h : Encodes t v cs) (hs : cs.length < 2 ^ 64) :
    ∃ bs, t.toVec v = .ok bs ∧ toDerVecRaw t v = .ok bs ∧ toDerLen t v = .ok cs.length ∧
      ∃ hd, bs = hd ++ cs ∧ 2 ≤ hd.length := by
  refine ⟨_, h.toVec hs, h.toVec hs, by unfold toDerLen; rw [h.len], _, rfl, ?_⟩
  have h1 : ∀ c p n, 1 ≤ (identOctets c p n).length := by
    intro c p n
    unfold identOctets writeTagGeneric
    simp only
    split
    · simp [Wr.writeAll, exec_bind, Wr.exec]
    · rw [exec_bind]
      simp only [Wr.writeAll, Wr.exec]
      split <;> simp
  have h2 : 1 ≤ (lenOctets (.definite cs.length)).length := by
    have := lenOctets_der hs
    generalize lenOctets (.definite cs.length) = l at this ⊢
    cases this <;> simp
  have := h1 (t.tagInfo v).1 (t.tagInfo v).2.1 (t.tagInfo v).2.2
  rw [List.length_append]; omega

example : toDerLen (uintToBer 4) 300 = .ok 2 ∧ (uintToBer 4).toVec 300 = .ok [0x02, 0x02, 0x01, 0x2c] := by
  decide

/-! ### EXPLICIT tags around indefinite lengths -/

/-- **C28** Deviation: an EXPLICIT tag around a value of indefinite length (an `IndefiniteVec`) is
written, by `TaggedExplicit` and by `ber_encode_tagged_explicit`, as an indefinite-length object
without its end-of-contents octets; it cannot be read back. -/
theorem C28_indefinite_deviation (cls : Class) (tag : Nat) (htag : tag < 2 ^ 32) (t : ToBer α)
    (dynTag : α → Nat) (v : α) (bs : Bytes) (h : BerItem t v 48 bs) (hi : t.contentLen v = .indefinite) :
    ∃ out, (explicitToBer cls tag dynTag t).toVec ⟨v⟩ = .ok out ∧
      (t.encodeTaggedExplicit cls tag v).exec = (out, .ok out.length) ∧
      ∀ x, parseBerAny (Input.fromSlice out) ≠ .ok x := by
  have hid := identOctets_ident cls true htag
  have hlen : Len true .indefinite [0x80] := .indefinite _ (by decide) rfl rfl
  have hh : Writes (writeTagGeneric cls true tag >>= fun n1 => writeLength .indefinite >>= fun n2 =>
      (pure (n1 + n2) : Wr Nat)) (identOctets cls true tag ++ [0x80])
      ((identOctets cls true tag).length + 1) :=
    ((writeTag_spec cls true tag htag).1.bind (f := fun n1 => writeLength .indefinite >>= fun n2 =>
      (pure (n1 + n2) : Wr Nat))
      ((show Writes (writeLength .indefinite) [0x80] 1 from rfl).bind
        (f := fun n2 => (pure (_ + n2) : Wr Nat)) (writes_pure _))).congr (by simp) rfl
  refine ⟨identOctets cls true tag ++ [0x80] ++ bs, ?_, ?_, ?_⟩
  · unfold ToBer.toVec ToBer.encode ToBer.writeHeader
    have e : (explicitToBer cls tag dynTag t).contentLen ⟨v⟩ = .indefinite := by
      show berTotalLength _ (t.contentLen v) = _
      rw [hi]; rfl
    have := hh.bind (f := fun n1 => t.encode v >>= fun n2 => (pure (n1 + n2) : Wr Nat))
      ((show Writes (t.encode v) bs bs.length from h.writes).bind
        (f := fun n2 => (pure (_ + n2) : Wr Nat)) (writes_pure _))
    rw [e]
    unfold Writes at this
    show (match ((writeTagGeneric cls true tag >>= fun n1 => writeLength .indefinite >>= fun n2 =>
      (pure (n1 + n2) : Wr Nat)) >>= fun n1 => t.encode v >>= fun n2 => (pure (n1 + n2) : Wr Nat)).exec with
      | (bs, .ok _) => Except.ok bs | (_, .error e) => .error e) = _
    rw [this]
    simp
  · have e : t.totalLen v = .indefinite := by
      unfold ToBer.totalLen; rw [hi]; rfl
    have hw := h.writes
    unfold ToBer.encode at hw
    unfold ToBer.encodeTaggedExplicit
    rw [e]
    show ((headerToBer.writeHeader (Header.new cls true tag .indefinite)) >>= fun n1 => t.writeHeader v >>=
      fun n2 => t.writeContent v >>= fun n3 => (pure (n1 + n2 + n3) : Wr Nat)).exec = _
    have h0 : (headerToBer.writeHeader (Header.new cls true tag .indefinite)).exec = _ := hh
    rw [exec_bind, h0]
    simp only
    rw [exec_bind] at hw ⊢
    rcases he : (t.writeHeader v).exec with ⟨b1, e1 | n1⟩
    · rw [he] at hw; simp at hw
    · rw [he] at hw
      simp only at hw ⊢
      rw [exec_bind] at hw ⊢
      rcases hc : (t.writeContent v).exec with ⟨b2, e2 | n2⟩
      · rw [hc] at hw; simp at hw
      · rw [hc] at hw
        simp at hw
        obtain ⟨rfl, hn⟩ := hw
        rw [List.length_append] at hn
        simp
        omega
  · obtain ⟨r, a, g1, g2, _⟩ := C04_marker_partial
      (Input.fromSlice (identOctets cls true tag ++ [0x80] ++ bs ++ [0, 0])) cls tag
      (identOctets cls true tag) [0x80] [] [bs] hid hlen
      (by simpa using ⟨h.elem, h.notEoc⟩) (by simp [Input.fromSlice])
    exact (C07_no_truncation (identOctets cls true tag ++ [0x80] ++ bs) [0, 0] (by simp) r a).1 g1 g2

/-- A case: `[1] EXPLICIT` around an `IndefiniteVec` of one boolean. -/
example : (explicitToBer .contextSpecific 1 (fun _ => 16) (indefToBer boolToBer)).toVec ⟨[true]⟩ =
      .ok [0xa1, 0x80, 0x30, 0x80, 0x01, 0x01, 0xff, 0x00, 0x00] ∧
    (∃ bs, BerItem (indefToBer boolToBer) [true] 48 bs) := by
  refine ⟨by decide +kernel, ?_⟩
  have hb : BerItem boolToBer true 47 [1, 1, 255] :=
    have h := encodes_item (t := boolToBer) (v := true) (cs := [255]) (bool_encodes true) (by decide) (.inr (by decide))
    ⟨h.writes, elem_mono (by decide) h.elem, h.notEoc⟩
  exact ⟨_, C32_nested boolToBer [true] 47 _ (.cons hb .nil)⟩

end Asn1

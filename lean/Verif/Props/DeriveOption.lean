import Verif.Props.DeriveWrite
/-!
# Derived SEQUENCE and SET with fields of type `Option`: what their encoders do (C78)
-/
namespace Asn1
open Spec Wr

variable {α : Type} {m : Rules}

theorem optionTag_some (fuel : Nat) (v : α) : optionTag fuel (some v) = none := by
  induction fuel with
  | zero => rfl
  | succ n ih => simpa [optionTag] using ih

theorem holdsSome_len {Ts : List Type} {fs : OptFields Ts} {v : Tup Ts} (h : HoldsSome fs v) (fuel : Nat)
    (acc : Length) : fs.len fuel v acc = none := by
  induction h generalizing acc with
  | here =>
    rename_i t _ x _
    have : EncTy.totalLen fuel (.option t) (some x) = none := by
      unfold EncTy.totalLen EncTy.tagInfo
      simp [optionTag_some]
    rw [OptFields.len, this]
  | there _ ih =>
    rw [OptFields.len]
    split
    · rfl
    · exact ih _

/-- **C78** Deviation: a struct in which a field of type `Option` is present cannot be encoded; however
many nested calls are allowed, the encoder has not returned. -/
theorem C78_some_deviation {Ts : List Type} (tag : Nat) (fs : OptFields Ts) (v : Tup Ts)
    (h : HoldsSome fs v) (fuel : Nat) : structToVec fuel tag fs v = none := by
  unfold structToVec structEncode
  rw [holdsSome_len h]
  rfl

theorem allPlain_len {Ts : List Type} (fs : EncFields Ts) (v : Tup Ts) (fuel : Nat) (acc : Length) :
    (allPlain fs).len fuel v acc = some (fs.len v acc) := by
  induction fs generalizing acc with
  | nil => rfl
  | cons tag t fs ih =>
    obtain ⟨x, vs⟩ := v
    rw [allPlain, OptFields.len, EncFields.len]
    exact ih vs _

theorem allPlain_write {Ts : List Type} (fs : EncFields Ts) (v : Tup Ts) (fuel : Nat) (k : Nat) :
    ∃ w, (allPlain fs).write fuel v k = some w ∧ w.exec = (fs.write v k).exec := by
  have shift : ∀ {Ts : List Type} (fs : EncFields Ts) (v : Tup Ts) (k : Nat),
      (fs.write v k).exec = ((fs.write v 0).exec.1, (fs.write v 0).exec.2.map (k + ·)) := by
    intro Ts fs
    induction fs with
    | nil => intro v k; rfl
    | cons tag t fs ih =>
      rintro ⟨x, vs⟩ k
      rw [EncFields.write, EncFields.write, exec_bind, exec_bind]
      rcases (tag.write t x).exec with ⟨bs, e | n⟩
      · rfl
      · simp only
        rw [ih vs (k + n), ih vs (0 + n)]
        rcases (fs.write vs 0).exec with ⟨cs, e | j⟩
        · rfl
        · simp [Except.map, Nat.add_assoc]
  induction fs generalizing k with
  | nil => exact ⟨_, rfl, rfl⟩
  | cons tag t fs ih =>
    obtain ⟨x, vs⟩ := v
    obtain ⟨w, h1, h2⟩ := ih vs 0
    refine ⟨tag.write t x >>= fun n => w >>= fun j => pure (k + n + j), ?_, ?_⟩
    · rw [allPlain, OptFields.write]
      show (match (allPlain fs).write fuel vs 0 with | none => none | some ws => _) = _
      rw [h1]
    · rw [EncFields.write, exec_bind, exec_bind]
      rcases (tag.write t x).exec with ⟨bs, e | n⟩
      · rfl
      · simp only
        rw [shift fs vs (k + n), exec_bind, h2]
        rcases (fs.write vs 0).exec with ⟨cs, e | j⟩
        · rfl
        · simp [Except.map]

/-- **C78** Without fields of type `Option`, this is the encoder of C54 and C77. -/
theorem C78_all_plain {Ts : List Type} (tag : Nat) (fs : EncFields Ts) (v : Tup Ts) (fuel : Nat) :
    structToVec fuel tag (allPlain fs) v = some ((structToBer tag fs).toVec v) := by
  obtain ⟨w, h1, h2⟩ := allPlain_write fs v fuel 0
  unfold structToVec structEncode
  rw [allPlain_len, h1]
  simp only [Option.map_some, Option.some.injEq]
  unfold ToBer.toVec ToBer.encode ToBer.writeHeader
  have e : ∀ (k : Nat), ((structToBer tag fs).writeContent v) = fs.write v 0 := fun _ => rfl
  rw [e 0]
  show (match (writeTagGeneric .universal true tag >>= fun n1 => writeLength (fs.len v (.definite 0)) >>=
    fun n2 => w >>= fun n3 => (pure (n1 + n2 + n3) : Wr Nat)).exec with | (bs, .ok _) => _ | (_, .error e) => _) =
    (match ((writeTagGeneric .universal true tag >>= fun n1 => writeLength (fs.len v (.definite 0)) >>=
    fun n2 => (pure (n1 + n2) : Wr Nat)) >>= fun n1 => fs.write v 0 >>= fun n2 => (pure (n1 + n2) : Wr Nat)).exec
      with | (bs, .ok _) => _ | (_, .error e) => _)
  simp only [exec_bind, h2]
  rcases (writeTagGeneric .universal true tag).exec with ⟨b1, e1 | n1⟩
  · rfl
  · simp only
    rcases (writeLength (fs.len v (.definite 0))).exec with ⟨b2, e2 | n2⟩
    · rfl
    · simp only [exec_pure]
      rcases (fs.write v 0).exec with ⟨b3, e3 | n3⟩
      · simp
      · simp

/-! ### Absent fields -/

theorem encTy_none_total (t : ToBer α) (fuel : Nat) :
    EncTy.totalLen (fuel + 1) (.option t) (none : Option α) = some (.definite 2) := by
  unfold EncTy.totalLen EncTy.tagInfo
  simp only [optionTag, Option.isSome_none, Bool.false_eq_true, if_false, Option.map_some, EncTy.contentLen,
    optionContentLen]
  decide

/-- **C78** What is written for an absent field: nothing, or with an EXPLICIT tag an object that contains
the octets `00 00`, or with an IMPLICIT tag an empty primitive object. -/
theorem C78_none_bytes (tag : FieldTag) (htag : FieldTag.Valid tag) (t : ToBer α) (fuel : Nat) :
    ∃ w bs, (EncTy.option t).write (fuel + 1) tag none = some w ∧ w.exec = (bs, .ok bs.length) ∧
      (tag = .untagged → bs = []) ∧
      (∀ cls n, tag = .explicit cls n → ∃ hd, bs = hd ++ [0, 0] ∧
        headerToBer.toVec (Header.new cls true n (.definite 2)) = .ok hd) ∧
      (∀ cls n, tag = .implicit cls n →
        headerToBer.toVec (Header.new cls false n (.definite 0)) = .ok bs) := by
  have l2 : lenOctets (.definite 2) = [2] := by decide
  have l0 : lenOctets (.definite 0) = [0] := by decide
  cases tag with
  | untagged => exact ⟨_, [], rfl, rfl, fun _ => rfl, nofun, nofun⟩
  | explicit cls n =>
    have h2 := (header_new_writes cls true (n := n) (k := 2) htag (by decide))
    rw [l2] at h2
    refine ⟨FieldTag.write (.explicit cls n) ((EncTy.option t).fixed (.universal, false, 0)) none,
      identOctets cls true n ++ [2, 0, 0], by simp [EncTy.write, EncTy.tagInfo, optionTag], ?_, nofun,
      fun c k e => ⟨identOctets cls true n ++ [2], by simp, by
        injection e with e1 e2; rw [← e1, ← e2, header_toVec cls true htag (by decide), l2]⟩, nofun⟩
    have h3 : (((EncTy.option t).fixed (.universal, false, 0)).writeHeader none).exec = ([0, 0], .ok 2) :=
      show (headerToBer.writeHeader (Header.new .universal false 0 (.definite 0))).exec = _ by decide
    have h4 : (((EncTy.option t).fixed (.universal, false, 0)).writeContent none).exec = ([], .ok 0) := rfl
    have ht : ((EncTy.option t).fixed (.universal, false, 0)).totalLen none = .definite 2 :=
      show berTotalLength 0 (.definite 0) = _ by decide
    show Writes (ToBer.encodeTaggedExplicit _ cls n none) _ _
    unfold ToBer.encodeTaggedExplicit
    rw [ht]
    have := h2.bind (f := fun n1 => ((EncTy.option t).fixed (.universal, false, 0)).writeHeader none >>=
      fun n2 => ((EncTy.option t).fixed (.universal, false, 0)).writeContent none >>= fun n3 =>
      (pure (n1 + n2 + n3) : Wr Nat)) (Writes.bind h3 (Writes.bind h4 (writes_pure _)))
    exact this.congr (by simp) (by simp)
  | implicit cls n =>
    have h2 := (header_new_writes cls false (n := n) (k := 0) htag (by decide))
    rw [l0] at h2
    refine ⟨FieldTag.write (.implicit cls n) ((EncTy.option t).fixed (.universal, false, 0)) none,
      identOctets cls false n ++ [0], by simp [EncTy.write, EncTy.tagInfo, optionTag], ?_, nofun, nofun,
      fun c k e => by injection e with e1 e2; rw [← e1, ← e2, header_toVec cls false htag (by decide), l0]⟩
    have h4 : (((EncTy.option t).fixed (.universal, false, 0)).writeContent none).exec = ([], .ok 0) := rfl
    show Writes (ToBer.encodeTaggedImplicit _ cls n none) _ _
    unfold ToBer.encodeTaggedImplicit
    have := h2.bind (f := fun n1 => ((EncTy.option t).fixed (.universal, false, 0)).writeContent none >>=
      fun n2 => (pure (n1 + n2) : Wr Nat)) (Writes.bind h4 (writes_pure _))
    exact this.congr (by simp) (by simp)

/-- A case: an absent `[0] EXPLICIT` field. -/
example : FieldTag.Valid (.explicit .contextSpecific 0) := by show 0 < 2 ^ 32; decide

/-- **C78** Deviation: an absent field with a tag does not come back as absent. With an EXPLICIT tag it is
refused, by every type that does not accept the tag number 0; with an IMPLICIT tag, it comes back as the
value that the type makes of an empty content, or is refused. -/
theorem C78_none_deviation {T : Type} (m : Rules) (p : Parser T) (cls : Class) (n : Nat) (hn : n < 2 ^ 32)
    (hd rest : Bytes) (i r : Input) (x : Option T) :
    (p.acceptTag 0 = false → headerToBer.toVec (Header.new cls true n (.definite 2)) = .ok hd →
      i.data = (hd ++ [0, 0]) ++ rest → (Field.optional (.explicit cls n) p).parse m i ≠ .ok (r, x)) ∧
    (headerToBer.toVec (Header.new cls false n (.definite 0)) = .ok hd → i.data = hd ++ rest →
      (Field.optional (.implicit cls n) p).parse m i = .ok (r, x) →
      ∃ y h e c, x = some y ∧ c.data = [] ∧ p.content h c = .ok (e, y)) := by
  have l2 : lenOctets (.definite 2) = [2] := by decide
  have l0 : lenOctets (.definite 0) = [0] := by decide
  rw [header_toVec cls true hn (by decide), header_toVec cls false hn (by decide), l2, l0]
  constructor
  · intro hp hh hi hr
    rw [← Except.ok.inj hh] at hi
    obtain ⟨a, g1, g2, g3, g4, g5, g6⟩ := rules_any_full m i cls true n [0, 0] rest hn (by decide) (by
      rw [hi, full]
      show _ = _ ++ lenOctets (.definite 2) ++ _ ++ _
      rw [l2])
    rcases (C76_field_reads m _ i r x).mp hr with ⟨y, rfl, h, _⟩ | ⟨_, _, h⟩
    · cases h with
      | explicit h hcls htag hc hi =>
        rw [g1] at h
        simp only [Except.ok.injEq, Prod.mk.injEq] at h
        rw [← h.2] at hi
        obtain ⟨b, z, k1, k2, _⟩ := rules_parse_ok.mp hi
        obtain ⟨_, r1, k3⟩ := rules_any_header k1
        have k4 := rules_header_parse k3
        have : parseHeader a.data = .ok (after a.data 2,
            ⟨.universal, false, 0, .definite 0, some [0], some (first a.data 2)⟩) := by
          refine parseHeader_ok.mpr ⟨[0], [0], identOctets_ident (t := 0) .universal false (by decide),
            l0 ▸ lenOctets_len (by intro k hk; simp at hk; omega) (by simp), ?_, rfl, rfl, rfl⟩
          rw [g6]; simp [after_data, g6]
        rw [this] at k4
        simp only [Except.ok.injEq, Prod.mk.injEq] at k4
        rw [← k4.2, hp] at k2
        cases k2
    · obtain ⟨hne, r1, h2⟩ := rules_any_header g1
      cases h with
      | done h => exact hne h
      | other hh ht =>
        rw [h2] at hh
        simp only [Except.ok.injEq, Prod.mk.injEq] at hh
        exact ht (by rw [← hh.2]; exact g4)
  · intro hh hi hr
    rw [← Except.ok.inj hh] at hi
    obtain ⟨a, g1, g2, g3, g4, g5, g6⟩ := rules_any_full m i cls false n [] rest hn (by decide) (by
      rw [hi, full]
      show _ = _ ++ lenOctets (.definite 0) ++ _ ++ _
      rw [l0]; simp)
    rcases (C76_field_reads m _ i r x).mp hr with ⟨y, rfl, h, _⟩ | ⟨_, _, h⟩
    · cases h with
      | implicit h hcls htag hi =>
        rw [g1] at h
        simp only [Except.ok.injEq, Prod.mk.injEq] at h
        rw [← h.2] at hi
        exact ⟨y, _, _, a.data, rfl, g6, hi⟩
    · obtain ⟨hne, r1, h2⟩ := rules_any_header g1
      cases h with
      | done h => exact absurd h hne
      | other hh ht =>
        rw [h2] at hh
        simp only [Except.ok.injEq, Prod.mk.injEq] at hh
        exact absurd (by rw [← hh.2]; exact g4) ht

theorem none_fields {Ts : List Type} {fs : OptFields Ts} {v : Tup Ts} (h : NoneFit fs v) (fuel : Nat) :
    ∃ cs, (∀ k, ∃ w, fs.write (fuel + 1) v k = some w ∧ Writes w cs (k + cs.length)) ∧
      ∀ acc, fs.len (fuel + 1) v (.definite acc) = some (.definite (acc + cs.length + noneOvercount fs v)) := by
  induction h with
  | nil => exact ⟨[], fun k => ⟨_, rfl, writes_pure _⟩, fun acc => rfl⟩
  | plain h htag hs ht ih =>
    rename_i tag t fs v vs
    obtain ⟨bs, h1, h2⟩ := field_writes h htag hs
    obtain ⟨cs, h3, h4⟩ := ih
    refine ⟨bs ++ cs, fun k => ?_, fun acc => ?_⟩
    · obtain ⟨w, g1, g2⟩ := h3 0
      refine ⟨tag.write t v >>= fun n => w >>= fun j => pure (k + n + j), ?_, ?_⟩
      · rw [OptFields.write]
        show (match fs.write (fuel + 1) vs 0 with | none => none | some ws => _) = _
        rw [g1]
      · exact (h1.bind (f := fun n => w >>= fun j => (pure (k + n + j) : Wr Nat))
          (g2.bind (f := fun j => (pure (k + bs.length + j) : Wr Nat)) (writes_pure _))).congr (by simp)
          (by rw [List.length_append]; omega)
    · rw [OptFields.len]
      show fs.len (fuel + 1) vs (tag.addLen (t.totalLen v) (t.contentLen v) (.definite acc)) = _
      have e : noneOvercount (.cons tag (.plain t) fs) (v, vs) =
          fieldOvercount tag t v + noneOvercount fs vs := by cases tag <;> rfl
      rw [h2, h4, e, List.length_append]
      simp only [Option.some.injEq, Length.definite.injEq]
      omega
  | none htag ht ih =>
    rename_i tag t fs vs
    obtain ⟨w, bs, h1, h2, h0, h0e, h0i⟩ := C78_none_bytes tag htag t fuel
    obtain ⟨cs, h3, h4⟩ := ih
    refine ⟨bs ++ cs, fun k => ?_, fun acc => ?_⟩
    · obtain ⟨w', g1, g2⟩ := h3 0
      refine ⟨w >>= fun n => w' >>= fun j => pure (k + n + j), ?_, ?_⟩
      · rw [OptFields.write, h1]
        show (match fs.write (fuel + 1) vs 0 with | none => none | some ws => _) = _
        rw [g1]
      · exact (Writes.bind (f := fun n => w' >>= fun j => (pure (k + n + j) : Wr Nat)) h2
          (g2.bind (f := fun j => (pure (k + bs.length + j) : Wr Nat)) (writes_pure _))).congr (by simp)
          (by rw [List.length_append]; omega)
    · have hlb : (∀ cls n, tag = .explicit cls n → bs.length = (identOctets cls true n).length + 3) ∧
          (∀ cls n, tag = .implicit cls n → bs.length = (identOctets cls false n).length + 1) := by
        constructor
        · rintro cls n rfl
          obtain ⟨hd, rfl, k2⟩ := h0e cls n rfl
          rw [header_toVec cls true htag (by decide)] at k2
          rw [← Except.ok.inj k2]
          simp only [List.length_append, show (lenOctets (.definite 2)).length = 1 by decide]; rfl
        · rintro cls n rfl
          have k2 := h0i cls n rfl
          rw [header_toVec cls false htag (by decide)] at k2
          rw [← Except.ok.inj k2]
          simp only [List.length_append, show (lenOctets (.definite 0)).length = 1 by decide]
      rw [OptFields.len, encTy_none_total]
      show fs.len (fuel + 1) vs (tag.addLen (.definite 2) (.definite 0) (.definite acc)) = _
      have l2 : (lenOctets (.definite 2)).length = 1 := by decide
      cases tag with
      | untagged =>
        show fs.len (fuel + 1) vs (.definite (acc + 2)) = _
        have e : noneOvercount (.cons .untagged (.option t) fs) (none, vs) = 2 + noneOvercount fs vs := rfl
        rw [h4, e, h0 rfl]
        simp only [List.nil_append, Option.some.injEq, Length.definite.injEq]
        omega
      | explicit cls n =>
        have e : noneOvercount (.cons (.explicit cls n) (.option t) fs) (none, vs) = noneOvercount fs vs := rfl
        rw [FieldTag.addLen, headerLengthOr0_eq cls true htag (by decide), l2]
        show fs.len (fuel + 1) vs (.definite (acc + _ + 2)) = _
        have := hlb.1 _ _ rfl
        rw [h4, e, List.length_append]
        simp only [Option.some.injEq, Length.definite.injEq]
        omega
      | implicit cls n =>
        have e : noneOvercount (.cons (.implicit cls n) (.option t) fs) (none, vs) = noneOvercount fs vs := rfl
        rw [FieldTag.addLen, headerLengthOr0_eq cls false htag (by decide), l2]
        show fs.len (fuel + 1) vs (.definite (acc + _ + 0)) = _
        have := hlb.2 _ _ rfl
        rw [h4, e, List.length_append]
        simp only [Option.some.injEq, Length.definite.injEq]
        omega

/-- **C78** Exactly what is written for a struct whose optional fields are all absent: its header announces
the number of the content bytes plus 2 for each absent field without a tag (and the `overcount` of the
other fields). If that is not 0, the decoders refuse the result.
Missing: the round trip, which is false of these, and structs with a present field of type `Option`
(`C78_some_deviation`). -/
theorem C78_none_struct_partial {Ts : List Type} (tag : Nat) (htag : tag < 2 ^ 32) (fs : OptFields Ts) (v : Tup Ts)
    (h : NoneFit fs v) (fuel : Nat)
    (h64 : ∀ n, fs.len (fuel + 1) v (.definite 0) = some (.definite n) → n < 2 ^ 64) :
    ∃ hd cs, structToVec (fuel + 1) tag fs v = some (.ok (hd ++ cs)) ∧
      headerToBer.toVec (Header.new .universal true tag (.definite (cs.length + noneOvercount fs v))) = .ok hd ∧
      (noneOvercount fs v ≠ 0 → ∀ i : Input, i.data = hd ++ cs → ∀ m : Rules, (∀ y, m.any i ≠ .ok y) ∧
        ∀ (Us : List Type) (gs : Fields Us) y, m.parse (structP m tag gs) i ≠ .ok y) := by
  obtain ⟨cs, h1, h2⟩ := none_fields h fuel
  obtain ⟨w, g1, g2⟩ := h1 0
  have hl := h2 0
  have hn := h64 _ hl
  rw [Nat.zero_add] at hl hn
  refine ⟨_, cs, ?_, header_toVec .universal true htag hn, fun h0 i hi m => ?_⟩
  · have hw : Writes (writeTagGeneric .universal true tag >>= fun n1 =>
        writeLength (.definite (cs.length + noneOvercount fs v)) >>= fun n2 => w >>= fun n3 =>
        (pure (n1 + n2 + n3) : Wr Nat)) (identOctets .universal true tag ++
        lenOctets (.definite (cs.length + noneOvercount fs v)) ++ cs) _ :=
      ((writeTag_spec .universal true tag htag).1.bind (f := fun n1 =>
        writeLength (.definite (cs.length + noneOvercount fs v)) >>= fun n2 => w >>= fun n3 =>
        (pure (n1 + n2 + n3) : Wr Nat))
        ((writeLength_spec _ (by intro k hk; simp at hk; omega)).1.bind (f := fun n2 => w >>= fun n3 =>
          (pure ((identOctets .universal true tag).length + n2 + n3) : Wr Nat))
          (g2.bind (f := fun n3 => (pure ((identOctets .universal true tag).length +
            (lenOctets (.definite (cs.length + noneOvercount fs v))).length + n3) : Wr Nat))
            (writes_pure _)))).congr (by simp) rfl
    unfold structToVec structEncode
    rw [hl, g1]
    simp only [Option.map_some]
    rw [show (Wr.exec _) = _ from hw]
  · have hany := overlong_refused htag hn (by omega) hi m
    refine ⟨hany, fun Us gs y hy => ?_⟩
    obtain ⟨a, e, k1, _⟩ := (C76_struct_accepts m tag gs i y.1 y.2).mp hy
    exact hany _ k1

/-- The struct `struct S { a: u32, b: Option<bool>, #[tag_explicit(0)] #[optional] c: Option<bool>,
#[tag_implicit(1)] #[optional] d: Option<&[u8]> }`. -/
def sampleOpt : OptFields [Nat, Option Bool, Option Bool, Option Bytes] :=
  .cons .untagged (.plain (uintToBer 4)) (.cons .untagged (.option boolToBer)
    (.cons (.explicit .contextSpecific 0) (.option boolToBer)
      (.cons (.implicit .contextSpecific 1) (.option octetToBer) .nil)))

/-- Cases: one field present; all absent, with a length that is 2 too large; the absent OCTET STRING comes
back as an empty one. -/
example : HoldsSome sampleOpt (5, some true, none, none, ()) ∧
    NoneFit sampleOpt (5, none, none, none, ()) ∧ noneOvercount sampleOpt (5, none, none, none, ()) = 2 ∧
    structToVec 1 16 sampleOpt (5, none, none, none, ()) =
      some (.ok [0x30, 0x0b, 0x02, 0x01, 0x05, 0xa0, 0x02, 0x00, 0x00, 0x81, 0x00]) ∧
    (Field.optional (.implicit .contextSpecific 1) octetDer).parse .der (Input.fromSlice [0x81, 0x00]) =
      .ok (⟨[], 2, 2⟩, some []) ∧ boolDer.acceptTag 0 = false := by
  refine ⟨.there .here, ?_, rfl, by decide +kernel, by decide +kernel, rfl⟩
  have hu : UniversalValue (uintC 4) 5 := .uint 4 (by decide) (by decide)
  exact .plain (Works.fits hu ⟨1, by decide +kernel, by decide⟩) trivial (by simp)
    (.none trivial (.none (by show 0 < 2 ^ 32; decide) (.none (by show 1 < 2 ^ 32; decide) .nil)))

end Asn1

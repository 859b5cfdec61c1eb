import Verif.Props.DeriveRead
/-!
# Derived SEQUENCE and SET: what their encoders write (C54)
-/
namespace Asn1
open Spec Wr

variable {α : Type} {m : Rules}

theorem header_new_writes (cls : Class) (b : Bool) {n k : Nat} (hn : n < 2 ^ 32) (hk : k < 2 ^ 64) :
    Writes (headerToBer.writeHeader (Header.new cls b n (.definite k)))
      (identOctets cls b n ++ lenOctets (.definite k))
      (identOctets cls b n ++ lenOctets (.definite k)).length :=
  header_writes (t := headerToBer) (v := Header.new cls b n (.definite k)) rfl hk hn rfl

theorem header_toVec (cls : Class) (b : Bool) {n k : Nat} (hn : n < 2 ^ 32) (hk : k < 2 ^ 64) :
    headerToBer.toVec (Header.new cls b n (.definite k)) =
      .ok (identOctets cls b n ++ lenOctets (.definite k)) := by
  have h := (header_new_writes cls b hn hk).bind (f := fun n1 =>
    headerToBer.writeContent (Header.new cls b n (.definite k)) >>= fun n2 => (pure (n1 + n2) : Wr Nat))
    (Writes.bind (x := headerToBer.writeContent (Header.new cls b n (.definite k))) (writes_pure 0)
      (writes_pure _))
  unfold ToBer.toVec
  rw [show (headerToBer.encode (Header.new cls b n (.definite k))).exec = _ from h]
  simp

theorem headerLengthOr0_eq (cls : Class) (b : Bool) {n k : Nat} (hn : n < 2 ^ 32) (hk : k < 2 ^ 24) :
    headerLengthOr0 n (.definite k) = (identOctets cls b n).length + (lenOctets (.definite k)).length := by
  unfold headerLengthOr0 berHeaderLength
  rw [lenOctets_size hk, berTagLength_eq cls b hn]
  rfl

/-- How the sizes of two length fields compare. -/
theorem lenOctets_straddles {n k : Nat} (hk : k < 2 ^ 24) (h1 : n ≤ k) (h2 : k ≤ n + 10) :
    (lenOctets (.definite k)).length =
      (lenOctets (.definite n)).length + (if Straddles n k then 1 else 0) := by
  have a := lenOctets_size (n := n) (by omega)
  have b := lenOctets_size hk
  have e24 : (2 : Nat) ^ 24 = 16777216 := by decide
  have hif : ∀ x, (x = 1 ∧ Straddles n k ∨ x = 0 ∧ ¬ Straddles n k) → (if Straddles n k then 1 else 0) = x := by
    rintro x (⟨rfl, h⟩ | ⟨rfl, h⟩)
    · rw [if_pos h]
    · rw [if_neg h]
  generalize (if Straddles n k then 1 else 0) = c at *
  have hc : c = 1 ∧ Straddles n k ∨ c = 0 ∧ ¬ Straddles n k := by
    by_cases h : Straddles n k
    · exact .inl ⟨hif 1 (.inl ⟨rfl, h⟩), h⟩
    · exact .inr ⟨hif 0 (.inr ⟨rfl, h⟩), h⟩
  unfold Straddles at hc
  clear hif
  simp only [berLengthLength] at a b
  repeat' split at a
  all_goals simp only [Except.ok.injEq, reduceCtorEq] at a
  all_goals rw [← a]
  all_goals repeat' split at b
  all_goals simp only [Except.ok.injEq, reduceCtorEq] at b
  all_goals rw [← b]
  all_goals omega

theorem fits_total {t : ToBer α} {v : α} (h : Fits t v) :
    ∃ hd cs, (t.writeContent v).exec = (cs, .ok cs.length) ∧ t.contentLen v = .definite cs.length ∧
      cs.length < 2 ^ 24 ∧ (t.writeHeader v).exec = (hd, .ok hd.length) ∧
      (t.encode v).exec = (hd ++ cs, .ok (hd ++ cs).length) ∧
      t.totalLen v = .definite (hd ++ cs).length ∧ (hd ++ cs).length ≤ cs.length + 10 := by
  obtain ⟨hd, cs, h1, h2, h3, h4, h5⟩ := h.lengths
  obtain ⟨n, hn, hs⟩ := h.small
  have e24 : (2 : Nat) ^ 24 = 16777216 := by decide
  rw [h2] at hn
  injection hn with hn
  subst hn
  refine ⟨hd, cs, h1, h2, hs, h3, h4, h5 hs, ?_⟩
  have h6 := h5 hs
  unfold ToBer.totalLen berTotalLength berHeaderLength at h6
  rw [h2] at h6
  have h7 := berTagLength_le h.tag
  cases hb : berLengthLength (.definite cs.length) with
  | error e =>
    rw [hb] at h6
    simp only [bind_err, Length.addNat, Length.definite.injEq] at h6
    omega
  | ok k =>
    rw [hb] at h6
    have hk : k ≤ 4 := by
      simp only [berLengthLength] at hb
      repeat' split at hb
      all_goals simp only [Except.ok.injEq, reduceCtorEq] at hb
      all_goals omega
    have h6' : cs.length + (berTagLength (t.tagInfo v).2.2 + k) = (hd ++ cs).length := by
      simpa only [bind_ok, pure, Except.pure, Length.addNat, Length.definite.injEq] using h6
    omega

/-- What is written for one field, and what is announced for it. -/
theorem field_writes {tag : FieldTag} {t : ToBer α} {v : α} (h : Fits t v) (htag : FieldTag.Valid tag)
    (hs : tag ≠ .untagged → ∀ n, t.totalLen v = .definite n → n < 2 ^ 24) :
    ∃ bs, Writes (tag.write t v) bs bs.length ∧
      ∀ acc, tag.addLen (t.totalLen v) (t.contentLen v) (.definite acc) =
        .definite (acc + bs.length + fieldOvercount tag t v) := by
  obtain ⟨hd, cs, h1, h2, h3, h4, h5, h6, h7⟩ := fits_total h
  have e24 : (2 : Nat) ^ 24 = 16777216 := by decide
  have e64 : (2 : Nat) ^ 64 = 18446744073709551616 := by decide
  cases tag with
  | untagged =>
    refine ⟨hd ++ cs, h5, fun acc => ?_⟩
    rw [FieldTag.addLen, h6]
    rfl
  | explicit cls n =>
    have h8 := hs (by simp) _ h6
    have hw := header_new_writes cls true (n := n) (k := (hd ++ cs).length) htag (by omega)
    refine ⟨(identOctets cls true n ++ lenOctets (.definite (hd ++ cs).length)) ++ (hd ++ cs), ?_,
      fun acc => ?_⟩
    · show Writes (t.encodeTaggedExplicit cls n v) _ _
      unfold ToBer.encodeTaggedExplicit
      rw [h6]
      have := hw.bind (f := fun n1 => t.writeHeader v >>= fun n2 => t.writeContent v >>= fun n3 =>
        (pure (n1 + n2 + n3) : Wr Nat)) (Writes.bind (x := t.writeHeader v) (bs := hd) (a := hd.length) h4
          (Writes.bind (x := t.writeContent v) (bs := cs) (a := cs.length) h1 (writes_pure _)))
      exact this.congr (by simp) (by simp; omega)
    · rw [FieldTag.addLen, h6, headerLengthOr0_eq cls true htag h8]
      show Length.definite _ = Length.definite _
      congr 1
      simp [fieldOvercount]
      omega
  | implicit cls n =>
    have h8 := hs (by simp) _ h6
    have hw := header_new_writes cls (t.tagInfo v).2.1 (n := n) (k := cs.length) htag (by omega)
    refine ⟨(identOctets cls (t.tagInfo v).2.1 n ++ lenOctets (.definite cs.length)) ++ cs, ?_,
      fun acc => ?_⟩
    · show Writes (t.encodeTaggedImplicit cls n v) _ _
      unfold ToBer.encodeTaggedImplicit
      rw [h2]
      have := hw.bind (f := fun n1 => t.writeContent v >>= fun n2 => (pure (n1 + n2) : Wr Nat))
        (Writes.bind (x := t.writeContent v) (bs := cs) (a := cs.length) h1 (writes_pure _))
      exact this.congr (by simp) (by simp; omega)
    · have h9 := lenOctets_straddles (n := cs.length) h8 (by rw [List.length_append]; omega) h7
      have hf : fieldOvercount (.implicit cls n) t v =
          if Straddles cs.length (hd ++ cs).length then 1 else 0 := by
        unfold fieldOvercount
        simp only [h2, h6]
      rw [FieldTag.addLen, hf, h2, h6, headerLengthOr0_eq cls (t.tagInfo v).2.1 htag h8, h9]
      show Length.definite _ = Length.definite (_ + (if Straddles cs.length (hd ++ cs).length then 1 else 0))
      apply congrArg
      generalize (if Straddles cs.length (hd ++ cs).length then 1 else 0) = c
      simp only [List.length_append]
      omega

theorem fields_write {Ts : List Type} {fs : EncFields Ts} {v : Tup Ts} (h : FieldsFit fs v) :
    ∃ cs, (∀ k, Writes (fs.write v k) cs (k + cs.length)) ∧
      ∀ acc, fs.len v (.definite acc) = .definite (acc + cs.length + overcount fs v) := by
  induction h with
  | nil => exact ⟨[], fun k => writes_pure _, fun acc => rfl⟩
  | cons h htag hs ht ih =>
    obtain ⟨bs, h1, h2⟩ := field_writes h htag hs
    obtain ⟨cs, h3, h4⟩ := ih
    refine ⟨bs ++ cs, fun k => ?_, fun acc => ?_⟩
    · rw [EncFields.write, show k + (bs ++ cs).length = k + bs.length + cs.length by
        rw [List.length_append]; omega]
      exact h1.bind (h3 _)
    · rw [EncFields.len, h2, h4, overcount]
      congr 1
      rw [List.length_append]; omega

/-- **C54** Exactly what a derived SEQUENCE or SET announces as its content length: the number of bytes it
then writes as content, plus one for each IMPLICIT field whose content length is written with fewer octets
than the length of its untagged encoding (`overcount`). -/
theorem C54_struct_length {Ts : List Type} (tag : Nat) (fs : EncFields Ts) (v : Tup Ts)
    (h : FieldsFit fs v) :
    ∃ cs, ((structToBer tag fs).writeContent v).exec = (cs, .ok cs.length) ∧
      (structToBer tag fs).contentLen v = .definite (cs.length + overcount fs v) := by
  obtain ⟨cs, h1, h2⟩ := fields_write h
  refine ⟨cs, (h1 0).congr rfl (by omega), ?_⟩
  show fs.len v (.definite 0) = _
  rw [h2]; congr 1; omega

/-- A case: two fields. -/
example : (structToBer 16 (.cons .untagged (uintToBer 4) (.cons (.implicit .contextSpecific 1) octetToBer .nil))).contentLen
      ((5, [1, 2], ()) : Tup [Nat, Bytes]) = .definite 7 ∧
    (structToBer 16 (.cons .untagged (uintToBer 4) (.cons (.implicit .contextSpecific 1) octetToBer .nil))).toVec
      ((5, [1, 2], ()) : Tup [Nat, Bytes]) = .ok [0x30, 7, 2, 1, 5, 0x81, 2, 1, 2] := by decide +kernel

theorem struct_encodes {Ts : List Type} {tag : Nat} (htag : tag < 2 ^ 32) {fs : EncFields Ts} {v : Tup Ts}
    {cs : Bytes} (hw : ((structToBer tag fs).writeContent v).exec = (cs, .ok cs.length))
    (hl : (structToBer tag fs).contentLen v = .definite cs.length) : Encodes (structToBer tag fs) v cs :=
  ⟨hw, hl, htag, rfl⟩

/-- **C54** (partial) The length in the header of a derived SEQUENCE or SET is the number of its content
bytes, and so are the announced and returned lengths, if it has no such field. Missing: the structs with
such a field, for which this is false (`C54_overcount_deviation`). -/
theorem C54_struct_length_partial {Ts : List Type} (tag : Nat) (htag : tag < 2 ^ 32) (fs : EncFields Ts)
    (v : Tup Ts) (h : FieldsFit fs v) (h0 : overcount fs v = 0)
    (h64 : ∀ n, (structToBer tag fs).contentLen v = .definite n → n < 2 ^ 64) :
    LengthsRight (structToBer tag fs) v := by
  obtain ⟨cs, h1, h2⟩ := C54_struct_length tag fs v h
  rw [h0] at h2
  exact (struct_encodes htag h1 h2).lengths (h64 _ h2)

/-- An object that is shorter than its header announces is refused. -/
theorem overlong_refused {c : Class} {b : Bool} {tag n : Nat} (htag : tag < 2 ^ 32) (hn : n < 2 ^ 64)
    {cs : Bytes} (hlt : cs.length < n) {i : Input}
    (hi : i.data = identOctets c b tag ++ lenOctets (.definite n) ++ cs) (m : Rules) (y : Input × Any) :
    m.any i ≠ .ok y := by
  have hp : parseHeader i = .ok (after i ((identOctets c b tag).length +
      (lenOctets (.definite n)).length), ⟨c, b, tag, .definite n, some (identOctets c b tag),
        some (first i ((identOctets c b tag).length + (lenOctets (.definite n)).length))⟩) := by
    refine parseHeader_ok.mpr ⟨_, _, identOctets_ident c b htag,
      lenOctets_len (by intro k hk; simp at hk; omega) (by simp), ?_, rfl, rfl, rfl⟩
    simp only [after_data]
    rw [hi, ← List.length_append, List.drop_left' rfl]
  obtain ⟨r, a⟩ := y
  intro hy
  have hb : parseBerAny i = .ok (r, a) := by
    cases m
    · exact hy
    · exact C11_der_subset_ber_any _ _ _ hy
  obtain ⟨r1, g1, g2⟩ := parseBerAny_ok.mp hb
  rw [hp] at g1
  simp only [Except.ok.injEq, Prod.mk.injEq] at g1
  rw [show MAX_RECURSION = 49 + 1 from rfl] at g2
  have g3 := berContent_ok.mp g2
  rw [← g1.2, ← g1.1] at g3
  have g4 : n ≤ _ := g3.1
  rw [after_data, hi, ← List.length_append, List.drop_left' rfl] at g4
  omega

/-- **C54** Deviation: with such a field, the struct is written without an error, but its header announces
more bytes than follow, so that the generic parsers and those of the struct refuse it. -/
theorem C54_overcount_deviation {Ts : List Type} (tag : Nat) (htag : tag < 2 ^ 32) (fs : EncFields Ts)
    (v : Tup Ts) (h : FieldsFit fs v) (h0 : overcount fs v ≠ 0)
    (h64 : ∀ n, (structToBer tag fs).contentLen v = .definite n → n < 2 ^ 64) :
    ∃ bs, (structToBer tag fs).toVec v = .ok bs ∧ ¬ LengthsRight (structToBer tag fs) v ∧
      ∀ i : Input, i.data = bs → ∀ m : Rules, (∀ y, m.any i ≠ .ok y) ∧
        ∀ (Us : List Type) (gs : Fields Us) y, m.parse (structP m tag gs) i ≠ .ok y := by
  obtain ⟨cs, h1, h2⟩ := C54_struct_length tag fs v h
  have hn := h64 _ h2
  have hh := header_writes (t := structToBer tag fs) (v := v) h2 hn htag rfl
  have hw : Writes ((structToBer tag fs).encode v) (identOctets .universal true tag ++
      lenOctets (.definite (cs.length + overcount fs v)) ++ cs) _ :=
    (hh.bind (f := fun n1 => (structToBer tag fs).writeContent v >>= fun n2 => (pure (n1 + n2) : Wr Nat))
      (Writes.bind (x := (structToBer tag fs).writeContent v) (bs := cs) (a := cs.length) h1
        (writes_pure _))).congr (by simp; rfl) rfl
  refine ⟨_, by unfold ToBer.toVec; rw [show ((structToBer tag fs).encode v).exec = _ from hw], ?_, ?_⟩
  · rintro ⟨hd, cs', g1, g2, _⟩
    rw [h1] at g1
    injection g1 with g1 _
    rw [h2, g1] at g2
    injection g2 with g2
    omega
  · intro i hi m
    have hany : ∀ y, m.any i ≠ .ok y := overlong_refused htag hn (by omega) hi m
    refine ⟨hany, fun Us gs y hy => ?_⟩
    obtain ⟨a, e, g1, _⟩ := (C76_struct_accepts m tag gs i y.1 y.2).mp hy
    exact hany _ g1

/-! ### Round-trip -/

theorem rules_any_full (m : Rules) (i : Input) (c : Class) (b : Bool) (n : Nat) (cs rest : Bytes)
    (hn : n < 2 ^ 32) (hs : cs.length < 2 ^ 64) (hi : i.data = full c b n cs ++ rest) :
    ∃ a : Any, m.any i = .ok (after i (full c b n cs).length, a) ∧ a.header.cls = c ∧
      a.header.constructed = b ∧ a.header.tag = n ∧ a.header.length = .definite cs.length ∧
      a.data.data = cs := by
  refine ⟨⟨⟨c, b, n, .definite cs.length, some (identOctets c b n),
        some (first i ((full c b n cs).length - cs.length))⟩,
       first (after i ((full c b n cs).length - cs.length)) cs.length⟩, ?_, rfl, rfl, rfl, rfl, ?_⟩
  · cases m
    · exact parseBerAny_full i c b n cs rest hn hs hi
    · exact parseDerAny_full i c b n cs rest hn hs hi
  · rw [first_data, full_content i c b n cs rest hi]; simp

theorem field_back {U : Type} {tag : FieldTag} {t : ToBer α} {p : Parser U} {v : α} {w : U} (h : Fits t v)
    (htag : FieldTag.Valid tag) (hs : tag ≠ .untagged → ∀ n, t.totalLen v = .definite n → n < 2 ^ 24)
    (hb : ComesBack m t p v w tag) {bs : Bytes} (hw : Writes (tag.write t v) bs bs.length) (rest : Bytes)
    (i : Input) (hi : i.data = bs ++ rest) :
    ReadsAs m p tag i w (after i bs.length) ∧ (tag = .untagged → OwnHeader t v → DefiniteAt i) := by
  obtain ⟨hd, cs, h1, h2, h3, h4, h5, h6, h7⟩ := fits_total h
  have e24 : (2 : Nat) ^ 24 = 16777216 := by decide
  have e64 : (2 : Nat) ^ 64 = 18446744073709551616 := by decide
  cases hb with
  | untagged hb =>
    have hbs : bs = hd ++ cs := congrArg Prod.fst (hw.symm.trans h5)
    refine ⟨.untagged ?_, fun _ ho => ?_⟩
    · obtain ⟨bs', g1, g2⟩ := hb
      have : bs' = hd ++ cs := by
        unfold ToBer.toVec at g1
        rw [h5] at g1
        exact (Except.ok.inj g1).symm
      rw [this, ← hbs] at g2
      exact g2 rest i hi
    · unfold OwnHeader at ho
      rw [h4, h2, header_new_writes _ _ h.tag (by omega)] at ho
      have hd' : hd = identOctets (t.tagInfo v).1 (t.tagInfo v).2.1 (t.tagInfo v).2.2 ++
          lenOctets (.definite cs.length) := congrArg Prod.fst ho
      intro r hdr hr
      rw [parseHeader_full i (t.tagInfo v).1 (t.tagInfo v).2.1 (t.tagInfo v).2.2 cs rest h.tag (by omega)
        (by rw [hi, hbs, hd', full])] at hr
      simp only [Except.ok.injEq, Prod.mk.injEq] at hr
      rw [← hr.2]
      simp
  | explicit hb =>
    rename_i cls n
    refine ⟨?_, by simp⟩
    have h8 := hs (by simp) _ h6
    have hw' : Writes (FieldTag.write (.explicit cls n) t v) (full cls true n (hd ++ cs))
        (full cls true n (hd ++ cs)).length := by
      show Writes (t.encodeTaggedExplicit cls n v) _ _
      unfold ToBer.encodeTaggedExplicit
      rw [h6]
      have := (header_new_writes cls true (n := n) (k := (hd ++ cs).length) htag (by omega)).bind
        (f := fun n1 => t.writeHeader v >>= fun n2 => t.writeContent v >>= fun n3 =>
        (pure (n1 + n2 + n3) : Wr Nat)) (Writes.bind (x := t.writeHeader v) (bs := hd) (a := hd.length) h4
          (Writes.bind (x := t.writeContent v) (bs := cs) (a := cs.length) h1 (writes_pure _)))
      exact this.congr (by simp [full]) (by simp [full]; omega)
    have hbs : bs = full cls true n (hd ++ cs) := congrArg Prod.fst (hw.symm.trans hw')
    subst hbs
    obtain ⟨a, g1, g2, g3, g4, g5, g6⟩ := rules_any_full m i cls true n (hd ++ cs) rest htag (by omega) hi
    obtain ⟨bs', k1, k2⟩ := hb
    have : bs' = hd ++ cs := by
      unfold ToBer.toVec at k1
      rw [h5] at k1
      exact (Except.ok.inj k1).symm
    rw [this] at k2
    exact .explicit g1 g2 g4 g3 (k2 [] a.data (by rw [g6]; simp))
  | implicit hc hb =>
    rename_i cls n cs'
    refine ⟨?_, by simp⟩
    have hcs : cs' = cs := by rw [h1] at hc; exact (congrArg Prod.fst hc).symm
    subst hcs
    have hw' : Writes (FieldTag.write (.implicit cls n) t v) (full cls (t.tagInfo v).2.1 n cs')
        (full cls (t.tagInfo v).2.1 n cs').length := by
      show Writes (t.encodeTaggedImplicit cls n v) _ _
      unfold ToBer.encodeTaggedImplicit
      rw [h2]
      have := (header_new_writes cls (t.tagInfo v).2.1 (n := n) (k := cs'.length) htag (by omega)).bind
        (f := fun n1 => t.writeContent v >>= fun n2 => (pure (n1 + n2) : Wr Nat))
        (Writes.bind (x := t.writeContent v) (bs := cs') (a := cs'.length) h1 (writes_pure _))
      exact this.congr (by simp [full]) (by simp [full]; omega)
    have hbs : bs = full cls (t.tagInfo v).2.1 n cs' := congrArg Prod.fst (hw.symm.trans hw')
    subst hbs
    obtain ⟨a, g1, g2, g3, g4, g5, g6⟩ :=
      rules_any_full m i cls (t.tagInfo v).2.1 n cs' rest htag (by omega) hi
    obtain ⟨x, hx⟩ := hb a.header a.data g3 g5 g6
    exact .implicit g1 g2 g4 hx

theorem fields_back {Ts Us : List Type} {es : EncFields Ts} {fs : Fields Us} {v : Tup Ts} {w : Tup Us}
    (hb : StructBack m es fs v w) (hf : FieldsFit es v) {cs : Bytes}
    (hw : ∀ k, Writes (es.write v k) cs (k + cs.length)) (rest : Bytes) (i : Input)
    (hi : i.data = cs ++ rest) : ReadsFields m fs i w (after i cs.length) := by
  have key : ∀ {T : Type} {Ts : List Type} {tag : FieldTag} {t : ToBer T} {es : EncFields Ts} {v : T}
      {vs : Tup Ts} {cs : Bytes}, Fits t v → FieldTag.Valid tag →
      (tag ≠ .untagged → ∀ n, t.totalLen v = .definite n → n < 2 ^ 24) → FieldsFit es vs →
      (∀ k, Writes ((EncFields.cons tag t es).write (v, vs) k) cs (k + cs.length)) →
      ∃ b d, cs = b ++ d ∧ Writes (tag.write t v) b b.length ∧ ∀ k, Writes (es.write vs k) d (k + d.length) := by
    intro T Ts tag t es v vs cs h1 h2 h3 h4 h5
    obtain ⟨b, g1, _⟩ := field_writes h1 h2 h3
    obtain ⟨d, g2, _⟩ := fields_write h4
    refine ⟨b, d, ?_, g1, g2⟩
    have h6 := h5 0
    rw [EncFields.write] at h6
    exact congrArg Prod.fst (h6.symm.trans (g1.bind (g2 _)))
  induction hb generalizing cs i with
  | nil =>
    have := congrArg Prod.fst ((hw 0).symm.trans (writes_pure 0))
    simp only at this
    subst this
    rw [show after i ([] : Bytes).length = i from after_zero i]
    exact .nil
  | required hc ht ih =>
    cases hf with
    | cons h1 h2 h3 h4 =>
      obtain ⟨b, d, rfl, g1, g2⟩ := key h1 h2 h3 h4 hw
      obtain ⟨k1, _⟩ := field_back (m := m) h1 h2 h3 hc g1 (d ++ rest) i (by rw [hi, List.append_assoc])
      refine .cons k1 ?_
      have := ih h4 g2 (after i b.length) (by
        rw [after_data, hi, List.append_assoc, List.drop_left' rfl])
      rw [after_after] at this
      rw [List.length_append]; exact this
  | default hc ho ht ih =>
    cases hf with
    | cons h1 h2 h3 h4 =>
      obtain ⟨b, d, rfl, g1, g2⟩ := key h1 h2 h3 h4 hw
      obtain ⟨k1, k2⟩ := field_back (m := m) h1 h2 h3 hc g1 (d ++ rest) i (by rw [hi, List.append_assoc])
      refine .cons (.inl ⟨k1, fun e => k2 e (ho e)⟩) ?_
      have := ih h4 g2 (after i b.length) (by
        rw [after_data, hi, List.append_assoc, List.drop_left' rfl])
      rw [after_after] at this
      rw [List.length_append]; exact this

/-- **C77** (partial) A derived SEQUENCE or SET with required and default fields, plain or with EXPLICIT or
IMPLICIT tags, each of which comes back by itself, comes back: the encoding of the struct decodes to the
struct of the values, leaving what follows. Missing: structs with an IMPLICIT field that spoils the length
(`overcount`), and with fields of type `Option` (see C78), for which this is false. -/
theorem C77_struct_roundtrip_partial {Ts Us : List Type} (m : Rules) (tag : Nat) (htag : tag < 2 ^ 32)
    (es : EncFields Ts) (fs : Fields Us) (v : Tup Ts) (w : Tup Us) (hf : FieldsFit es v)
    (h0 : overcount es v = 0) (h64 : ∀ n, (structToBer tag es).contentLen v = .definite n → n < 2 ^ 64)
    (hb : StructBack m es fs v w) :
    InputBack (structToBer tag es) (m.parse (structP m tag fs)) v w := by
  obtain ⟨cs, h1, h2⟩ := fields_write hf
  have hl : (structToBer tag es).contentLen v = .definite cs.length := by
    show es.len v (.definite 0) = _
    rw [h2, h0]; congr 1; omega
  have hn := h64 _ hl
  have he : Encodes (structToBer tag es) v cs := struct_encodes htag ((h1 0).congr rfl (by omega)) hl
  refine ⟨_, he.toVec hn, fun rest i hi => ?_⟩
  obtain ⟨a, g1, g2, g3, g4, g5, g6⟩ := rules_any_full m i _ _ _ cs rest he.tag hn hi
  exact (C76_struct_accepts m tag fs i _ w).mpr
    ⟨a, _, g1, g4, g3, fields_back hb hf h1 [] a.data (by rw [g6]; simp)⟩

theorem Encodes.ownHeader {t : ToBer α} {v : α} {cs : Bytes} (h : Encodes t v cs)
    (hs : cs.length < 2 ^ 64) : OwnHeader t v := by
  unfold OwnHeader
  rw [h.len, header_new_writes _ _ h.tag hs]
  exact h.header hs

/-- The values of a universal type come back as fields, whatever the tag. -/
theorem universal_comesBack {c : Codec α} {v : α} (h : UniversalValue c v) (hs : SmallContent c.enc v)
    (tag : FieldTag) : ComesBack .ber c.enc c.ber v v tag ∧ ComesBack .der c.enc c.der v v tag ∧
      OwnHeader c.enc v := by
  obtain ⟨cs, hw, hl, ht⟩ := universal_works h
  obtain ⟨n, hn, hlt⟩ := hs
  rw [hl] at hn; injection hn with hn
  have hb := hw.back (by omega)
  refine ⟨?_, ?_, hw.enc.ownHeader (by omega)⟩
  · cases tag with
    | untagged => exact .untagged hb.1
    | explicit cls n => exact .explicit hb.1
    | implicit cls n => exact .implicit hw.enc.content (by rw [hw.prim]; exact hw.ber)
  · cases tag with
    | untagged => exact .untagged hb.2.1
    | explicit cls n => exact .explicit hb.2.1
    | implicit cls n => exact .implicit hw.enc.content (by rw [hw.prim]; exact hw.der)

theorem universalFields_back {Ts : List Type} {es : EncFields Ts} {fb fd : Fields Ts} {v : Tup Ts}
    (h : UniversalFields es fb fd v) :
    FieldsFit es v ∧ StructBack .ber es fb v v ∧ StructBack .der es fd v v := by
  induction h with
  | nil => exact ⟨.nil, .nil, .nil⟩
  | required hu hs hv ht _ ih =>
    obtain ⟨h1, h2, h3⟩ := ih
    obtain ⟨g1, g2, g3⟩ := universal_comesBack hu hs _
    exact ⟨.cons (Works.fits hu hs) hv ht h1, .required g1 h2, .required g2 h3⟩
  | default hu hs hv ht _ ih =>
    obtain ⟨h1, h2, h3⟩ := ih
    obtain ⟨g1, g2, g3⟩ := universal_comesBack hu hs _
    exact ⟨.cons (Works.fits hu hs) hv ht h1, .default g1 (fun _ => g3) h2, .default g2 (fun _ => g3) h3⟩

/-- **C77** (partial) In particular the structs of universal types come back through `parse_ber` and
`parse_der`, and their lengths are right. -/
theorem C77_struct_universal_partial {Ts : List Type} (tag : Nat) (htag : tag < 2 ^ 32) (es : EncFields Ts)
    (fb fd : Fields Ts) (v : Tup Ts) (h : UniversalFields es fb fd v) (h0 : overcount es v = 0)
    (h64 : ∀ n, (structToBer tag es).contentLen v = .definite n → n < 2 ^ 64) :
    LengthsRight (structToBer tag es) v ∧
    InputBack (structToBer tag es) (structP .ber tag fb).parseBer v v ∧
    InputBack (structToBer tag es) (structP .der tag fd).parseDer v v := by
  obtain ⟨h1, h2, h3⟩ := universalFields_back h
  exact ⟨C54_struct_length_partial tag htag es v h1 h0 h64,
    C77_struct_roundtrip_partial .ber tag htag es fb v v h1 h0 h64 h2,
    C77_struct_roundtrip_partial .der tag htag es fd v v h1 h0 h64 h3⟩

/-- **C54** Deviation: the header around a tagged field is not counted if the value takes `2^32` bytes or more. So
the length of a struct with such an OCTET STRING in a field with an EXPLICIT or IMPLICIT tag is that of the octets
alone. -/
theorem C54_struct_length_huge (tag n : Nat) (cls : Class) (v : Bytes) (h : 2 ^ 32 ≤ v.length) :
    (structToBer tag (.cons (.explicit cls n) octetToBer .nil)).contentLen (v, ()) = .definite v.length ∧
    (structToBer tag (.cons (.implicit cls n) octetToBer .nil)).contentLen (v, ()) = .definite v.length := by
  have hb : berLengthLength (.definite v.length) = .error .invalidLength := by
    simp only [berLengthLength]
    rw [if_neg (by omega), if_neg (by omega), if_neg (by omega), if_neg (by omega)]
  have ht : octetToBer.totalLen v = .definite v.length := by
    show berTotalLength 4 (.definite v.length) = _
    unfold berTotalLength berHeaderLength
    rw [hb]
    rfl
  have hh : headerLengthOr0 n (.definite v.length) = 0 := by
    unfold headerLengthOr0 berHeaderLength
    rw [hb]
    rfl
  constructor
  · show (Length.addNat (.definite 0) (headerLengthOr0 n (octetToBer.totalLen v))).add (octetToBer.totalLen v) = _
    rw [ht, hh]
    simp [Length.addNat, Length.add]
  · show (Length.addNat (.definite 0) (headerLengthOr0 n (octetToBer.totalLen v))).add (octetToBer.contentLen v) = _
    rw [ht, hh]
    show (Length.addNat (.definite 0) 0).add (.definite v.length) = _
    simp [Length.addNat, Length.add]

/-- The fields of `struct S { a: u32, #[tag_explicit(0)] b: bool, #[tag_implicit(1)] #[default(..)]
c: &[u8] }`, for encoding and for decoding. -/
def sampleEnc : EncFields [Nat, Bool, Bytes] :=
  .cons .untagged (uintToBer 4) (.cons (.explicit .contextSpecific 0) boolToBer
    (.cons (.implicit .contextSpecific 1) octetToBer .nil))
/-- The same for decoding BER. -/
def sampleBer : Fields [Nat, Bool, Bytes] :=
  .cons (.required .untagged (uintBer 4)) (.cons (.required (.explicit .contextSpecific 0) boolBer)
    (.cons (.default (.implicit .contextSpecific 1) octetBer [7]) .nil))
/-- The same for decoding DER. -/
def sampleDer : Fields [Nat, Bool, Bytes] :=
  .cons (.required .untagged (uintDer 4)) (.cons (.required (.explicit .contextSpecific 0) boolDer)
    (.cons (.default (.implicit .contextSpecific 1) octetDer [7]) .nil))

theorem sample_universal {n : Nat} (hn : n < 2 ^ 32) (b : Bool) {s : Bytes} (hs : s.length < 1000) :
    UniversalFields sampleEnc sampleBer sampleDer (n, b, s, ()) := by
  have e24 : (2 : Nat) ^ 24 = 16777216 := by decide
  have hu : UniversalValue (uintC 4) n := .uint 4 (by decide) (by simpa using hn)
  obtain ⟨cs, hw, hcl⟩ := uint_works (N := 4) (by decide) (v := n) (by simpa using hn)
  refine .required (c := uintC 4) hu ⟨cs.length, hw.enc.len, by omega⟩ trivial (by simp) ?_
  refine .required (c := boolC) .bool ⟨1, rfl, by decide⟩ (by show 0 < 2 ^ 32; decide) (fun _ k hk => ?_) ?_
  · have : boolToBer.totalLen b = .definite 3 := by cases b <;> decide +kernel
    rw [show boolC.enc.totalLen b = boolToBer.totalLen b from rfl, this] at hk
    injection hk with hk; omega
  · refine .default (c := octetC) .octetString ⟨s.length, rfl, by omega⟩ (by show 1 < 2 ^ 32; decide)
      (fun _ k hk => ?_) .nil
    obtain ⟨hd, cs, g1, g2, g3, g4, g5, g6, g7⟩ := fits_total (t := octetC.enc) (v := s)
      (Works.fits .octetString ⟨s.length, rfl, by omega⟩)
    rw [g6] at hk
    injection hk with hk
    have : s.length = cs.length := by
      have g2' : Length.definite s.length = .definite cs.length := g2
      injection g2'
    omega

/-- Cases: an OCTET STRING of 125 bytes meets the hypotheses; with 126 bytes (whose plain encoding has 128)
the length is one too large. -/
example : UniversalFields sampleEnc sampleBer sampleDer (258, true, List.replicate 125 0, ()) ∧
    overcount sampleEnc (258, true, List.replicate 125 0, ()) = 0 ∧
    UniversalFields sampleEnc sampleBer sampleDer (258, true, List.replicate 126 0, ()) ∧
    overcount sampleEnc (258, true, List.replicate 126 0, ()) = 1 ∧
    (structToBer 16 sampleEnc).contentLen (258, true, List.replicate 126 0, ()) = .definite 138 ∧
    ((structToBer 16 sampleEnc).toVec (258, true, List.replicate 126 0, ())).map List.length = .ok 140 :=
  ⟨sample_universal (by decide) _ (by simp), by decide +kernel, sample_universal (by decide) _ (by simp),
    by decide +kernel, by decide +kernel, by decide +kernel⟩

end Asn1

import Verif.Props.AnySet
import Verif.Props.Arrays
/-!
# Items of `2^24` bytes and more (C30, C33, C66, C98)

The announced length of an object with `2^24` to `2^32 - 1` content bytes is one too small (C18), and
so is the length of a list, array or set with such an item.
-/
namespace Asn1
open Spec Wr

variable {α β : Type}

theorem identOctets_bounds (c : Class) (b : Bool) {t : Nat} (h : t < 2 ^ 32) :
    1 ≤ (identOctets c b t).length ∧ (identOctets c b t).length < 2 ^ 33 := by
  rcases (writeTag_spec c b t h).2 with ⟨_, x, e, _⟩ | ⟨_, x, hi, last, e, _, _, _, _, h4⟩
  · rw [e]; simp only [List.length_cons, List.length_nil]; omega
  · rw [e]
    have : hi.length < 2 ^ 32 := by
      rcases h4 with rfl | h4
      · decide
      · have : hi.length < 128 ^ hi.length := Nat.lt_pow_self (by decide)
        omega
    simp only [List.length_cons, List.length_append, List.length_nil]
    omega

/-- The announced length of such an object. -/
theorem large_totalLen {t : ToBer α} {v : α} {cs : Bytes} (he : Encodes t v cs) (h1 : 2 ^ 24 ≤ cs.length)
    (h2 : cs.length < 2 ^ 32) :
    t.totalLen v = .definite ((t.fullOf v cs).length - 1) ∧
      cs.length + 6 ≤ (t.fullOf v cs).length ∧ (t.fullOf v cs).length < 2 ^ 34 := by
  have hb : berLengthLength (.definite cs.length) = .ok 4 := by
    simp only [berLengthLength]
    rw [if_neg (by omega), if_neg (by omega), if_neg (by omega), if_pos (by omega)]
  have htl := berTagLength_eq (t.tagInfo v).1 (t.tagInfo v).2.1 he.tag
  have hpos := identOctets_bounds (t.tagInfo v).1 (t.tagInfo v).2.1 he.tag
  have hlen : (t.fullOf v cs).length = berTagLength (t.tagInfo v).2.2 + 5 + cs.length := by
    unfold ToBer.fullOf full
    simp only [List.length_append, lenOctets_five h1 h2, htl]
  rw [← htl] at hpos
  refine ⟨?_, by omega, by omega⟩
  show berTotalLength (t.tagInfo v).2.2 (t.contentLen v) = _
  rw [he.len]
  unfold berTotalLength berHeaderLength
  rw [hb]
  show Length.definite (cs.length + (berTagLength (t.tagInfo v).2.2 + 4)) = Length.definite _
  rw [hlen]
  congr 1
  omega

/-- A list with this single item: its content, as announced, is all of the item but its last byte. -/
theorem large_list {t : ToBer α} {v : α} {cs : Bytes} (he : Encodes t v cs) (h1 : 2 ^ 24 ≤ cs.length)
    (h2 : cs.length < 2 ^ 32) {tag : Nat} (htag : tag < 2 ^ 32) :
    ∃ pre last, (listToBer tag t).toVec [v] = .ok (full .universal true tag pre ++ [last]) ∧
      pre ≠ [] ∧ pre.length < 2 ^ 64 ∧
      (∀ j : Input, j.data = pre → ∀ x, parseBerAny j ≠ .ok x) ∧
      ∀ j : Input, j.data = pre → ∀ x, parseDerAny j ≠ .ok x := by
  have hlt : cs.length < 2 ^ 64 := by omega
  obtain ⟨htot, hlo, hhi⟩ := large_totalLen he h1 h2
  have hwr := he.encode hlt
  generalize hL : (t.fullOf v cs).length = L at *
  have hcl : (listToBer tag t).contentLen [v] = .definite (L - 1) := by
    show Length.add (.definite 0) (t.totalLen v) = _
    rw [htot]
    simp [Length.add]
  obtain ⟨last, hlast⟩ : ∃ y, t.fullOf v cs = (t.fullOf v cs).take (L - 1) ++ [y] := by
    have : ((t.fullOf v cs).drop (L - 1)).length = 1 := by
      rw [List.length_drop, hL]; omega
    obtain ⟨y, hy⟩ := List.length_eq_one_iff.mp this
    exact ⟨y, by rw [← hy, List.take_append_drop]⟩
  have hpl : ((t.fullOf v cs).take (L - 1)).length = L - 1 := by
    rw [List.length_take, hL]; omega
  generalize hpre : (t.fullOf v cs).take (L - 1) = pre at hlast hpl
  have henc : (listToBer tag t).toVec [v] = .ok (full .universal true tag pre ++ [last]) := by
    have hh := header_writes (t := listToBer tag t) hcl (by omega) htag rfl
    have hc : Writes ((listToBer tag t).writeContent [v]) _ _ :=
      hwr.bind (f := fun sz => (pure (0 + sz) : Wr Nat)) (writes_pure _)
    have := hh.bind (f := fun n1 => (listToBer tag t).writeContent [v] >>=
      fun n2 => (pure (n1 + n2) : Wr Nat)) (hc.bind (writes_pure _))
    rw [hlast] at this
    unfold ToBer.toVec
    have h3 : ((listToBer tag t).encode [v]).exec = _ := this
    rw [h3]
    show Except.ok _ = Except.ok _
    unfold full
    rw [hpl]
    simp [listToBer]
  have hz : ∀ j : Input, j.data = pre → (extend j [last]).data = t.fullOf v cs ++ [] := by
    intro j hj
    rw [hlast, List.append_nil]
    simp [hj]
  refine ⟨pre, last, henc, ?_, by omega, fun j hj => ?_, fun j hj => ?_⟩
  · intro hh; rw [hh] at hpl; simp at hpl; omega
  · rintro ⟨r, a⟩ hx
    obtain ⟨a0, p1, p2, -⟩ := he.any hlt (hz j hj)
    have := good_parseBerAny.ext _ _ _ [last] hx
    rw [p1] at this
    have h3 := congrArg (fun x : PRes Any => match x with | .ok y => y.1.data | .error _ => []) this
    simp only [after_data, hz j hj] at h3
    simp at h3
  · rintro ⟨r, a⟩ hx
    obtain ⟨a0, p1, p2, -⟩ := he.any hlt (hz j hj)
    have := good_parseDerAny.ext _ _ _ [last] hx
    rw [p2] at this
    have h3 := congrArg (fun x : PRes Any => match x with | .ok y => y.1.data | .error _ => []) this
    simp only [after_data, hz j hj] at h3
    simp at h3

theorem isOk_false {ε γ : Type} {x : Except ε γ} (hx : ∀ y, x ≠ .ok y) : x.isOk = false := by
  cases x with
  | error e => rfl
  | ok y => exact absurd rfl (hx y)

/-- **C33** Deviation: an array with one item of `2^24` to `2^32 - 1` content bytes is written (without
an error) with a length one too small, and the parsers refuse the result. -/
theorem C33_large_deviation {c : Codec α} {v : α} (h : UniversalValue c v) (n : Nat)
    (hn : c.enc.contentLen v = .definite n) (h1 : 2 ^ 24 ≤ n) (h2 : n < 2 ^ 32) :
    ∃ bs, (arrayToBer 1 c.enc).toVec ⟨[v], rfl⟩ = .ok bs ∧
      ((arrayP 1 anyBer.parseBer c.ber).parseBer (Input.fromSlice bs)).isOk = false ∧
      ((arrayP 1 anyDer.parseDer c.der).parseDer (Input.fromSlice bs)).isOk = false := by
  obtain ⟨cs, hw, hl, ht⟩ := universal_works h
  rw [hl] at hn; injection hn with hn; subst hn
  obtain ⟨pre, last, e, hne, hlt, hb, hd⟩ := large_list hw.enc h1 h2 (tag := 16) (by decide)
  have hi : (Input.fromSlice (full .universal true 16 pre ++ [last])).data =
    full .universal true 16 pre ++ [last] := rfl
  have pb := parseBerAny_full _ .universal true 16 pre [last] (by decide) hlt hi
  have pd := parseDerAny_full _ .universal true 16 pre [last] (by decide) hlt hi
  have hcont := full_content _ _ _ _ pre [last] hi
  refine ⟨_, e, isOk_false fun ⟨r, w⟩ hh => ?_, isOk_false fun ⟨r, w⟩ hh => ?_⟩
  · obtain ⟨a, x, k1, -, k3⟩ := parseBer_ok.mp hh
    rw [pb] at k1; simp at k1
    obtain ⟨_, rfl⟩ := k1
    have k4 := (vecBer_content.mp (arrayP_content.mp k3)).2
    have hcont' : (first (after (Input.fromSlice (full .universal true 16 pre ++ [last]))
        ((full .universal true 16 pre).length - pre.length)) pre.length).data = pre := by
      rw [first_data, hcont]; simp
    generalize w.val = ws at k4
    cases k4 with
    | nil h => exact hne (hcont' ▸ h)
    | cons _ hp _ =>
      obtain ⟨a2, _, q1, _⟩ := parseBer_ok.mp hp
      exact hb _ hcont' _ q1
  · obtain ⟨a, x, k1, -, k3⟩ := parseDer_ok.mp hh
    rw [pd] at k1; simp at k1
    obtain ⟨_, rfl⟩ := k1
    have k4 := (vecDer_content.mp (arrayP_content.mp k3)).2
    have hcont' : (first (after (Input.fromSlice (full .universal true 16 pre ++ [last]))
        ((full .universal true 16 pre).length - pre.length)) pre.length).data = pre := by
      rw [first_data, hcont]; simp
    generalize w.val = ws at k4
    cases k4 with
    | nil h => exact hne (hcont' ▸ h)
    | cons _ hp _ =>
      obtain ⟨a2, _, q1, _⟩ := parseDer_ok.mp hp
      exact hd _ hcont' _ q1

/-- A case: an OCTET STRING of `2^24` bytes. -/
example : UniversalValue octetC (List.replicate (2 ^ 24) 0) ∧
    octetC.enc.contentLen (List.replicate (2 ^ 24) 0) = .definite (2 ^ 24) :=
  ⟨.octetString, congrArg Length.definite List.length_replicate⟩

/-- **C66** Deviation: the same for a sequence of generic objects with one object of `2^24` to
`2^32 - 1` content bytes. -/
theorem C66_large_deviation (a : Any) (ht : a.header.tag < 2 ^ 32) (h1 : 2 ^ 24 ≤ a.data.data.length)
    (h2 : a.data.data.length < 2 ^ 32) (tag : Nat) (htag : tag < 2 ^ 32) :
    ∃ bs, (listToBer tag anyToBer).toVec [a] = .ok bs ∧
      ((anySeqP tag anyBer.parseBer).parseBer (Input.fromSlice bs)).isOk = false ∧
      ((anySeqP tag anyDer.parseDer).parseDer (Input.fromSlice bs)).isOk = false := by
  obtain ⟨pre, last, e, hne, hlt, hb, hd⟩ := large_list (any_encodes a ht) h1 h2 htag
  have hi : (Input.fromSlice (full .universal true tag pre ++ [last])).data =
    full .universal true tag pre ++ [last] := rfl
  have pb := parseBerAny_full _ .universal true tag pre [last] htag hlt hi
  have pd := parseDerAny_full _ .universal true tag pre [last] htag hlt hi
  have hcont : (first (after (Input.fromSlice (full .universal true tag pre ++ [last]))
      ((full .universal true tag pre).length - pre.length)) pre.length).data = pre := by
    rw [first_data, full_content _ _ _ _ pre [last] hi]; simp
  refine ⟨_, e, isOk_false fun ⟨r, w⟩ hh => ?_, isOk_false fun ⟨r, w⟩ hh => ?_⟩
  · obtain ⟨a, x, k1, -, -, k4⟩ := (C66_any_sequence_accepts tag _ r w).1.mp hh
    rw [pb] at k1; simp at k1
    obtain ⟨_, rfl⟩ := k1
    rw [anyBer_parseBer] at k4
    cases k4 with
    | nil h => exact hne (hcont ▸ h)
    | stop _ hp _ => exact hb _ hcont _ hp
    | cons _ hp _ _ => exact hb _ hcont _ hp
  · obtain ⟨a, x, k1, -, -, k4⟩ := (C66_any_sequence_accepts tag _ r w).2.mp hh
    rw [pd] at k1; simp at k1
    obtain ⟨_, rfl⟩ := k1
    rw [anyDer_parseDer] at k4
    cases k4 with
    | nil h => exact hne (hcont ▸ h)
    | stop _ hp _ => exact hd _ hcont _ hp
    | cons _ hp _ _ => exact hd _ hcont _ hp

/-- A case: an object with `2^24` content bytes. -/
example : ∃ a : Any, a.header.tag < 2 ^ 32 ∧ 2 ^ 24 ≤ a.data.data.length ∧ a.data.data.length < 2 ^ 32 := by
  refine ⟨⟨⟨.priv, false, 34, .definite 1, none, none⟩, Input.fromSlice (List.replicate (2 ^ 24) 0)⟩,
    by decide, ?_⟩
  rw [show (Input.fromSlice (List.replicate (2 ^ 24) 0)).data.length = 2 ^ 24 from List.length_replicate]
  decide

/-- **C98** Deviation: the same for a set of generic objects. -/
theorem C98_large_deviation (H : HashImpl) (a : Any) (ht : a.header.tag < 2 ^ 32)
    (h1 : 2 ^ 24 ≤ a.data.data.length) (h2 : a.data.data.length < 2 ^ 32) :
    ∃ bs, (anySetToBer H).toVec ⟨[a]⟩ = .ok bs ∧
      ((anySetP H anyBer.parseBer).parseBer (Input.fromSlice bs)).isOk = false ∧
      ((anySetP H anyDer.parseDer).parseDer (Input.fromSlice bs)).isOk = false := by
  obtain ⟨bs, e, hb, hd⟩ := C66_large_deviation a ht h1 h2 17 (by decide)
  have hit : (AnySet.mk [a]).iter H = [a] := List.perm_singleton.mp (H.perm [a])
  have no : ∀ {ε γ : Type} {x : Except ε γ}, x.isOk = false → ∀ y, x ≠ .ok y := by
    rintro ε γ x hx y rfl; cases hx
  refine ⟨bs, ?_, isOk_false fun ⟨r, w⟩ hh => ?_, isOk_false fun ⟨r, w⟩ hh => ?_⟩
  · rw [← e, ← congrArg (listToBer 17 anyToBer).toVec hit]; rfl
  · exact no hb _ ((C66_any_sequence_accepts 17 _ r w.items).1.mpr ((C98_any_set_accepts H _ r w).1.mp hh))
  · exact no hd _ ((C66_any_sequence_accepts 17 _ r w.items).2.mpr ((C98_any_set_accepts H _ r w).2.mp hh))

/-- **C30** Deviation: with two such items and an item of two bytes after them, the announced length
leaves out just the last item. The list is written without an error, and the decoders accept what
was written as a list of the first two: the third is lost without an error. -/
theorem C30_silent_loss_deviation (x y : Bytes) (hx1 : 2 ^ 24 ≤ x.length) (hx2 : x.length < 2 ^ 32)
    (hy1 : 2 ^ 24 ≤ y.length) (hy2 : y.length < 2 ^ 32) :
    ∃ bs, (listToBer 16 octetC.enc).toVec [x, y, []] = .ok bs ∧
      (∃ r, (vecBer octetBer).parseBer (Input.fromSlice bs) = .ok (r, [x, y]) ∧ r.data = [0x04, 0x00]) ∧
      ∃ r, (vecDer octetDer).parseDer (Input.fromSlice bs) = .ok (r, [x, y]) ∧ r.data = [0x04, 0x00] := by
  have ex := octet_encodes x
  have ey := octet_encodes y
  have ez := octet_encodes []
  have wx := ex.encode (by omega)
  have wy := ey.encode (by omega)
  have wz := ez.encode (by decide)
  obtain ⟨tx, lx, ux⟩ := large_totalLen ex hx1 hx2
  obtain ⟨ty, ly, uy⟩ := large_totalLen ey hy1 hy2
  have tz := ez.totalLen (by decide)
  have hz : octetToBer.fullOf ([] : Bytes) [] = [0x04, 0x00] := by decide +kernel
  rw [hz] at wz tz
  have bx := (octet_works x).back (by omega)
  have byy := (octet_works y).back (by omega)
  have vx : octetToBer.toVec x = .ok (octetToBer.fullOf x x) := ex.toVec (by omega)
  have vy : octetToBer.toVec y = .ok (octetToBer.fullOf y y) := ey.toVec (by omega)
  generalize octetToBer.fullOf x x = fx at *
  generalize octetToBer.fullOf y y = fy at *
  have hcl : (listToBer 16 octetToBer).contentLen [x, y, []] = .definite (fx ++ fy).length := by
    have := lengthItems_eq (t := octetToBer) (vs := [x, y, []])
      (bss := [fx.take (fx.length - 1), fy.take (fy.length - 1), [4, 0]])
      (.cons (by rw [tx, List.length_take]; congr 1; omega)
        (.cons (by rw [ty, List.length_take]; congr 1; omega) (.cons tz .nil)))
    refine Eq.trans this ?_
    congr 1
    simp only [List.flatten_cons, List.flatten_nil, List.length_append, List.length_take, List.length_cons,
      List.length_nil]
    omega
  have hlt : (fx ++ fy).length < 2 ^ 64 := by rw [List.length_append]; omega
  have hc := writeItems_writes (t := octetToBer) (vs := [x, y, []]) (bss := [fx, fy, [4, 0]])
    (.cons wx (.cons wy (.cons wz .nil))) 0
  have hh := header_writes (t := listToBer 16 octetToBer) hcl hlt (show 16 < 2 ^ 32 by decide) rfl
  have henc : (listToBer 16 octetToBer).toVec [x, y, []] = .ok (full .universal true 16 (fx ++ fy) ++ [4, 0]) := by
    have := hh.bind (f := fun n1 => (listToBer 16 octetToBer).writeContent [x, y, []] >>=
      fun n2 => (pure (n1 + n2) : Wr Nat)) (Writes.bind hc (writes_pure _))
    unfold ToBer.toVec
    have h3 : ((listToBer 16 octetToBer).encode [x, y, []]).exec = _ := this
    rw [h3]
    show Except.ok _ = Except.ok _
    unfold full
    simp [listToBer]
  have hi : (Input.fromSlice (full .universal true 16 (fx ++ fy) ++ [4, 0])).data =
    full .universal true 16 (fx ++ fy) ++ [4, 0] := rfl
  have hcont : (first (after (Input.fromSlice (full .universal true 16 (fx ++ fy) ++ [4, 0]))
      ((full .universal true 16 (fx ++ fy)).length - (fx ++ fy).length)) (fx ++ fy).length).data = [fx, fy].flatten := by
    rw [first_data, full_content _ _ _ _ (fx ++ fy) [4, 0] hi, List.take_left' rfl]; simp
  have hne : Pointwise (fun v bs => octetToBer.toVec v = .ok bs ∧ bs ≠ []) [x, y] [fx, fy] :=
    .cons ⟨vx, fun h => by rw [h] at lx; simp at lx⟩ (.cons ⟨vy, fun h => by rw [h] at ly; simp at ly⟩ .nil)
  have hrest : (after (Input.fromSlice (full .universal true 16 (fx ++ fy) ++ [4, 0]))
      (full .universal true 16 (fx ++ fy)).length).data = [4, 0] := by
    rw [after_data, hi]; simp
  refine ⟨_, henc, ⟨_, parseBer_ok.mpr ⟨_, _, parseBerAny_full _ .universal true 16 _ [4, 0] (by decide) hlt hi, rfl,
    vecBer_content.mpr ⟨rfl, repeats_back hne (.cons bx.1 (.cons byy.1 .nil)) _ hcont⟩⟩, hrest⟩,
    _, parseDer_ok.mpr ⟨_, _, parseDerAny_full _ .universal true 16 _ [4, 0] (by decide) hlt hi, rfl,
    vecDer_content.mpr ⟨rfl, repeats_back hne (.cons bx.2.1 (.cons byy.2.1 .nil)) _ hcont⟩⟩, hrest⟩

/-- A case: two OCTET STRINGs of `2^24` bytes. -/
example : 2 ^ 24 ≤ (List.replicate (2 ^ 24) (0 : UInt8)).length ∧
    (List.replicate (2 ^ 24) (0 : UInt8)).length < 2 ^ 32 := by
  rw [List.length_replicate]; decide

end Asn1

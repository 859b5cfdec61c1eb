import Verif.Spec.RecursiveMutualValue
import Verif.Props.RecursiveValue
import Verif.Props.RecursiveMutual
/-!
# C137: values of two types that contain each other
-/
namespace Asn1
open Spec

theorem bud_self (real : Bool) : SelfType real Limb true (budF .ber) (budF .der) :=
  .named (fun v : Tup [Bool, List Limb] => Bud.mk v.1 v.2.1)
    (.struct 16 (.required .untagged (.built (.universal .bool)) (.required .untagged (.vec .self) .nil)))

theorem limb_self (real : Bool) :
    SelfType real Limb true (fun p => limbF .ber (budF .ber p)) (fun p => limbF .der (budF .der p)) :=
  .named (fun v : Tup [Nat, List Bud] => Limb.mk v.1 v.2.1)
    (.struct 16 (.required .untagged (.built (.universal (.uint 4 (by decide))))
      (.required .untagged (.vec (bud_self real)) .nil)))

theorem bud_same {t t' : ToBer Limb} (b : Bud) (h : ∀ l, sizeOf l < sizeOf b → SameAt l t t') :
    SameAt b (budE t) (budE t') := by
  obtain ⟨o, ls⟩ := b
  obtain ⟨h1, h2⟩ := twigs_same (t := t) (t' := t') ls fun u hu => h u (by
    have := List.sizeOf_lt_of_mem hu
    simp only [Bud.mk.sizeOf_spec]
    omega)
  refine ⟨rfl, ?_, rfl, ?_⟩
  · show EncFields.len _ _ _ = EncFields.len _ _ _
    simp only [EncFields.len, FieldTag.addLen, ToBer.totalLen, listToBer, Bud.fields, h1]
  · show EncFields.write _ _ _ = EncFields.write _ _ _
    simp only [EncFields.write, FieldTag.write, ToBer.encode, ToBer.writeHeader, listToBer, Bud.fields, h1, h2]

theorem limb_same {u u' : ToBer Bud} (x : Limb) (h : ∀ b, sizeOf b < sizeOf x → SameAt b u u') :
    SameAt x (limbE u) (limbE u') := by
  obtain ⟨l, bs⟩ := x
  obtain ⟨h1, h2⟩ := twigs_same (t := u) (t' := u') bs fun b hb => h b (by
    have := List.sizeOf_lt_of_mem hb
    simp only [Limb.mk.sizeOf_spec]
    omega)
  refine ⟨rfl, ?_, rfl, ?_⟩
  · show EncFields.len _ _ _ = EncFields.len _ _ _
    simp only [EncFields.len, FieldTag.addLen, ToBer.totalLen, listToBer, Limb.fields, h1]
  · show EncFields.write _ _ _ = EncFields.write _ _ _
    simp only [EncFields.write, FieldTag.write, ToBer.encode, ToBer.writeHeader, listToBer, Limb.fields, h1, h2]

theorem limb_descends : Descends (fun v : Limb => sizeOf v) fun t => limbE (budE t) :=
  ⟨fun _ _ => (rfl : EncoderKind.generic = .generic), fun _ _ v h => limb_same v fun b hb => bud_same b fun u hu => h u (Nat.lt_trans hu hb)⟩

/-- **C137** Two types that contain each other: the definitions of the two, each in terms of the other, determine both
encoders. -/
theorem C137_mutual_encoders {ρ σ : Type} {size : ρ → Nat} {E : ToBer σ → ToBer ρ} {D : ToBer ρ → ToBer σ}
    (h : Descends size fun t => E (D t)) :
    ∃ t u, (t = E u ∧ u = D t) ∧ ∀ t' u', t' = E u' → u' = D t' → t' = t ∧ u' = u := by
  obtain ⟨t, ht, hu⟩ := C137_one_encoder h
  refine ⟨t, D t, ⟨ht, rfl⟩, fun t' u' h1 h2 => ?_⟩
  subst h2
  obtain rfl := hu t' h1
  exact ⟨rfl, rfl⟩

theorem items_small {α : Type} {t : ToBer α} {vs : List α} {k : Nat} (h : (listToBer 16 t).contentLen vs = .definite k)
    {v : α} (hv : v ∈ vs) : ∃ j, j ≤ k ∧ t.contentLen v = .definite j := by
  have h5 : (vs.map t.totalLen).foldl Length.add (.definite 0) = .definite k := h
  obtain ⟨j, hj, h7⟩ := (sum_definite _ _ _ h5).2 _ (List.mem_map_of_mem hv)
  obtain ⟨j', hj', h8⟩ := total_definite h7
  exact ⟨j', by omega, h8⟩

theorem bud_value {t : ToBer Limb} {pb pd : Parser Limb} (o : Bool) (ls : List Limb)
    (hs : SmallContent (budE t) (.mk o ls)) (ih : ∀ l ∈ ls, SmallContent t l → Value true t pb pd l l) :
    Value true (budE t) (budF .ber pb) (budF .der pd) (.mk o ls) (.mk o ls) := by
  obtain ⟨m, hm, hlt⟩ := hs
  have hm' : ((Length.definite 0).add (boolC.enc.totalLen o)).add ((listToBer 16 t).totalLen ls) = .definite m := hm
  obtain ⟨a, b, h1, h2, h3⟩ := add_definite hm'
  obtain ⟨_, a', _, h1', h3'⟩ := add_definite h1
  obtain ⟨k, hk, h4⟩ := total_definite h2
  obtain ⟨k', hk', h4'⟩ := total_definite h1'
  have hvals : Values t pb pd ls ls := values_of ls fun u hu => by
    obtain ⟨j, hj, h8⟩ := items_small h4 hu
    exact ih u hu ⟨j, h8, by omega⟩
  refine Value.named Bud.fields (fun v : Tup [Bool, List Limb] => Bud.mk v.1 v.2.1) (.mk o ls) ?_ (w := (o, ls, ()))
  refine .struct 16 (by decide) ?_ rfl ⟨m, hm, hlt⟩
  refine .required .untagged trivial (.universal (c := boolC) .bool ⟨k', h4', by omega⟩)
    (by rintro ⟨_, _, h⟩; cases h) (by simp) ?_
  exact .required .untagged trivial (.vec hvals ⟨k, h4, by omega⟩) (by rintro ⟨_, _, h⟩; cases h) (by simp) .nil

theorem limb_value {t : ToBer Limb} {pb pd : Parser Limb} (ht : t = limbE (budE t))
    (hb : pb = limbF .ber (budF .ber pb)) (hd : pd = limbF .der (budF .der pd)) (n : Nat) :
    ∀ x : Limb, sizeOf x < n → x.Valid → SmallContent t x → Value true t pb pd x x := by
  induction n with
  | zero => intro x hx; omega
  | succ n ih =>
    intro x hx hv hs
    obtain ⟨l, bs⟩ := x
    obtain ⟨hl, hbs⟩ := hv
    have hs' : SmallContent (limbE (budE t)) (.mk l bs) := by rw [← ht]; exact hs
    obtain ⟨m, hm, hlt⟩ := hs'
    have hm' : ((Length.definite 0).add ((uintToBer 4).totalLen l)).add ((listToBer 16 (budE t)).totalLen bs) =
      .definite m := hm
    obtain ⟨a, b, h1, h2, h3⟩ := add_definite hm'
    obtain ⟨_, a', _, h1', h3'⟩ := add_definite h1
    obtain ⟨k, hk, h4⟩ := total_definite h2
    obtain ⟨k', hk', h4'⟩ := total_definite h1'
    have hvals : Values (budE t) (budF .ber pb) (budF .der pd) bs bs := values_of bs fun u hu => by
      obtain ⟨j, hj, h8⟩ := items_small h4 hu
      have hsz := List.sizeOf_lt_of_mem hu
      simp only [Limb.mk.sizeOf_spec] at hx
      obtain ⟨o, ls⟩ := u
      obtain ⟨hls⟩ := hbs _ hu
      refine bud_value o ls ⟨j, h8, by omega⟩ fun y hy hsm => ih y ?_ (hls y hy) hsm
      have := List.sizeOf_lt_of_mem hy
      simp only [Bud.mk.sizeOf_spec] at hsz
      omega
    have key : Value true (limbE (budE t)) (limbF .ber (budF .ber pb)) (limbF .der (budF .der pd)) (.mk l bs) (.mk l bs) := by
      refine Value.named Limb.fields (fun v : Tup [Nat, List Bud] => Limb.mk v.1 v.2.1) (.mk l bs) ?_
        (w := (l, bs, ()))
      refine .struct 16 (by decide) ?_ rfl ⟨m, hm, hlt⟩
      refine .required .untagged trivial (.universal (c := uintC 4) (.uint 4 (by decide) (by simpa using hl))
        ⟨k', h4', by omega⟩) (by rintro ⟨_, _, h⟩; cases h) (by simp) ?_
      exact .required .untagged trivial (.vec hvals ⟨k, h4, by omega⟩) (by rintro ⟨_, _, h⟩; cases h) (by simp) .nil
    rwa [← ht, ← hb, ← hd] at key

/-- **C137** (partial) Every value of `struct Limb { label: u32, buds: Vec<Bud> }` and of
`struct Bud { open: bool, limbs: Vec<Limb> }`, nested in any way, with fewer than `2^24` bytes of content: what is written
is one object, the lengths announced and returned are right, and it comes back as this value through `parse_ber` and
`parse_der`, whatever follows. Missing: other types that contain each other. -/
theorem C137_mutual_roundtrip_partial {t : ToBer Limb} {u : ToBer Bud} {pb pd : Parser Limb} {qb qd : Parser Bud}
    (ht : t = limbE u) (hu : u = budE t) (hpb : pb = limbF .ber qb) (hqb : qb = budF .ber pb)
    (hpd : pd = limbF .der qd) (hqd : qd = budF .der pd) :
    (∀ x : Limb, x.Valid → SmallContent t x →
      LengthsRight t x ∧ InputBack t pb.parseBer x x ∧ InputBack t pd.parseDer x x) ∧
    (∀ x : Bud, x.Valid → SmallContent u x →
      LengthsRight u x ∧ InputBack u qb.parseBer x x ∧ InputBack u qd.parseDer x x) := by
  subst hu hqb hqd
  refine ⟨fun x hv hs => ?_, fun x hv hs => ?_⟩
  · have h := limb_value ht hpb hpd _ x (Nat.lt_succ_self _) hv hs
    exact ⟨(C83_one_object h).1, C83_roundtrip_partial h⟩
  · obtain ⟨o, ls⟩ := x
    obtain ⟨hls⟩ := hv
    have h := bud_value (pb := pb) (pd := pd) o ls hs fun y hy => limb_value ht hpb hpd _ y (Nat.lt_succ_self _) (hls y hy)
    exact ⟨(C83_one_object h).1, C83_roundtrip_partial h⟩

/-- A case: a limb with two buds, on the first of which there is a limb. -/
def limbCase : Limb := .mk 7 [.mk true [.mk 300 []], .mk false []]

theorem limbCase_valid : limbCase.Valid := by
  refine .mk (by decide) fun b h => ?_
  rcases List.mem_cons.mp h with rfl | h
  · refine .mk fun l h => ?_
    rcases List.mem_cons.mp h with rfl | h
    · exact .mk (by decide) (by simp)
    · cases h
  · rcases List.mem_cons.mp h with rfl | h
    · exact .mk (by simp)
    · cases h

example : ∃ t u pb pd qb qd, (t = limbE u ∧ u = budE t) ∧ (pb = limbF .ber qb ∧ qb = budF .ber pb) ∧
    (pd = limbF .der qd ∧ qd = budF .der pd) ∧ SmallContent t limbCase ∧
    t.toVec limbCase = .ok [0x30, 27, 2, 1, 7, 0x30, 22, 0x30, 13, 1, 1, 0xff, 0x30, 8, 0x30, 6, 2, 2, 1, 0x2c, 0x30, 0,
      0x30, 5, 1, 1, 0, 0x30, 0] ∧ InputBack t pd.parseDer limbCase limbCase := by
  obtain ⟨t, u, ⟨ht, hu⟩, _⟩ := C137_mutual_encoders limb_descends
  obtain ⟨⟨pb, qb, ⟨h1, h2⟩, _⟩, pd, qd, ⟨h3, h4⟩, _⟩ := C136_mutual (limb_self false)
  let base : ToBer Limb := ⟨.generic, fun _ => .indefinite, fun _ => (.universal, true, 16), fun _ => pure 0⟩
  have h5 : SameAt limbCase (encCalls (fun t => limbE (budE t)) base (sizeOf limbCase + 1)) t := by
    have := encCalls_same limb_descends base t (sizeOf limbCase + 1) limbCase _ (sizeOf limbCase + 1)
      (Nat.lt_succ_self _) (Nat.le_refl _) (Nat.le_refl _)
    rwa [encCalls_fixed (E := fun t => limbE (budE t)) (t := t) (by show t = limbE (budE t); rw [← hu]; exact ht)] at this
  have hs : SmallContent t limbCase := ⟨27, by rw [← h5.2.1]; decide +kernel, by decide⟩
  refine ⟨t, u, pb, pd, qb, qd, ⟨ht, hu⟩, ⟨h1, h2⟩, ⟨h3, h4⟩, hs, ?_,
    ((C137_mutual_roundtrip_partial ht hu h1 h2 h3 h4).1 _ limbCase_valid hs).2.2⟩
  have : t.toVec limbCase = (encCalls (fun t => limbE (budE t)) base (sizeOf limbCase + 1)).toVec limbCase := by
    unfold ToBer.toVec ToBer.encode ToBer.writeHeader
    rw [h5.1, h5.2.1, h5.2.2.1, h5.2.2.2]
  rw [this]
  decide +kernel

end Asn1

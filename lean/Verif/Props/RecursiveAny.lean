import Verif.Props.RecursiveMutualValue
/-!
# C137: any type that contains itself

What is to be shown for one type: that the rules of `Value` (C83), with the smaller values of the type as premises, give
the value.
-/
namespace Asn1
open Spec
variable {ρ : Type}

/-- **C137** (partial) Every type that contains itself, with encoder `t` and parsers `pb`, `pd`: if the rules of `Value`
lead from the smaller values of the type to each of its values, then what is written for a value is one object, the
lengths announced and returned are right, and it comes back as this value through `parse_ber` and `parse_der`, whatever
follows. Missing: that the rules do so is to be shown for each type. -/
theorem C137_any_type_partial {size : ρ → Nat} {Good : ρ → Prop} {t : ToBer ρ} {pb pd : Parser ρ}
    (step : ∀ x, Good x → SmallContent t x →
      (∀ y, size y < size x → Good y → SmallContent t y → Value true t pb pd y y) → Value true t pb pd x x)
    (x : ρ) (hg : Good x) (hs : SmallContent t x) :
    LengthsRight t x ∧ InputBack t pb.parseBer x x ∧ InputBack t pd.parseDer x x := by
  have key : ∀ n x, size x < n → Good x → SmallContent t x → Value true t pb pd x x := by
    intro n
    induction n with
    | zero => intro x hx; omega
    | succ n ih => exact fun x hx hg hs => step x hg hs fun y hy => ih y (by omega)
  have h := key _ x (Nat.lt_succ_self _) hg hs
  exact ⟨(C83_one_object h).1, C83_roundtrip_partial h⟩

/-! ### A case: `struct Vine { #[tag_explicit(0)] label: u32, #[tag_explicit(1)] vines: Vec<Vine> }` -/

/-- The type. -/
inductive Vine where
  | mk (label : Nat) (vines : List Vine)

/-- The fields. -/
def Vine.fields : Vine → Tup [Nat, List Vine]
  | .mk l vs => (l, vs, ())

/-- All labels are values of `u32`. -/
inductive Vine.Valid : Vine → Prop
  | mk {l : Nat} {vs : List Vine} (hl : l < 2 ^ 32) (hv : ∀ v ∈ vs, Valid v) : Valid (.mk l vs)

/-- The text of the parsers. -/
def vineF (m : Rules) (p : Parser Vine) : Parser Vine :=
  (structP m 16 (.cons (.required (.explicit .contextSpecific 0) (match m with | .ber => (uintC 4).ber | .der => (uintC 4).der))
    (.cons (.required (.explicit .contextSpecific 1) (match m with | .ber => vecBer p | .der => vecDer p)) .nil))).map
      fun v => .mk v.1 v.2.1

/-- The text of the encoder. -/
def vineE (t : ToBer Vine) : ToBer Vine :=
  named (structToBer 16 (.cons (.explicit .contextSpecific 0) (uintToBer 4)
    (.cons (.explicit .contextSpecific 1) (listToBer 16 t) .nil))) Vine.fields

theorem vine_self (real : Bool) : SelfType real Vine true (vineF .ber) (vineF .der) :=
  .named (fun v : Tup [Nat, List Vine] => Vine.mk v.1 v.2.1)
    (.struct 16 (.required _ (.built (.universal (.uint 4 (by decide)))) (.required _ (.vec .self) .nil)))

theorem vine_descends : Descends (fun v : Vine => sizeOf v) vineE := by
  refine ⟨fun _ _ => rfl, fun t t' v h => ?_⟩
  obtain ⟨l, ts⟩ := v
  obtain ⟨h1, h2⟩ := twigs_same (t := t) (t' := t') ts fun u hu => h u (by
    have := List.sizeOf_lt_of_mem hu
    show sizeOf u < sizeOf (Vine.mk l ts)
    simp only [Vine.mk.sizeOf_spec]
    omega)
  refine ⟨rfl, ?_, rfl, ?_⟩
  · show EncFields.len _ _ _ = EncFields.len _ _ _
    simp only [EncFields.len, FieldTag.addLen, ToBer.totalLen, listToBer, Vine.fields, h1]
  · show EncFields.write _ _ _ = EncFields.write _ _ _
    simp only [EncFields.write, FieldTag.write, ToBer.encodeTaggedExplicit, ToBer.totalLen, ToBer.writeHeader, listToBer, Vine.fields, h1, h2]

theorem addNat_definite {a : Length} {k n : Nat} (h : a.addNat k = .definite n) : ∃ x, x ≤ n ∧ a = .definite x := by
  cases a with
  | indefinite => cases h
  | definite x => injection h with h; exact ⟨x, by omega, rfl⟩

theorem vine_step {t : ToBer Vine} {pb pd : Parser Vine} (ht : t = vineE t) (hb : pb = vineF .ber pb)
    (hd : pd = vineF .der pd) (x : Vine) (hv : x.Valid) (hs : SmallContent t x)
    (ih : ∀ y, sizeOf y < sizeOf x → y.Valid → SmallContent t y → Value true t pb pd y y) : Value true t pb pd x x := by
  obtain ⟨l, ts⟩ := x
  obtain ⟨hl, hts⟩ := hv
  have hs' : SmallContent (vineE t) (.mk l ts) := by rw [← ht]; exact hs
  obtain ⟨m, hm, hlt⟩ := hs'
  have hm' : ((((Length.definite 0).addNat (headerLengthOr0 0 ((uintToBer 4).totalLen l))).add
      ((uintToBer 4).totalLen l)).addNat (headerLengthOr0 1 ((listToBer 16 t).totalLen ts))).add
      ((listToBer 16 t).totalLen ts) = .definite m := hm
  obtain ⟨a, b, h1, h2, h3⟩ := add_definite hm'
  obtain ⟨c, hc, h1⟩ := addNat_definite h1
  obtain ⟨_, a', _, h1', h3'⟩ := add_definite h1
  obtain ⟨k, hk, h4⟩ := total_definite h2
  obtain ⟨k', hk', h4'⟩ := total_definite h1'
  have hvals : Values t pb pd ts ts := values_of ts fun u hu => by
    obtain ⟨j, hj, h8⟩ := items_small h4 hu
    refine ih u ?_ (hts u hu) ⟨j, h8, by omega⟩
    have := List.sizeOf_lt_of_mem hu
    simp only [Vine.mk.sizeOf_spec]
    omega
  have key : Value true (vineE t) (vineF .ber pb) (vineF .der pd) (.mk l ts) (.mk l ts) := by
    refine Value.named Vine.fields (fun v : Tup [Nat, List Vine] => Vine.mk v.1 v.2.1) (.mk l ts) ?_ (w := (l, ts, ()))
    refine .struct 16 (by decide) ?_ rfl ⟨m, hm, hlt⟩
    refine .required (.explicit .contextSpecific 0) (show _ < _ by decide) (.universal (c := uintC 4) (.uint 4 (by decide)
      (by simpa using hl)) ⟨k', h4', by omega⟩) (by rintro ⟨_, _, h⟩; cases h)
      (fun _ n hn => by cases h1'.symm.trans hn; omega) ?_
    exact .required (.explicit .contextSpecific 1) (show _ < _ by decide) (.vec hvals ⟨k, h4, by omega⟩)
      (by rintro ⟨_, _, h⟩; cases h) (fun _ n hn => by cases h2.symm.trans hn; omega) .nil
  rwa [← ht, ← hb, ← hd] at key

/-- A vine with two vines, the second of which has one. -/
def vineCase : Vine := .mk 7 [.mk 8 [], .mk 9 [.mk 300 []]]

theorem vineCase_valid : vineCase.Valid := by
  refine .mk (by decide) fun t h => ?_
  rcases List.mem_cons.mp h with rfl | h
  · exact .mk (by decide) (by simp)
  · rcases List.mem_cons.mp h with rfl | h
    · refine .mk (by decide) fun t h => ?_
      rcases List.mem_cons.mp h with rfl | h
      · exact .mk (by decide) (by simp)
      · cases h
    · cases h

/-- The hypotheses are met for this type: the encoder and the parsers are the ones there are, and all its values come
back. -/
example : ∃ t pb pd, t = vineE t ∧ pb = vineF .ber pb ∧ pd = vineF .der pd ∧ SmallContent t vineCase ∧
    InputBack t pd.parseDer vineCase vineCase ∧
    ∀ x : Vine, x.Valid → SmallContent t x → InputBack t pb.parseBer x x := by
  obtain ⟨t, ht, _⟩ := C137_one_encoder vine_descends
  obtain ⟨⟨pb, hb, _⟩, pd, hd, _⟩ := C136_one_parser (vine_self false)
  let base : ToBer Vine := ⟨.generic, fun _ => .indefinite, fun _ => (.universal, true, 16), fun _ => pure 0⟩
  have h4 : SameAt vineCase (encCalls vineE base (sizeOf vineCase + 1)) t := by
    have := encCalls_same vine_descends base t (sizeOf vineCase + 1) vineCase _ (sizeOf vineCase + 1)
      (Nat.lt_succ_self _) (Nat.le_refl _) (Nat.le_refl _)
    rwa [encCalls_fixed ht] at this
  have hs : SmallContent t vineCase := ⟨43, by rw [← h4.2.1]; decide +kernel, by decide⟩
  have all := C137_any_type_partial (size := fun v : Vine => sizeOf v) (vine_step ht hb hd)
  exact ⟨t, pb, pd, ht, hb, hd, hs, (all _ vineCase_valid hs).2.2, fun x hv hs => (all x hv hs).2.1⟩

end Asn1

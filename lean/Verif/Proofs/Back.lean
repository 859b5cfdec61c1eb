import Verif.Spec.Codec
import Verif.Props.Integer
import Verif.Props.Typed
/-!
# Round-trips and safety, per type, from the facts about contents
-/
namespace Asn1
open Spec Wr

/-! ### Round-trips from `Encodes` and `Decodes` -/

variable {α : Type}

theorem back_ber {t : ToBer α} {p : Parser α} {v w : α} {cs : Bytes} (he : Encodes t v cs)
    (hs : cs.length < 2 ^ 64) (hacc : p.acceptTag (t.tagInfo v).2.2 = true)
    (hd : Decodes p (t.tagInfo v).2.1 cs w) : ParseBerBack t p v w ∧ FromBerBack t p v w := by
  have key : ∀ (rest : Bytes) (i : Input), i.data = t.fullOf v cs ++ rest →
      p.parseBer i = .ok (after i (t.fullOf v cs).length, w) := by
    intro rest i hi
    have h := parseBerAny_full i _ _ _ cs rest he.tag hs hi
    have hdat : (first (after i ((t.fullOf v cs).length - cs.length)) cs.length).data = cs := by
      rw [first_data, ToBer.fullOf, full_content i _ _ _ cs rest hi]; simp
    obtain ⟨x, hx⟩ := hd ⟨(t.tagInfo v).1, (t.tagInfo v).2.1, (t.tagInfo v).2.2,
      .definite cs.length, some (identOctets (t.tagInfo v).1 (t.tagInfo v).2.1 (t.tagInfo v).2.2),
      some (first i ((t.fullOf v cs).length - cs.length))⟩ _ rfl rfl hdat
    exact parseBer_ok.mpr ⟨_, x, h, hacc, hx⟩
  refine ⟨⟨_, he.toVec hs, key⟩, _, he.toVec hs, fun rest => ?_⟩
  refine (C38_ber_apis_agree p _ _ _).mpr ⟨_, key rest _ rfl, ?_⟩
  simp [Input.fromSlice]

theorem back_der {t : ToBer α} {p : Parser α} {v w : α} {cs : Bytes} (he : Encodes t v cs)
    (hs : cs.length < 2 ^ 64) (hacc : p.acceptTag (t.tagInfo v).2.2 = true)
    (hd : Decodes p (t.tagInfo v).2.1 cs w) : ParseDerBack t p v w := by
  refine ⟨_, he.toVec hs, fun rest i hi => ?_⟩
  have h := parseDerAny_full i _ _ _ cs rest he.tag hs hi
  have hdat : (first (after i ((t.fullOf v cs).length - cs.length)) cs.length).data = cs := by
    rw [first_data, ToBer.fullOf, full_content i _ _ _ cs rest hi]; simp
  obtain ⟨x, hx⟩ := hd ⟨(t.tagInfo v).1, (t.tagInfo v).2.1, (t.tagInfo v).2.2,
    .definite cs.length, some (identOctets (t.tagInfo v).1 (t.tagInfo v).2.1 (t.tagInfo v).2.2),
    some (first i ((t.fullOf v cs).length - cs.length))⟩ _ rfl rfl hdat
  exact parseDer_ok.mpr ⟨_, x, h, hacc, hx⟩

theorem back_fromDer {t : ToBer α} {p : Parser α} {check : Any → Except SErr Unit} {v w : α}
    {cs : Bytes} (he : Encodes t v cs)
    (hs : cs.length < 2 ^ 64) (hacc : p.acceptTag (t.tagInfo v).2.2 = true)
    (hd : Decodes p (t.tagInfo v).2.1 cs w)
    (hc : ∀ a : Any, a.header.constructed = (t.tagInfo v).2.1 →
      a.header.length = .definite cs.length → a.data.data = cs → check a = .ok ()) :
    FromDerBack t p check v w := by
  refine ⟨_, he.toVec hs, fun rest => ?_⟩
  let i := Input.fromSlice (t.fullOf v cs ++ rest)
  have h := parseDerAny_full i _ _ _ cs rest he.tag hs rfl
  have hdat : (first (after i ((t.fullOf v cs).length - cs.length)) cs.length).data = cs := by
    rw [first_data, ToBer.fullOf, full_content i _ _ _ cs rest rfl]; simp
  obtain ⟨x, hx⟩ := hd ⟨(t.tagInfo v).1, (t.tagInfo v).2.1, (t.tagInfo v).2.2,
    .definite cs.length, some (identOctets (t.tagInfo v).1 (t.tagInfo v).2.1 (t.tagInfo v).2.2),
    some (first i ((t.fullOf v cs).length - cs.length))⟩ _ rfl rfl hdat
  refine fromDer_ok.mpr ⟨_, _, x, h, ?_, hc _ rfl rfl hdat, hacc, hx⟩
  simp [i, Input.fromSlice, ToBer.fullOf]

/-! ### Safety of the building blocks -/

theorem safe_assertPrimitive (h : Header) (i : Input) : NoPanic (h.assertPrimitive i) := by
  unfold Header.assertPrimitive nomErr NoPanic; cases h.constructed <;> simp

theorem NoPanic.bind {β γ : Type} {x : Except PErr β} {f : β → Except PErr γ} (h1 : NoPanic x)
    (h2 : ∀ a, x = .ok a → NoPanic (f a)) : NoPanic (x >>= f) :=
  ⟨bind_not h1.1 fun a ha => (h2 a ha).1, bind_not h1.2 fun a ha => (h2 a ha).2⟩

theorem noPanic_nomErr {β : Type} (i : Input) (e : InnerError) :
    NoPanic (nomErr i e : Except PErr β) := by simp [NoPanic, nomErr]

theorem noPanic_ok {β : Type} (x : β) : NoPanic (.ok x : Except PErr β) := by simp [NoPanic]

theorem noPanic_beU8 (i : Input) : NoPanic (beU8 i) := by
  unfold beU8 NoPanic; cases i.data <;> simp

theorem noPanic_takeS (n : Nat) (i : Input) : NoPanic (takeS n i) :=
  ⟨takeS_not (by simp), takeS_not (by simp)⟩

theorem noPanic_atEnd (i : Input) : NoPanic i.atEnd := by
  rw [atEnd_eq]; exact noPanic_ok _

theorem noPanic_liftErr {β : Type} (i : Input) (x : Except InnerError β) :
    NoPanic (liftErr i x) := by
  cases x <;> simp [liftErr, nomErr, NoPanic]

theorem safe_uint (N : Nat) : (uintBer N).Safe ∧ (uintDer N).Safe := by
  have h : (uintBer N).Safe := fun hd i =>
    NoPanic.bind (safe_assertPrimitive hd i) fun _ _ => NoPanic.bind (noPanic_liftErr _ _)
      fun _ _ => NoPanic.bind (noPanic_atEnd i) fun _ _ => noPanic_ok _
  refine ⟨h, fun hd i => NoPanic.bind ?_ fun _ _ => h hd i⟩
  unfold checkDerIntInput; split
  · exact noPanic_ok _
  · exact noPanic_nomErr _ _

theorem safe_int (N : Nat) : (intBer N).Safe ∧ (intDer N).Safe := by
  have hv : ∀ i, NoPanic (intValue N i) := by
    intro i
    unfold intValue
    split
    · exact NoPanic.bind (noPanic_liftErr _ _) fun _ _ => noPanic_ok _
    · refine NoPanic.bind (noPanic_liftErr _ _) fun _ _ => ?_
      simp only
      split
      · exact noPanic_nomErr _ _
      · exact noPanic_ok _
  have h : (intBer N).Safe := fun hd i =>
    NoPanic.bind (safe_assertPrimitive hd i) fun _ _ => NoPanic.bind (hv i)
      fun _ _ => NoPanic.bind (noPanic_atEnd i) fun _ _ => noPanic_ok _
  refine ⟨h, fun hd i => NoPanic.bind ?_ fun _ _ => h hd i⟩
  unfold checkDerIntInput; split
  · exact noPanic_ok _
  · exact noPanic_nomErr _ _

theorem noPanic_derContent (h : Header) (i : Input) : NoPanic (derContent h i) :=
  ⟨(good_derContent h).noPanic i, (good_derContent h).noDiverge i⟩

theorem safe_integer : integerBer.Safe ∧ integerDer.Safe := by
  have h : integerBer.Safe := fun hd i =>
    NoPanic.bind (safe_assertPrimitive hd i) fun _ _ => NoPanic.bind (noPanic_derContent hd i)
      fun x _ => by
        obtain ⟨a, b⟩ := x
        simp only
        split
        · exact noPanic_nomErr _ _
        · exact noPanic_ok _
  refine ⟨h, fun hd i => NoPanic.bind ?_ fun _ _ => h hd i⟩
  unfold checkDerIntInput; split
  · exact noPanic_ok _
  · exact noPanic_nomErr _ _

theorem safe_checkDerInt (a : Any) : NoPanicS (checkDerInt a) := by
  unfold checkDerInt assertPrimitiveS assertDefiniteS NoPanicS
  cases a.header.constructed <;> cases a.header.length.isDefinite <;>
    cases checkDerIntBytes a.data.data <;> simp [Bind.bind, Except.bind]

end Asn1

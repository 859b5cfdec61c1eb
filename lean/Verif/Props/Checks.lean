import Verif.Spec.Checks
import Verif.Props.SeqCheck
import Verif.Props.DeriveSlice
import Verif.Props.RealAgree
import Verif.Props.ContainersSafe
import Verif.Proofs.Built
/-!
# The DER constraints of an object (C127)
-/
namespace Asn1
open Spec

variable {α : Type}

theorem assertDefiniteS_iff {a : Any} : assertDefiniteS a.header.length = .ok () ↔ DefiniteObj a := by
  unfold assertDefiniteS DefiniteObj
  cases a.header.length <;> simp [Length.isDefinite]

theorem assertPrimitiveS_iff {a : Any} : assertPrimitiveS a.header = .ok () ↔ PrimitiveObj a := by
  unfold assertPrimitiveS PrimitiveObj
  cases a.header.constructed <;> simp

theorem not_primitive {a : Any} : ¬ PrimitiveObj a ↔ a.header.constructed = true := by
  unfold PrimitiveObj
  cases a.header.constructed <;> simp

theorem bindU {x : Except SErr Unit} {f : Unit → Except SErr Unit} :
    (x >>= f) = .ok () ↔ x = .ok () ∧ f () = .ok () := by
  rw [bindS_eq_ok]
  exact ⟨fun ⟨_, h1, h2⟩ => ⟨h1, h2⟩, fun ⟨h1, h2⟩ => ⟨_, h1, h2⟩⟩

theorem objectsDer_iff {b : Bytes} {xs : List Any} :
    RepeatsB (wrapBerParser parseDerAny) b xs ↔ ObjectsDer b xs := by
  constructor
  · intro h
    induction h with
    | nil => exact .nil
    | cons h hp _ ih => exact .cons h hp ih
  · intro h
    induction h with
    | nil => exact .nil
    | cons h hp _ ih => exact .cons h hp ih

theorem trailingZeros_iff (b : UInt8) (n : Nat) : ¬ trailingZeros b < n ↔ n ≤ 8 ∧ 2 ^ n ∣ b.toNat := by
  have key : ∀ m < 256, ∀ n < 9, (¬ trailingZeros (UInt8.ofNat m) < n ↔ 2 ^ n ∣ m) ∧
      trailingZeros (UInt8.ofNat m) ≤ 8 := by decide +kernel
  have hb := b.toNat_lt
  by_cases hn : n < 9
  · have := (key b.toNat hb n hn).1
    rw [UInt8.ofNat_toNat] at this
    rw [this]
    exact ⟨fun h => ⟨by omega, h⟩, fun h => h.2⟩
  · have := (key b.toNat hb 0 (by omega)).2
    rw [UInt8.ofNat_toNat] at this
    exact ⟨fun h => by omega, fun h => by omega⟩

theorem getLastD_append (b : UInt8) (bs front : Bytes) (last : UInt8) (h : b :: bs = front ++ [last]) :
    (b :: bs).getLastD 0 = last := by
  rw [h]; simp [List.getLastD_eq_getLast?]

theorem bitCheck_iff {a : Any} : bitCheck a = .ok () ↔ PrimitiveObj a ∧ PaddedWithZeros a.data.data := by
  unfold bitCheck
  rw [bindU, assertPrimitiveS_iff]
  refine and_congr_right fun _ => ?_
  match a.data.data with
  | [] => simp [PaddedWithZeros]
  | [n] => by_cases h : n = 0 <;> simp [PaddedWithZeros, h]
  | n :: b :: bs =>
    have hne : b :: bs ≠ [] := by simp
    have h0 : b :: bs = (b :: bs).dropLast ++ [(b :: bs).getLast hne] := (List.dropLast_concat_getLast hne).symm
    have h1 := getLastD_append b bs _ _ h0
    simp only [PaddedWithZeros]
    by_cases h : trailingZeros ((b :: bs).getLastD 0) < n.toNat
    · rw [if_pos h]
      refine ⟨fun h => (nomatch h), fun ⟨front, last, h2, h3⟩ => ?_⟩
      rw [getLastD_append b bs _ _ h2] at h
      exact absurd h ((trailingZeros_iff last n.toNat).mpr h3)
    · rw [if_neg h]
      refine ⟨fun _ => ⟨_, _, h0, ?_⟩, fun _ => rfl⟩
      rw [h1] at h
      exact (trailingZeros_iff _ _).mp h

theorem explicitCheck_iff {check : Any → Except SErr Unit} {a : Any} :
    explicitCheck check a = .ok () ↔ DefiniteObj a ∧ ∃ x, StartsWithBer a x ∧ check x = .ok () := by
  unfold explicitCheck
  rw [bindU, assertDefiniteS_iff]
  refine and_congr_right fun _ => ?_
  unfold StartsWithBer
  cases wrapBerParser parseBerAny a.data.data with
  | error e => simp
  | ok y => obtain ⟨r, x⟩ := y; simp

theorem taggedParserExplicitCheck_iff {check : Any → Except SErr Unit} {a : Any} :
    taggedParserExplicitCheck check a = .ok () ↔ DefiniteObj a ∧ ∃ x, StartsWithDer a x ∧ check x = .ok () := by
  unfold taggedParserExplicitCheck
  rw [bindU, assertDefiniteS_iff]
  refine and_congr_right fun _ => ?_
  unfold StartsWithDer
  cases wrapBerParser parseDerAny a.data.data with
  | error e => simp
  | ok y => obtain ⟨r, x⟩ := y; simp

theorem seqCheck_iff {tag : Nat} {check : Any → Except SErr Unit} {a : Any} :
    seqCheck tag check a = .ok () ↔ a.header.tag = tag ∧ ¬ PrimitiveObj a ∧
      ∃ xs, ObjectsDer a.data.data xs ∧ ∀ x ∈ xs, check x = .ok () := by
  rw [C30_check_constraints, not_primitive]
  simp only [objectsDer_iff]

mutual
/-- **C127** Exactly which objects `check_constraints` accepts, for every type. -/
theorem C127_check_constraints : ∀ (t : CheckTy) (a : Any), t.check a = .ok () ↔ Satisfies t a
  | .null, a | .utcTime, a | .raw, a => by simp [CheckTy.check, Satisfies, nullCheck, utcCheck, rawCheck]
  | .boolean, a => by
    simp only [CheckTy.check, Satisfies, booleanCheck]
    cases a.data.data with
    | nil => simp
    | cons c cs => by_cases h0 : c = 0 <;> by_cases h1 : c = 255 <;> simp [h0, h1]
  | .integer, a => by
    simp only [CheckTy.check, Satisfies, checkDerInt]
    rw [bindU, bindU, assertPrimitiveS_iff, assertDefiniteS_iff, ← checkDerIntBytes_ok]
    refine and_congr_right fun _ => and_congr_right fun _ => ?_
    cases checkDerIntBytes a.data.data <;> simp
  | .enumerated, a | .any, a => by
    simp only [CheckTy.check, Satisfies, enumeratedCheck, anyCheck]
    exact assertDefiniteS_iff
  | .octetString, a | .charString, a => by
    simp only [CheckTy.check, Satisfies, octetCheck, strCheck]
    exact assertPrimitiveS_iff
  | .bitString, a => by simp only [CheckTy.check, Satisfies]; exact bitCheck_iff
  | .oid, a | .real, a => by
    simp only [CheckTy.check, Satisfies, oidCheck, realCheck]
    rw [bindU, assertPrimitiveS_iff, assertDefiniteS_iff]
  | .generalizedTime, a => by
    simp only [CheckTy.check, Satisfies]
    rw [genCheck_ok, List.getLast?_eq_some_iff]
  | .embeddedPdv, a => by
    simp only [CheckTy.check, Satisfies, pdvCheck]
    rw [bindU, assertDefiniteS_iff, assertConstructedS_ok, not_primitive]
    exact And.comm
  | .option t, a => by
    simp only [CheckTy.check, Satisfies, optionCheck]
    exact C127_check_constraints t a
  | .explicit t, a => by
    simp only [CheckTy.check, Satisfies]
    rw [explicitCheck_iff]
    simp only [C127_check_constraints t]
  | .implicit innerTag t, a => by
    simp only [CheckTy.check, Satisfies, implicitCheck]
    rw [bindU, assertDefiniteS_iff, C127_check_constraints t]
  | .explicitParser t, a => by
    simp only [CheckTy.check, Satisfies]
    rw [taggedParserExplicitCheck_iff]
    simp only [C127_check_constraints t]
  | .sequenceOf t, a => by
    simp only [CheckTy.check, Satisfies]
    rw [seqCheck_iff]
    simp only [C127_check_constraints t]
  | .setOf t, a => by
    simp only [CheckTy.check, Satisfies]
    rw [seqCheck_iff]
    simp only [C127_check_constraints t]
  | .alias tag t, a => by
    simp only [CheckTy.check, Satisfies, aliasCheck]
    rw [bindU, assertTagS_ok, C127_check_constraints t]
  | .struct tag ts, a => by
    simp only [CheckTy.check, Satisfies, structCheck]
    rw [bindU, assertTagS_ok, checkFields_iff ts]
theorem checkFields_iff : ∀ (ts : List CheckTy) (b : Bytes), checkFields (checks ts) b = .ok () ↔
    ∃ xs, BeginsDer b xs ∧ SatisfyAll ts xs
  | [], b => by simp only [checks, checkFields, SatisfyAll, true_iff]; exact ⟨[], .nil, rfl⟩
  | t :: ts, b => by
    simp only [checks, checkFields, SatisfyAll]
    constructor
    · intro h
      cases hp : wrapBerParser parseDerAny b with
      | error e => rw [hp] at h; cases h
      | ok y =>
        rw [hp] at h
        obtain ⟨h1, h2⟩ := bindU.mp h
        obtain ⟨xs, h3, h4⟩ := (checkFields_iff ts _).mp h2
        exact ⟨_, .cons hp h3, _, _, rfl, (C127_check_constraints t _).mp h1, h4⟩
    · rintro ⟨_, h1, x, rest, rfl, h2, h3⟩
      cases h1 with
      | cons hx ht =>
        rw [hx]
        exact bindU.mpr ⟨(C127_check_constraints t _).mpr h2, (checkFields_iff ts _).mpr ⟨_, ht, h3⟩⟩
end

/-- Cases: a list of INTEGERs under an explicit tag; a struct of a BOOLEAN and a BIT STRING. The object with a
superfluous byte in an INTEGER, and the one with a bit set that is not used, are refused. -/
example :
    (wrapBerParser parseDerAny [0xa0, 8, 0x30, 6, 2, 1, 5, 2, 1, 9] >>=
      fun x => (CheckTy.explicit (.sequenceOf .integer)).check x.2) = .ok () ∧
    ((wrapBerParser parseDerAny [0xa0, 9, 0x30, 7, 2, 1, 5, 2, 2, 0, 9]) >>=
      fun x => (CheckTy.explicit (.sequenceOf .integer)).check x.2) =
        .error (.error (.derConstraintFailed .integerLeadingZeroes)) ∧
    (wrapBerParser parseDerAny [0x30, 7, 1, 1, 0xff, 3, 2, 4, 0xf0] >>=
      fun x => (CheckTy.struct 16 [.boolean, .bitString]).check x.2) = .ok () ∧
    (wrapBerParser parseDerAny [0x30, 7, 1, 1, 0xff, 3, 2, 4, 0xf8] >>=
      fun x => (CheckTy.struct 16 [.boolean, .bitString]).check x.2) =
        .error (.error (.derConstraintFailed .unusedBitsNotZero)) := by decide +kernel

/-! ### Panics -/

theorem noPanicS_assertPrimitive (h : Header) : NoPanicS (assertPrimitiveS h) := by
  unfold assertPrimitiveS NoPanicS; cases h.constructed <;> simp

theorem noPanicS_flatten {e : SErr} (h : NoPanicS (.error e : Except SErr Unit)) :
    NoPanicS (.error e.flatten : Except SErr Unit) := by
  cases e <;> simp [SErr.flatten, NoPanicS] at h ⊢

theorem noPanicS_checkItems {check : Any → Except SErr Unit} (hc : ∀ a, NoPanicS (check a)) {fuel : Nat}
    {b : Bytes} {e : Bool} (hf : b.length < fuel) : NoPanicS (checkItems check fuel ⟨b, e⟩) := by
  induction fuel generalizing b e with
  | zero => omega
  | succ fuel ih =>
    unfold checkItems SeqIter.next
    by_cases hb : (e || b.isEmpty) = true
    · simp only [hb, if_true]; exact noPanicS_ok _
    · simp only [hb]
      have hw := noPanicS_wrapDer b
      cases hx : wrapBerParser parseDerAny b with
      | ok x =>
        obtain ⟨r, a⟩ := x
        have hlt : r.length < fuel := by
          obtain ⟨r', h1, rfl⟩ := wrapBerParser_ok.mp hx
          have := consumes_derAny h1
          omega
        simp only [Bool.false_eq_true, if_false]
        have := hc a
        cases hca : check a with
        | error e => simp only; rw [hca] at this; exact this
        | ok u => simp only; exact ih hlt
      | error e =>
        rw [hx] at hw
        cases e <;> simp [NoPanicS] at hw ⊢

mutual
/-- **C127** `check_constraints` of a type in which no BOOLEAN occurs always returns. -/
theorem C127_no_panic : ∀ (t : CheckTy), ¬ HasBoolean t → ∀ a, NoPanicS (t.check a)
  | .null, _, a | .utcTime, _, a | .raw, _, a => by
    simp only [CheckTy.check, nullCheck, utcCheck, rawCheck]; exact noPanicS_ok _
  | .boolean, h, _ => absurd (by simp [HasBoolean]) h
  | .integer, _, a => by simp only [CheckTy.check]; exact safe_checkDerInt a
  | .enumerated, _, a | .any, _, a => by
    simp only [CheckTy.check, enumeratedCheck, anyCheck]; exact noPanicS_assertDefinite _
  | .octetString, _, a | .charString, _, a => by
    simp only [CheckTy.check, octetCheck, strCheck]; exact noPanicS_assertPrimitive _
  | .bitString, _, a => by
    simp only [CheckTy.check, bitCheck]
    refine NoPanicS.bind (noPanicS_assertPrimitive _) fun _ => ?_
    repeat' split
    all_goals first | exact noPanicS_ok _ | exact noPanicS_error _
  | .oid, _, a | .real, _, a => by
    simp only [CheckTy.check, oidCheck, realCheck]
    exact NoPanicS.bind (noPanicS_assertPrimitive _) fun _ => noPanicS_assertDefinite _
  | .generalizedTime, _, a => by
    simp only [CheckTy.check, genCheck]
    repeat' split
    all_goals first | exact noPanicS_ok _ | exact noPanicS_error _
  | .embeddedPdv, _, a => by
    simp only [CheckTy.check, pdvCheck]
    exact NoPanicS.bind (noPanicS_assertDefinite _) fun _ => noPanicS_assertConstructed _
  | .option t, h, a => by
    simp only [CheckTy.check, optionCheck]; exact C127_no_panic t (by simpa [HasBoolean] using h) a
  | .explicit t, h, a => by
    have ih := C127_no_panic t (by simpa [HasBoolean] using h)
    simp only [CheckTy.check, explicitCheck]
    refine NoPanicS.bind (noPanicS_assertDefinite _) fun _ => ?_
    have := noPanicS_wrapBer a.data.data
    cases hh : wrapBerParser parseBerAny a.data.data with
    | ok x => exact ih _
    | error e => rw [hh] at this; exact noPanicS_flatten (by cases e <;> simp [NoPanicS] at this ⊢)
  | .implicit _ t, h, a => by
    have ih := C127_no_panic t (by simpa [HasBoolean] using h)
    simp only [CheckTy.check, implicitCheck]
    exact NoPanicS.bind (noPanicS_assertDefinite _) fun _ => ih _
  | .explicitParser t, h, a => by
    have ih := C127_no_panic t (by simpa [HasBoolean] using h)
    simp only [CheckTy.check, taggedParserExplicitCheck]
    refine NoPanicS.bind (noPanicS_assertDefinite _) fun _ => ?_
    have := noPanicS_wrapDer a.data.data
    cases hh : wrapBerParser parseDerAny a.data.data with
    | ok x => exact ih _
    | error e => rw [hh] at this; exact noPanicS_flatten (by cases e <;> simp [NoPanicS] at this ⊢)
  | .sequenceOf t, h, a => by
    have ih := C127_no_panic t (by simpa [HasBoolean] using h)
    simp only [CheckTy.check, seqCheck]
    exact NoPanicS.bind (noPanicS_assertTag _ _) fun _ => NoPanicS.bind (noPanicS_assertConstructed _) fun _ =>
      noPanicS_checkItems ih (by omega)
  | .setOf t, h, a => by
    have ih := C127_no_panic t (by simpa [HasBoolean] using h)
    simp only [CheckTy.check, seqCheck]
    exact NoPanicS.bind (noPanicS_assertTag _ _) fun _ => NoPanicS.bind (noPanicS_assertConstructed _) fun _ =>
      noPanicS_checkItems ih (by omega)
  | .alias _ t, h, a => by
    have ih := C127_no_panic t (by simpa [HasBoolean] using h)
    simp only [CheckTy.check, aliasCheck]
    exact NoPanicS.bind (noPanicS_assertTag _ _) fun _ => ih _
  | .struct _ ts, h, a => by
    simp only [CheckTy.check, structCheck]
    exact NoPanicS.bind (noPanicS_assertTag _ _) fun _ =>
      noPanicS_checkFields ts (by simpa [HasBoolean] using h) _
theorem noPanicS_checkFields : ∀ (ts : List CheckTy), ¬ SomeBoolean ts → ∀ b, NoPanicS (checkFields (checks ts) b)
  | [], _, b => by simp only [checks, checkFields]; exact noPanicS_ok _
  | t :: ts, h, b => by
    simp only [SomeBoolean, not_or] at h
    have h1 := C127_no_panic t h.1
    have h2 := noPanicS_checkFields ts h.2
    simp only [checks, checkFields]
    have := noPanicS_wrapDer b
    cases hh : wrapBerParser parseDerAny b with
    | ok x => exact NoPanicS.bind (h1 _) fun _ => h2 _
    | error e => rw [hh] at this; exact noPanicS_flatten (by cases e <;> simp [NoPanicS] at this ⊢)
end

/-- A case. -/
example : ¬ HasBoolean (.explicit (.struct 16 [.integer, .setOf .oid])) := by simp [HasBoolean, SomeBoolean]

/-- **C127** (deviation) `check_constraints` of `bool` panics, on an object without content and on no other. -/
theorem C127_boolean_panics (a : Any) : CheckTy.boolean.check a = .error .panic ↔ a.data.data = [] := by
  simp only [CheckTy.check, booleanCheck]
  cases a.data.data with
  | nil => simp
  | cons c cs => by_cases h0 : c = 0 <;> by_cases h1 : c = 255 <;> simp [h0, h1]

/-- A case: NULL. -/
example : (wrapBerParser parseDerAny [5, 0] >>= fun x => CheckTy.boolean.check x.2) = .error .panic := by
  decide +kernel

/-- Whether `check_constraints` of the type accepts the object that `Any::from_ber` reads. -/
def acceptsBytes (t : CheckTy) (bytes : Bytes) : Bool :=
  (wrapBerParser parseBerAny bytes >>= fun x => t.check x.2).isOk

/-! ### `DerParser` -/

mutual
theorem strong_derType : {α : Type} → {p : Parser α} → {t : CheckTy} → DerTypeOf p t → p.Strong
  | _, _, _, .uint N => (strong_uint N).2
  | _, _, _, .int N => (strong_int N).2
  | _, _, _, .integer => strong_integer.2
  | _, _, _, .bool => strong_bool.2
  | _, _, _, .boolean => strong_boolean.2
  | _, _, _, .null => strong_null
  | _, _, _, .enumerated => strong_enum.2
  | _, _, _, .octetString => strong_octet.2
  | _, _, _, .slice => strong_slice.2
  | _, _, _, .charString k => (strong_str k).2
  | _, _, _, .str => strong_refStr.2
  | _, _, _, .bmpString => strong_bmp.2
  | _, _, _, .universalString => strong_univ.2
  | _, _, _, .oid => strong_oid
  | _, _, _, .real lib => strong_real lib
  | _, _, _, .f64 lib => strong_map (strong_real lib) _
  | _, _, _, .utcTime => strong_utc.2
  | _, _, _, .generalizedTime => strong_gen.2
  | _, _, _, .raw tag => strong_raw tag
  | _, _, _, .vec hp => strong_vec objSim_der (strong_derType hp)
  | _, _, _, .sequenceOf hp => fun h h' i j hh hd =>
    sim_bind (strong_vec objSim_der (strong_derType hp) h h' i j hh hd) fun a b hab => sim_ok ⟨hab.1, by rw [hab.2]⟩
  | _, _, _, .setOf hp => strong_map (strong_setItems objSim_der (strong_derType hp)) _
  | _, _, _, .set S hp => strong_map (strong_setItems objSim_der (strong_derType hp)) _
  | _, _, _, .explicit cls tag hp => strong_explicit (free_der (strong_derType hp))
  | _, _, _, .implicit cls tag _ _ hp => strong_implicit (strong_derType hp)
  | _, _, _, .alias tag _ hp => fun h h' i j hh hd =>
    sim_bind (strong_derType hp h h' i j hh hd) fun a b hab => sim_ok ⟨hab.1, by rw [hab.2]⟩
  | _, _, _, .struct tag hf => fun h h' i j hh hd =>
    sim_bind (sim_assertConstructed hh) fun _ _ _ => strong_tuple (free_plain hf) h h' i j hh hd
theorem free_plain : {Ts : List Type} → {fs : Fields Ts} → {ts : List CheckTy} → PlainParsers fs ts →
    FreeAll (fs.fns .der)
  | _, _, _, .nil => .nil
  | _, _, _, .cons hp ht => .cons (free_required (m := .der) (strong_derType hp) .untagged) (free_plain ht)
end

/-- What the parser accepts as content, under any header, satisfies the constraints. -/
def Meets (p : Parser α) (t : CheckTy) : Prop :=
  ∀ h i r v, (∃ n, h.length = .definite n) → p.content h i = .ok (r, v) →
    ∀ T, p.acceptTag T = true → Satisfies t ⟨{ h with tag := T }, i⟩

theorem meets_parse {p : Parser α} {t : CheckTy} (h : Meets p t) {i r : Input} {v : α}
    (hp : p.parseDer i = .ok (r, v)) : ∃ a, parseDerAny i = .ok (r, a) ∧ Satisfies t a := by
  obtain ⟨a, x, h1, h2, h3⟩ := parseDer_ok.mp hp
  obtain ⟨_, n, _, hl, _⟩ := parseDerAny_ok.mp h1
  exact ⟨a, h1, h _ _ _ _ ⟨n, hl⟩ h3 _ h2⟩

theorem meets_slice {p : Parser α} {t : CheckTy} (hs : p.Strong) (h : Meets p t) {i r : Input} {v : α}
    (hp : p.parseDer i = .ok (r, v)) :
    ∃ a, wrapBerParser parseDerAny i.data = .ok (r.data, a) ∧ Satisfies t a := by
  obtain ⟨⟨r', v'⟩, h1, h2, _⟩ := free_der hs i (Input.fromSlice i.data) rfl _ hp
  obtain ⟨a, h3, h4⟩ := meets_parse h h1
  exact ⟨a, wrapBerParser_ok.mpr ⟨r', h3, h2.symm⟩, h4⟩

theorem meets_repeats {p : Parser α} {t : CheckTy} (hs : p.Strong) (h : Meets p t) {i e : Input} {vs : List α}
    (hr : Repeats p.parseDer i vs e) : ∃ xs, ObjectsDer i.data xs ∧ ∀ x ∈ xs, Satisfies t x := by
  induction hr with
  | nil h => exact ⟨[], by rw [h]; exact .nil, by simp⟩
  | cons hn hp _ ih =>
    obtain ⟨a, h1, h2⟩ := meets_slice hs h hp
    obtain ⟨xs, h3, h4⟩ := ih
    refine ⟨a :: xs, .cons hn h1 h3, fun x hx => ?_⟩
    rcases List.mem_cons.mp hx with rfl | hx
    · exact h2
    · exact h4 x hx

theorem meets_prim {α : Type} {h : Header} {i : Input} {f : Unit → PRes α} {y : Input × α}
    (hh : (h.assertPrimitive i >>= f) = .ok y) : h.constructed = false := by
  obtain ⟨_, h1, _⟩ := bind_eq_ok.mp hh
  exact assertPrimitive_ok.mp h1

theorem meets_num {α : Type} {h : Header} {i : Input} {f : Unit → Unit → PRes α} {y : Input × α}
    (hh : (checkDerIntInput i >>= fun u => h.assertPrimitive i >>= f u) = .ok y) :
    h.constructed = false ∧ MinimalInt i.data := by
  obtain ⟨_, h0, h1⟩ := bind_eq_ok.mp hh
  exact ⟨meets_prim h1, checkDerIntInput_ok.mp h0⟩

mutual
theorem meets_derType : {α : Type} → {p : Parser α} → {t : CheckTy} → DerTypeOf p t → Meets p t
  | _, _, _, .uint N => fun h i r v hn hc T _ => ⟨(meets_num hc).1, hn, (meets_num hc).2⟩
  | _, _, _, .int N => fun h i r v hn hc T _ => ⟨(meets_num hc).1, hn, (meets_num hc).2⟩
  | _, _, _, .integer => fun h i r v hn hc T _ => ⟨(meets_num hc).1, hn, (meets_num hc).2⟩
  | _, _, _, .bool => by
    intro h i r v hn hc T _
    obtain ⟨b, h1, _⟩ := map_content.mp hc
    obtain ⟨h2, h3⟩ := booleanDerContent_ok.mp h1
    exact ⟨b, _, (booleanContent_ok.mp h2).2.2.1, h3⟩
  | _, _, _, .boolean => by
    intro h i r v hn hc T _
    obtain ⟨h2, h3⟩ := booleanDerContent_ok.mp hc
    exact ⟨v, _, (booleanContent_ok.mp h2).2.2.1, h3⟩
  | _, _, _, .null => fun h i r v hn hc T _ => trivial
  | _, _, _, .enumerated => fun h i r v hn hc T _ => hn
  | _, _, _, .octetString => fun h i r v hn hc T _ => meets_prim hc
  | _, _, _, .slice => fun h i r v hn hc T _ => meets_prim hc
  | _, _, _, .charString k => fun h i r v hn hc T _ => meets_prim hc
  | _, _, _, .str => fun h i r v hn hc T _ => meets_prim hc
  | _, _, _, .bmpString => fun h i r v hn hc T _ => meets_prim hc
  | _, _, _, .universalString => fun h i r v hn hc T _ => meets_prim hc
  | _, _, _, .oid => fun h i r v hn hc T _ => ⟨meets_prim hc, hn⟩
  | _, _, _, .real lib => fun h i r v hn hc T _ => ⟨meets_prim hc, hn⟩
  | _, _, _, .f64 lib => by
    intro h i r v hn hc T _
    obtain ⟨b, h1, _⟩ := map_content.mp hc
    exact ⟨meets_prim h1, hn⟩
  | _, _, _, .utcTime => fun h i r v hn hc T _ => trivial
  | _, _, _, .generalizedTime => by
    intro h i r v hn hc T _
    obtain ⟨_, _, _, h1, h2⟩ := genDer_content.mp hc
    exact ⟨List.getLast?_eq_some_iff.mp h1, h2⟩
  | _, _, _, .raw tag => fun h i r v hn hc T _ => trivial
  | _, _, _, .vec hp => by
    have ih := meets_derType hp
    intro h i r v hn hc T hT
    obtain ⟨h1, h2⟩ := vecDer_content.mp hc
    exact ⟨tagIs_iff.mp hT, not_primitive.mpr h1, meets_repeats (strong_derType hp) ih h2⟩
  | _, _, _, .sequenceOf hp => by
    have ih := meets_derType hp
    intro h i r v hn hc T hT
    obtain ⟨y, h0, _⟩ := bind_eq_ok.mp hc
    obtain ⟨h1, h2⟩ := vecDer_content.mp h0
    exact ⟨tagIs_iff.mp hT, not_primitive.mpr h1, meets_repeats (strong_derType hp) ih h2⟩
  | _, _, _, .setOf hp => by
    have ih := meets_derType hp
    intro h i r v hn hc T hT
    obtain ⟨y, h0, _⟩ := map_content.mp hc
    obtain ⟨h1, h2⟩ := setItemsDer_content.mp h0
    exact ⟨tagIs_iff.mp hT, not_primitive.mpr h1, meets_repeats (strong_derType hp) ih h2⟩
  | _, _, _, .set S hp => by
    have ih := meets_derType hp
    intro h i r v hn hc T hT
    obtain ⟨y, h0, _⟩ := map_content.mp hc
    obtain ⟨h1, h2⟩ := setItemsDer_content.mp h0
    exact ⟨tagIs_iff.mp hT, not_primitive.mpr h1, meets_repeats (strong_derType hp) ih h2⟩
  | _, _, _, .explicit cls tag hp => by
    have ih := meets_derType hp
    intro h i r v hn hc T hT
    obtain ⟨_, _, h1⟩ := bind_eq_ok.mp hc
    by_cases h2 : h.cls ≠ cls
    · rw [if_pos h2] at h1; cases h1
    · rw [if_neg h2] at h1
      by_cases h3 : (!tagIs tag h.tag) = true
      · rw [if_pos h3] at h1; cases h1
      · rw [if_neg h3] at h1
        obtain ⟨⟨r1, w⟩, h4, _⟩ := bind_eq_ok.mp h1
        obtain ⟨a, h5, h6⟩ := meets_slice (strong_derType hp) ih h4
        obtain ⟨r2, h7, h8⟩ := wrapBerParser_ok.mp h5
        exact ⟨hn, a, ⟨_, wrapBerParser_ok.mpr ⟨r2, C11_der_subset_ber_any _ _ _ h7, h8⟩⟩, h6⟩
  | _, _, _, .implicit cls tag innerTag hi hp => by
    have ih := meets_derType hp
    intro h i r v hn hc T hT
    by_cases h2 : h.cls ≠ cls
    · rw [show (implicitP cls tag _).content h i = _ from rfl] at hc
      simp only [implicitP, if_pos h2] at hc; cases hc
    · simp only [implicitP, if_neg h2] at hc
      obtain ⟨⟨r1, w⟩, h4, _⟩ := bind_eq_ok.mp hc
      exact ⟨hn, ih h i r1 w hn h4 innerTag hi⟩
  | _, _, _, .alias tag hi hp => by
    have ih := meets_derType hp
    intro h i r v hn hc T hT
    obtain ⟨⟨r1, w⟩, h4, _⟩ := bind_eq_ok.mp hc
    exact ⟨(hi T).mp hT, ih h i r1 w hn h4 T hT⟩
  | _, _, _, .struct tag hf => by
    have ih := @meets_plain _ _ _ hf
    intro h i r v hn hc T hT
    obtain ⟨_, _, h1⟩ := bind_eq_ok.mp hc
    exact ⟨tagIs_iff.mp hT, ih i r v h1⟩
theorem meets_plain : {Ts : List Type} → {fs : Fields Ts} → {ts : List CheckTy} → PlainParsers fs ts →
    ∀ i r v, (fs.fns .der).run i = .ok (r, v) → ∃ xs, BeginsDer i.data xs ∧ SatisfyAll ts xs
  | _, _, _, .nil => fun i r v _ => ⟨[], .nil, rfl⟩
  | _, _, _, .cons hp ht => by
    have ih := meets_derType hp
    have iht := meets_plain ht
    intro i r v hv
    obtain ⟨⟨r1, w⟩, h1, h2⟩ := bind_eq_ok.mp hv
    obtain ⟨⟨r2, ws⟩, h3, _⟩ := bind_eq_ok.mp h2
    obtain ⟨a, h4, h5⟩ := meets_slice (strong_derType hp) ih h1
    obtain ⟨xs, h6, h7⟩ := iht r1 r2 ws h3
    exact ⟨a :: xs, .cons h4 h6, a, xs, rfl, h5, h7⟩
end

/-- **C127** (partial) What `parse_der` of a type accepts is an object that satisfies the constraints of this type.
Missing: BIT STRING, EMBEDDED PDV and structs with optional or tagged fields, for which it is false
(`C127_deviations`, `C127_struct_deviations`). -/
theorem C127_accepted_by_der_partial {p : Parser α} {t : CheckTy} (h : DerTypeOf p t) {i r : Input} {v : α}
    (hp : p.parseDer i = .ok (r, v)) : ∃ a, parseDerAny i = .ok (r, a) ∧ t.check a = .ok () := by
  obtain ⟨a, h1, h2⟩ := meets_parse (meets_derType h) hp
  exact ⟨a, h1, (C127_check_constraints t a).mpr h2⟩

/-- A case: a list of INTEGERs with implicit tags. -/
example : DerTypeOf (vecDer (implicitP .contextSpecific 0 (uintDer 4))) (.sequenceOf (.implicit 2 .integer)) ∧
    (vecDer (implicitP .contextSpecific 0 (uintDer 4))).parseDer
      (Input.fromSlice [0x30, 7, 0x80, 1, 5, 0x80, 2, 0x01, 0x00]) = .ok (⟨[], 9, 9⟩, [⟨5⟩, ⟨256⟩]) :=
  ⟨.vec (.implicit _ _ _ rfl (.uint 4)), by decide +kernel⟩

/-- A case: `struct S { a: u32, b: [0] EXPLICIT bool }` with the tag in the type. -/
example : DerTypeOf (structP .der 16 (.cons (.required .untagged (uintDer 4))
      (.cons (.required .untagged (explicitP .contextSpecific 0 boolDer.parseDer)) .nil)))
      (.struct 16 [.integer, .explicit .boolean]) ∧
    ((structP .der 16 (.cons (.required .untagged (uintDer 4))
      (.cons (.required .untagged (explicitP .contextSpecific 0 boolDer.parseDer)) .nil))).parseDer
        (Input.fromSlice [0x30, 8, 2, 1, 7, 0xa0, 3, 1, 1, 0xff])).isOk = true :=
  ⟨.struct 16 (.cons (.uint 4) (.cons (.explicit _ _ .bool) .nil)), by decide +kernel⟩

/-- **C127** Deviation: with an optional or a tagged field, `parse_der` of the struct accepts objects that the check
refuses: an object without the field, and an object with the tag. -/
theorem C127_struct_deviations :
    (structP .der 16 (.cons (.optional .untagged (uintDer 4)) .nil)).parseDer (Input.fromSlice [0x30, 0]) =
        (.ok (⟨[], 2, 2⟩, (none, ())) : PRes (Tup [Option Nat])) ∧
    acceptsBytes (.struct 16 [.option .integer]) [0x30, 0] = false ∧
    ∀ b : UInt8, b = 0 ∨ b = 0xff →
      (structP .der 16 (.cons (.required (.explicit .contextSpecific 0) boolDer) .nil)).parseDer
          (Input.fromSlice [0x30, 5, 0xa0, 3, 1, 1, b]) =
        (.ok (⟨[], 7, 7⟩, (b = 0xff, ())) : PRes (Tup [Bool])) ∧
      acceptsBytes (.struct 16 [.boolean]) [0x30, 5, 0xa0, 3, 1, 1, b] = false := by
  refine ⟨by rfl, by decide +kernel, ?_⟩
  rintro b (rfl | rfl) <;> exact ⟨by rfl, by decide +kernel⟩

/-- **C127** The check of an explicit `TaggedParser` is stricter than that of a `TaggedValue`. -/
theorem C127_explicit_parser (t : CheckTy) (a : Any) (h : (CheckTy.explicitParser t).check a = .ok ()) :
    (CheckTy.explicit t).check a = .ok () := by
  rw [C127_check_constraints] at h ⊢
  obtain ⟨h1, x, ⟨rem, h2⟩, h3⟩ := h
  obtain ⟨r2, h7, h8⟩ := wrapBerParser_ok.mp h2
  exact ⟨h1, x, ⟨_, wrapBerParser_ok.mpr ⟨r2, C11_der_subset_ber_any _ _ _ h7, h8⟩⟩, h3⟩

/-! ### `FromDer` -/

/-- What the decoder accepts is an object that satisfies the constraints. -/
def Vouches (g : Bytes → Except SErr (Bytes × α)) (t : CheckTy) : Prop :=
  ∀ b rem v, g b = .ok (rem, v) → ∃ a, wrapBerParser parseDerAny b = .ok (rem, a) ∧ Satisfies t a

theorem definite_of_der {b rem : Bytes} {a : Any} (h : wrapBerParser parseDerAny b = .ok (rem, a)) :
    DefiniteObj a := by
  obtain ⟨r, h1, _⟩ := wrapBerParser_ok.mp h
  obtain ⟨_, n, _, hl, _⟩ := parseDerAny_ok.mp h1
  exact ⟨n, hl⟩

theorem startsWithBer_of {a x : Any} (h : StartsWithDer a x) : StartsWithBer a x := by
  obtain ⟨rem, h2⟩ := h
  obtain ⟨r2, h7, h8⟩ := wrapBerParser_ok.mp h2
  exact ⟨_, wrapBerParser_ok.mpr ⟨r2, C11_der_subset_ber_any _ _ _ h7, h8⟩⟩

theorem vouches_fromDerOf {g : Bytes → Except SErr (Bytes × α)} {t : CheckTy} (h : FromDerOf g t) :
    Vouches g t := by
  refine FromDerOf.rec (motive_1 := fun g t _ => Vouches g t)
    (motive_2 := fun fs ts _ => ∀ b rem v, fs.run .der b = .ok (rem, v) →
      ∃ xs, BeginsDer b xs ∧ SatisfyAll ts xs) ?_ ?_ ?_ ?_ ?_ ?_ ?_ h
  · intro α p t b rem v hv
    obtain ⟨⟨r, a⟩, h1, h2⟩ := bindS_eq_ok.mp hv
    obtain ⟨u, h3, h4⟩ := bindS_eq_ok.mp h2
    obtain ⟨w, h5, h6⟩ := bindS_eq_ok.mp h4
    simp only [pure, Except.pure, Except.ok.injEq, Prod.mk.injEq] at h6
    rw [← h6.1]
    exact ⟨a, h1, (C127_check_constraints t a).mp h3⟩
  · intro α g t cls tag _ ih b rem v hv
    obtain ⟨⟨r, a⟩, h1, h2⟩ := bindS_eq_ok.mp hv
    obtain ⟨_, _, h2⟩ := bindS_eq_ok.mp h2
    obtain ⟨_, _, h2⟩ := bindS_eq_ok.mp h2
    by_cases hc : a.header.cls ≠ cls
    · simp only [if_pos hc] at h2; cases h2
    · simp only [if_neg hc] at h2
      obtain ⟨⟨r2, w⟩, h3, h4⟩ := bindS_eq_ok.mp h2
      simp only [pure, Except.pure, Except.ok.injEq, Prod.mk.injEq] at h4
      rw [← h4.1]
      obtain ⟨x, h5, h6⟩ := ih _ _ _ h3
      exact ⟨a, h1, definite_of_der h1, x, startsWithBer_of ⟨_, h5⟩, h6⟩
  · intro α g t _ ih b rem v hv
    obtain ⟨⟨r, a⟩, h1, h2⟩ := bindS_eq_ok.mp hv
    obtain ⟨⟨r2, w⟩, h3, h4⟩ := bindS_eq_ok.mp h2
    simp only [pure, Except.pure, Except.ok.injEq, Prod.mk.injEq] at h4
    rw [← h4.1]
    obtain ⟨x, h5, h6⟩ := ih _ _ _ h3
    exact ⟨a, h1, definite_of_der h1, x, ⟨_, h5⟩, h6⟩
  · intro α innerTag p t b rem v hv
    obtain ⟨⟨r, a⟩, h1, h2⟩ := bindS_eq_ok.mp hv
    obtain ⟨u, h3, h4⟩ := bindS_eq_ok.mp h2
    obtain ⟨w, h5, h6⟩ := bindS_eq_ok.mp h4
    simp only [pure, Except.pure, Except.ok.injEq, Prod.mk.injEq] at h6
    rw [← h6.1]
    exact ⟨a, h1, definite_of_der h1, (C127_check_constraints t _).mp h3⟩
  · intro Ts fs ts tag _ ih b rem v hv
    obtain ⟨⟨r, a⟩, h1, h2⟩ := bindS_eq_ok.mp hv
    obtain ⟨_, ht, h2⟩ := bindS_eq_ok.mp h2
    obtain ⟨⟨r2, w⟩, h3, h4⟩ := bindS_eq_ok.mp h2
    simp only [pure, Except.pure, Except.ok.injEq, Prod.mk.injEq] at h4
    rw [← h4.1]
    exact ⟨a, h1, assertTagS_ok.mp ht, ih _ _ _ h3⟩
  · exact fun b rem v hv => ⟨[], .nil, rfl⟩
  · intro T Ts ty fs t ts _ _ ih1 ih2 b rem v hv
    obtain ⟨⟨r, x⟩, h1, h2⟩ := bindS_eq_ok.mp hv
    obtain ⟨⟨r2, xs⟩, h3, h4⟩ := bindS_eq_ok.mp h2
    obtain ⟨a, h5, h6⟩ := ih1 _ _ _ h1
    obtain ⟨as, h7, h8⟩ := ih2 _ _ _ h3
    exact ⟨a :: as, .cons h5 h7, a, as, rfl, h6, h8⟩

/-- **C127** (partial) What `from_der` of a type accepts is an object that satisfies the constraints of this type.
Missing: the types for which it is false (`C127_from_der_deviations`). -/
theorem C127_from_der_checks_partial {g : Bytes → Except SErr (Bytes × α)} {t : CheckTy} (h : FromDerOf g t)
    {b rem : Bytes} {v : α} (hv : g b = .ok (rem, v)) :
    ∃ a, wrapBerParser parseDerAny b = .ok (rem, a) ∧ t.check a = .ok () := by
  obtain ⟨a, h1, h2⟩ := vouches_fromDerOf h _ _ _ hv
  exact ⟨a, h1, (C127_check_constraints t a).mpr h2⟩

/-- A case: `struct S { a: u32, b: [0] EXPLICIT bool }` with the tag in the type. -/
example : FromDerOf (structFromDer 16 (.cons (.required .untagged (derSlice (uintC 4)))
      (.cons (.required .untagged ⟨explicitFromDer .contextSpecific 0 (fromDer boolBer booleanCheck),
        explicitTryFrom .contextSpecific 0 (fromBer boolBer), 0, tagIs 0⟩) .nil)))
    (.struct 16 [.integer, .explicit .boolean]) := by
  refine .struct 16 (.cons (.auto (uintBer 4) .integer) (.cons (.explicit _ _ ?_) .nil))
  exact .auto boolBer .boolean

/-- The field of `struct S { #[tag_explicit(0)] a: bool }`. -/
def sampleTaggedSlice : SliceFields [Bool] := .cons (.required (.explicit .contextSpecific 0) (derSlice boolC)) .nil

local instance : DecidableEq (Tup [Bool]) := inferInstanceAs (DecidableEq (Bool × Unit))

set_option synthInstance.maxSize 2000 in
/-- **C127** (deviation) Objects that `from_der` accepts and `check_constraints` of the same type refuses.
* A list or a set in primitive form: `from_der` of `Vec<T>`, `SequenceOf<T>` and `SetOf<T>` does not look at the
  form.
* An IMPLICIT BOOLEAN that is neither 00 nor ff: `from_der` does not ask for the constraints of the inner type.
* A struct with a tagged field: the check of the type of the field is applied to the object with the tag. -/
theorem C127_from_der_deviations :
    (∀ v : UInt8, (seqFromDer 16 (fromDer (uintBer 1) checkDerInt) [0x10, 3, 2, 1, v]).isOk =
        (fromDer (uintBer 1) checkDerInt [2, 1, v]).isOk ∧
      (wrapBerParser parseDerAny [0x10, 3, 2, 1, v] >>= fun x => (CheckTy.sequenceOf .integer).check x.2) =
        .error (.error .constructExpected) ∧
      (wrapBerParser parseDerAny [0x11, 3, 2, 1, v] >>= fun x => (CheckTy.setOf .integer).check x.2) =
        .error (.error .constructExpected)) ∧
    (∀ v : UInt8, v ≠ 0 ∧ v ≠ 0xff →
      implicitFromDer .contextSpecific 0 1 (tryFromAny boolBer) [0x80, 1, v] = .ok ([], ⟨true⟩) ∧
      (wrapBerParser parseDerAny [0x80, 1, v] >>= fun x => (CheckTy.implicit 1 .boolean).check x.2) =
        .error (.error (.derConstraintFailed .invalidBoolean))) ∧
    (∀ b : UInt8, b = 0 ∨ b = 0xff →
      structFromDer 16 sampleTaggedSlice [0x30, 5, 0xa0, 3, 1, 1, b] =
        (.ok ([], (b = 0xff, ())) : Except SErr (Bytes × Tup [Bool])) ∧
      (wrapBerParser parseDerAny [0x30, 5, 0xa0, 3, 1, 1, b] >>= fun x => (CheckTy.struct 16 [.boolean]).check x.2) =
        .error (.error (.derConstraintFailed .invalidBoolean))) := by
  have byte : ∀ {P : UInt8 → Prop}, (∀ m < 256, P (UInt8.ofNat m)) → ∀ v, P v := by
    intro P h v
    have := h v.toNat v.toNat_lt
    rwa [UInt8.ofNat_toNat] at this
  refine ⟨byte (by decide +kernel), byte (by decide +kernel), ?_⟩
  rintro b (rfl | rfl) <;> exact ⟨by decide +kernel, by decide +kernel⟩

/-- **C127** (deviation) What the checks do not see, and what they see and the parsers do not.
* `parse_der` of BIT STRING accepts unused bits that are not zero, which the check refuses.
* `parse_der` of EMBEDDED PDV accepts the primitive form, which the check refuses.
* The check of ENUMERATED accepts superfluous bytes, which `parse_der` refuses.
* The check of an EXPLICIT `TaggedValue` accepts an inner object of indefinite length; that of a `TaggedParser`
  does not.
* The check of SET OF accepts the elements in any order. -/
theorem C127_deviations :
    (∀ n b : UInt8, 1 ≤ n.toNat → n.toNat ≤ 7 → ¬ 2 ^ n.toNat ∣ b.toNat →
      (bitDer.parseDer (Input.fromSlice [3, 2, n, b])).isOk = true ∧ acceptsBytes .bitString [3, 2, n, b] = false) ∧
    ((pdvP.parseDer (Input.fromSlice [0x0b, 11, 0xa0, 6, 0x80, 1, 0x2a, 0x81, 1, 0x2b, 0x82, 1, 7])).isOk = true ∧
      acceptsBytes .embeddedPdv [0x0b, 11, 0xa0, 6, 0x80, 1, 0x2a, 0x81, 1, 0x2b, 0x82, 1, 7] = false) ∧
    (∀ v : UInt8, v.toNat < 128 → acceptsBytes .enumerated [10, 2, 0, v] = true ∧
      (enumeratedDer.parseDer (Input.fromSlice [10, 2, 0, v])).isOk = false) ∧
    (∀ v : UInt8, acceptsBytes (.explicit .raw) [0xa0, 7, 0x30, 0x80, 2, 1, v, 0, 0] = true ∧
      acceptsBytes (.explicitParser .raw) [0xa0, 7, 0x30, 0x80, 2, 1, v, 0, 0] = false) ∧
    (∀ v w : UInt8, acceptsBytes (.setOf .integer) [0x31, 6, 2, 1, v, 2, 1, w] = true) := by
  have byte : ∀ {P : UInt8 → Prop}, (∀ m < 256, P (UInt8.ofNat m)) → ∀ v, P v := by
    intro P h v
    have := h v.toNat v.toNat_lt
    rwa [UInt8.ofNat_toNat] at this
  have set2 : ∀ v w : UInt8, acceptsBytes (.setOf .integer) [0x31, 6, 2, 1, v, 2, 1, w] = true := by
    intro v w
    have h1 : ∃ r a, wrapBerParser parseBerAny [0x31, 6, 2, 1, v, 2, 1, w] = .ok (r, a) ∧ a.header.tag = 17 ∧
        a.header.constructed = true ∧ a.data.data = [2, 1, v, 2, 1, w] := ⟨_, _, rfl, rfl, rfl, rfl⟩
    have h2 : ∀ v rest, ∃ a, wrapBerParser parseDerAny (2 :: 1 :: v :: rest) = .ok (rest, a) ∧
        Satisfies .integer a := by
      intro v rest
      have : ∃ a, wrapBerParser parseDerAny (2 :: 1 :: v :: rest) = .ok (rest, a) ∧
          a.header.constructed = false ∧ a.header.length = .definite 1 ∧ a.data.data = [v] :=
        ⟨_, rfl, rfl, rfl, rfl⟩
      obtain ⟨a, h1, h2, h3, h4⟩ := this
      exact ⟨a, h1, h2, ⟨1, h3⟩, by rw [h4]; trivial⟩
    obtain ⟨r, a, h3, h4, h5, h6⟩ := h1
    obtain ⟨x, h7, h8⟩ := h2 v [2, 1, w]
    obtain ⟨y, h9, h10⟩ := h2 w []
    have : (CheckTy.setOf .integer).check a = .ok () := (C127_check_constraints _ _).mpr
      ⟨h4, not_primitive.mpr h5, [x, y], by
        rw [h6]; exact .cons (by simp) h7 (.cons (by simp) h9 .nil), by simp [h8, h10]⟩
    simp [acceptsBytes, h3, Bind.bind, Except.bind, this, Except.isOk, Except.toBool]
  refine ⟨?_, by decide +kernel, ?_, byte (by decide +kernel), set2⟩
  · have key : ∀ n < 8, 1 ≤ n → ∀ m < 256, ¬ 2 ^ n ∣ m →
        (bitDer.parseDer (Input.fromSlice [3, 2, UInt8.ofNat n, UInt8.ofNat m])).isOk = true ∧
        acceptsBytes .bitString [3, 2, UInt8.ofNat n, UInt8.ofNat m] = false := by decide +kernel
    intro n b h1 h2 h3
    have := key n.toNat (by omega) h1 b.toNat b.toNat_lt h3
    rwa [UInt8.ofNat_toNat, UInt8.ofNat_toNat] at this
  · have key : ∀ m < 128, acceptsBytes .enumerated [10, 2, 0, UInt8.ofNat m] = true ∧
      (enumeratedDer.parseDer (Input.fromSlice [10, 2, 0, UInt8.ofNat m])).isOk = false := by decide +kernel
    intro v hv
    have := key v.toNat hv
    rwa [UInt8.ofNat_toNat] at this

end Asn1

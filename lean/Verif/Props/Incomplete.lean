import Verif.Props.Optional
/-!
# What `Incomplete` says in the byte-slice decoders (C64)
-/
namespace Asn1
open Spec

variable {α : Type}

/-- The result is not `Incomplete`. -/
def Settled {β : Type} (x : Except SErr β) : Prop := ∀ n, x ≠ .error (.incomplete n)

theorem settled_ok {β : Type} (x : β) : Settled (.ok x : Except SErr β) := by simp [Settled]
theorem settled_error {β : Type} (e : Error) : Settled (.error (.error e) : Except SErr β) := by
  simp [Settled]

theorem settled_bind {β γ : Type} {x : Except SErr β} {f : β → Except SErr γ} (h1 : Settled x)
    (h2 : ∀ a, Settled (f a)) : Settled (x >>= f) := by
  intro n
  cases x with
  | ok a => exact h2 a n
  | error e =>
    intro h
    injection h with h
    exact h1 n (by rw [h])

theorem wrap_bind {β γ : Type} (f : Input → PRes β) (bytes : Bytes) (g : Bytes × β → Except SErr γ)
    (hg : ∀ x, Settled (g x)) (n : Nat) :
    (wrapBerParser f bytes >>= g) = .error (.incomplete n) ↔
      f (Input.fromSlice bytes) = .error (.incomplete n) := by
  unfold wrapBerParser
  cases h : f (Input.fromSlice bytes) with
  | ok x =>
    simp only [bind_ok, reduceCtorEq, iff_false]
    exact hg _ n
  | error e => cases e <;> simp [SErr.convert, Bind.bind, Except.bind]

theorem settled_tryFromAny (p : Parser α) (a : Any) : Settled (tryFromAny p a) := by
  unfold tryFromAny
  split
  · exact settled_error _
  · split
    · exact settled_ok _
    · rename_i e _
      cases e <;> simp [SErr.fromNomBerr, Settled]

theorem settled_assertTag (h : Header) (t : Nat) : Settled (assertTagS h t) := by
  unfold assertTagS tagAssertEq Settled; by_cases hh : h.tag = t <;> simp [hh]
theorem settled_assertConstructed (h : Header) : Settled (assertConstructedS h) := by
  unfold assertConstructedS Settled; cases h.constructed <;> simp
theorem settled_assertPrimitive (h : Header) : Settled (assertPrimitiveS h) := by
  unfold assertPrimitiveS Settled; cases h.constructed <;> simp
theorem settled_assertDefinite (l : Length) : Settled (assertDefiniteS l) := by
  unfold assertDefiniteS Settled; cases l.isDefinite <;> simp

theorem settled_explicitTryFrom (cls : Class) (tag : Nat) (g : Bytes → Except SErr (Bytes × α))
    (a : Any) : Settled (explicitTryFrom cls tag g a) := by
  unfold explicitTryFrom
  refine settled_bind (settled_assertTag _ _) fun _ => settled_bind (settled_assertConstructed _)
    fun _ => ?_
  split
  · exact settled_error _
  · cases g a.data.data with
    | ok x => exact settled_ok _
    | error e => cases e <;> simp [SErr.flatten, Settled]

/-- **C64** In the byte-slice API, `Incomplete` tells about the outermost object only: `from_ber`
of any type, and of any EXPLICIT or IMPLICIT tag over any type, answers `Incomplete` exactly when
the generic parser finds the outermost object truncated, with the same number of missing bytes;
the same holds for `from_der` of a type whose constraints never answer `Incomplete`, and of an
IMPLICIT tag. A truncated object *inside* a complete one is an error.
Missing: EXPLICIT tags and derived structs in DER, which pass on the `Incomplete` of an inner object. -/
theorem C64_incomplete_is_outer_partial (bytes : Bytes) (n : Nat) :
    (∀ p : Parser α, fromBer p bytes = .error (.incomplete n) ↔
      parseBerAny (Input.fromSlice bytes) = .error (.incomplete n)) ∧
    (∀ (p : Parser α) (check : Any → Except SErr Unit), (∀ a, Settled (check a)) →
      (fromDer p check bytes = .error (.incomplete n) ↔
        parseDerAny (Input.fromSlice bytes) = .error (.incomplete n))) ∧
    (∀ (cls : Class) (tag : Nat) (g : Bytes → Except SErr (Bytes × α)),
      fromBerWith (explicitTryFrom cls tag g) bytes = .error (.incomplete n) ↔
        parseBerAny (Input.fromSlice bytes) = .error (.incomplete n)) ∧
    (∀ (cls : Class) (tag innerTag : Nat) (p : Parser α),
      (fromBerWith (implicitTryFrom cls tag innerTag (tryFromAny p)) bytes =
          .error (.incomplete n) ↔
        parseBerAny (Input.fromSlice bytes) = .error (.incomplete n)) ∧
      (implicitFromDer cls tag innerTag (tryFromAny p) bytes = .error (.incomplete n) ↔
        parseDerAny (Input.fromSlice bytes) = .error (.incomplete n))) := by
  have himp : ∀ (cls : Class) (tag innerTag : Nat) (p : Parser α) (a : Any),
      Settled (implicitTryFrom cls tag innerTag (tryFromAny p) a) := by
    intro cls tag it p a
    unfold implicitTryFrom
    refine settled_bind (settled_assertTag _ _) fun _ => ?_
    split
    · exact settled_error _
    · exact settled_bind (settled_tryFromAny _ _) fun _ => settled_ok _
  refine ⟨fun p => ?_, fun p check hc => ?_, fun cls tag g => ?_, fun cls tag it p => ⟨?_, ?_⟩⟩
  · exact wrap_bind parseBerAny bytes _
      (fun x => settled_bind (settled_tryFromAny p _) fun _ => settled_ok _) n
  · exact wrap_bind parseDerAny bytes _
      (fun x => settled_bind (hc _) fun _ => settled_bind (settled_tryFromAny p _)
        fun _ => settled_ok _) n
  · exact wrap_bind parseBerAny bytes _
      (fun x => settled_bind (settled_explicitTryFrom cls tag g _) fun _ => settled_ok _) n
  · exact wrap_bind parseBerAny bytes _
      (fun x => settled_bind (himp cls tag it p _) fun _ => settled_ok _) n
  · exact wrap_bind parseDerAny bytes _
      (fun x => settled_bind (himp cls tag it p _) fun _ => settled_ok _) n

/-- **C64** The DER constraints of the modelled types never answer `Incomplete`, nor do those of a
tag over them.
Missing: EXPLICIT tags and derived structs in DER. -/
theorem C64_checks_settled_partial (a : Any) :
    Settled (checkDerInt a) ∧ Settled (booleanCheck a) ∧ Settled (nullCheck a) ∧
    Settled (enumeratedCheck a) ∧ Settled (octetCheck a) ∧ Settled (bitCheck a) ∧
    Settled (oidCheck a) ∧ Settled (anyCheck a) ∧
    ∀ check : Any → Except SErr Unit, (∀ a, Settled (check a)) →
      Settled (explicitCheck check a) ∧ ∀ innerTag, Settled (implicitCheck innerTag check a) := by
  refine ⟨?_, ?_, ?_, ?_, ?_, ?_, ?_, ?_, fun check hc => ⟨?_, fun it => ?_⟩⟩
  · unfold checkDerInt
    refine settled_bind (settled_assertPrimitive _) fun _ => settled_bind (settled_assertDefinite _)
      fun _ => ?_
    repeat' split
    all_goals first | exact settled_ok _ | exact settled_error _
  · unfold booleanCheck
    repeat' split
    all_goals first | exact settled_ok _ | exact settled_error _ | simp [Settled]
  · exact settled_ok _
  · exact settled_assertDefinite _
  · exact settled_assertPrimitive _
  · refine settled_bind (settled_assertPrimitive _) fun _ => ?_
    repeat' split
    all_goals first | exact settled_ok _ | exact settled_error _
  · exact settled_bind (settled_assertPrimitive _) fun _ => settled_assertDefinite _
  · exact settled_assertDefinite _
  · refine settled_bind (settled_assertDefinite _) fun _ => ?_
    cases wrapBerParser parseBerAny a.data.data with
    | ok x => exact hc _
    | error e => cases e <;> simp [SErr.flatten, Settled]
  · exact settled_bind (settled_assertDefinite _) fun _ => hc _

/-- Cases: a truncated outer object, and a truncated inner object in a complete outer one. -/
example :
    fromBer (uintBer 4) [0x02, 0x03, 0x01] = .error (.incomplete 2) ∧
    parseBerAny (Input.fromSlice [0x02, 0x03, 0x01]) = .error (.incomplete 2) ∧
    fromBerWith (explicitTryFrom .contextSpecific 0 (fromBer (uintBer 4))) [0xa0, 0x02, 0x02, 0x05] =
      .error (.error (.incomplete (.size 5))) ∧
    fromBer octetBer [0x24, 0x02, 0x04, 0x05] = .error (.error (.incomplete (.size 5))) := by
  decide +kernel

theorem parseBer_full_error (p : Parser α) (i : Input) (c : Class) (b : Bool) (tag : Nat)
    (cs rest : Bytes) (ht : tag < 2 ^ 32) (hs : cs.length < 2 ^ 64)
    (hd : i.data = full c b tag cs ++ rest) (ha : p.acceptTag tag = true) :
    p.parseBer i = (p.content ⟨c, b, tag, .definite cs.length, some (identOctets c b tag),
        some (first i ((full c b tag cs).length - cs.length))⟩
        (first (after i ((full c b tag cs).length - cs.length)) cs.length) >>= fun y =>
      .ok (after i (full c b tag cs).length, y.2)) := by
  unfold Parser.parseBer
  rw [parseHeader_full i c b tag cs rest ht hs hd]
  simp only [bind_ok, ha, Bool.not_true, Bool.false_eq_true, if_false]
  rw [berContent_takeS (n := cs.length) rfl, takeS_eq, if_pos (by
    rw [full_content i c b tag cs rest hd]; simp)]
  simp only [bind_ok]
  rw [after_after]
  have : (full c b tag cs).length - cs.length + cs.length = (full c b tag cs).length := by
    have : cs.length ≤ (full c b tag cs).length := by simp only [full, List.length_append]; omega
    omega
  rw [this]
  rfl

/-- **C64** Deviation: `from_der` of an EXPLICIT tag passes on the `Incomplete` of the object
inside, although the outermost object is complete, so that no further byte ever helps; `parse_ber`
of an EXPLICIT tag does the same. -/
theorem C64_explicit_der_deviation (rest : Bytes) :
    explicitFromDer .contextSpecific 0 (fromDer (uintBer 4) checkDerInt)
      ([0xa0, 0x02, 0x02, 0x05] ++ rest) = .error (.incomplete 5) ∧
    (explicitP .contextSpecific 0 (uintBer 4).parseBer).parseBer
      (Input.fromSlice ([0xa0, 0x02, 0x02, 0x05] ++ rest)) = .error (.incomplete 5) := by
  have e1 : [0xa0, 0x02, 0x02, 0x05] = full .contextSpecific true 0 [0x02, 0x05] := by
    decide +kernel
  refine ⟨?_, ?_⟩
  · unfold explicitFromDer wrapBerParser
    rw [parseDerAny_full (Input.fromSlice ([0xa0, 0x02, 0x02, 0x05] ++ rest)) .contextSpecific true 0
      [0x02, 0x05] rest (by decide) (by decide) (by rw [e1]; rfl)]
    rfl
  · rw [parseBer_full_error _ _ .contextSpecific true 0 [0x02, 0x05] rest (by decide) (by decide)
      (by rw [e1]; rfl) rfl]
    rfl

end Asn1

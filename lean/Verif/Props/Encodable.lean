import Verif.Proofs.Encodable
import Verif.Props.BuiltValue
/-!
# Encoding values of types nested in any way: failing writers (C50) and panics (C84)
-/
namespace Asn1
open Spec Wr

variable {α : Type} {t : ToBer α} {v : α}

/-- **C50** Encoding any value of a type nested in any way to a failing writer. -/
theorem C50_built_failing_writer (h : Encodable false t v) :
    FaultTolerant t v ∧ Tolerant (t.writeHeader v) ∧ Tolerant (t.writeContent v) ∧
    (∀ cls tag, Tolerant (t.encodeTaggedExplicit cls tag v)) ∧
    (∀ cls tag, Tolerant (t.encodeTaggedImplicit cls tag v)) := by
  have ho := orderly_encodable h
  exact ⟨faultTolerant ho.content.strict, strict_tolerant (strict_writeHeader t v),
    strict_tolerant ho.content.strict,
    fun cls tag => strict_tolerant (ho.explicit (fun h => by simp at h) cls tag).strict,
    fun cls tag => strict_tolerant (ho.implicit cls tag).strict⟩

/-- **C84** Encoding a value does not panic, whatever the writer does: `to_ber_vec` and `ber_encode` return,
and so do the methods that write a tagged value or the parts of an object.
Missing: REAL (`C84_real_deviation`) and fields of type `Option` (C78). -/
theorem C84_encode_no_panic_partial (h : Encodable true t v) :
    t.toVec v ≠ .error .panic ∧ ∀ w : Writer,
      (runFaulty w (t.encode v) []).2 ≠ .error .panic ∧
      (runFaulty w (t.writeHeader v) []).2 ≠ .error .panic ∧
      (runFaulty w (t.writeContent v) []).2 ≠ .error .panic ∧
      (∀ cls tag, UsizeLen (t.totalLen v) →
        (runFaulty w (t.encodeTaggedExplicit cls tag v) []).2 ≠ .error .panic) ∧
      (∀ cls tag, (runFaulty w (t.encodeTaggedImplicit cls tag v) []).2 ≠ .error .panic) := by
  have ho := orderly_encodable h
  refine ⟨?_, fun w => ⟨ho.encode.noPanic w [], (neat_writeHeader ho.len).noPanic w [], ho.content.noPanic w [],
    fun cls tag hu => (ho.explicit (fun _ => hu) cls tag).noPanic w [],
    fun cls tag => (ho.implicit cls tag).noPanic w []⟩⟩
  have := ho.encode.exec
  unfold ToBer.toVec
  generalize (t.encode v).exec = x at this
  obtain ⟨bs, r | r⟩ := x
  · intro h; apply this; simpa using h
  · simp

/-- **C84** `Sequence::from_iter_to_der` and `Set::from_iter_to_der` do not panic either. -/
theorem C84_from_iter_no_panic {vs : List α} (h : ∀ v ∈ vs, Encodable true t v) :
    fromIterToDer t vs ≠ .error .panic := by
  have key : ∀ (vs : List α) (b : Bytes), (∀ v ∈ vs, Encodable true t v) → toDerItems t vs b ≠ .error .panic := by
    intro vs
    induction vs with
    | nil => intro b _; simp [toDerItems]
    | cons v vs ih =>
      intro b h
      unfold toDerItems
      have := (C84_encode_no_panic_partial (h v (List.mem_cons_self ..))).1
      split
      · exact ih _ fun x hx => h x (List.mem_cons_of_mem _ hx)
      · rename_i e he
        intro heq; injection heq with heq; subst heq; exact this he
  have := key vs [] h
  unfold fromIterToDer
  split
  · simp
  · rename_i e he
    intro heq; injection heq with heq; subst heq; exact this he

/-- A case. -/
example : (fromIterToDer (uintToBer 2) [1, 300]).isOk = true := by decide +kernel

/-- **C84** Without the condition on REAL the encoder can panic. -/
theorem C84_real_deviation :
    (realToBer noLib).toVec (.binary (.fin false 1 (-100)) 2 0 2) = .error .panic ∧
    Encodable false (realToBer noLib) (.binary (.fin false 1 (-100)) 2 0 2) :=
  ⟨by decide +kernel, .real _ _ (by simp) (by simp)⟩

/-! A case: the struct of C83 with an indefinite-length sequence and a tag around it. -/

theorem usize_small {n : Nat} (h : n < 1000) : UsizeLen (.definite n) := by
  intro m hm
  injection hm with hm
  have e64 : (2 : Nat) ^ 64 = 18446744073709551616 := by decide
  omega

theorem outer_encodable : Encodable true (explicitToBer .contextSpecific 5 (fun _ => 16)
    (indefToBer (structToBer 16 outerEnc)))
    ⟨[((70000, ([altNumber, altText], (true, ()))) : Tup [Nat, List (HSum [Int, Text]), Bool])]⟩ := by
  have hi : Encodable true (intToBer 8) (-5) :=
    .universal (c := intC 8) (.int 8 (by decide)) _ fun _ => usize_small (n := 1) (by decide)
  have hs : Encodable true (strToBer 12) ['A'] :=
    .universal (c := stringC) .string _ fun _ => usize_small (n := 1) (by decide)
  have h1 : Encodable true (choiceToBer .untagged altEnc) altNumber :=
    .choice _ (.here _ _ _ hi fun _ => usize_small (n := 3) (by decide))
  have h2 : Encodable true (choiceToBer .untagged altEnc) altText :=
    .choice _ (.there _ _ (.here _ _ _ hs fun _ => usize_small (n := 3) (by decide)))
  have h3 : Encodable true (listToBer 16 (choiceToBer .untagged altEnc)) [altNumber, altText] := by
    refine .list _ ?_ fun _ => usize_small (n := 6) (by decide)
    intro v hv
    simp only [List.mem_cons, List.not_mem_nil, or_false] at hv
    rcases hv with rfl | rfl
    · exact h1
    · exact h2
  have h4 : Encodable true (uintToBer 4) 70000 :=
    .universal (c := uintC 4) (.uint 4 (by decide)) _ fun _ => usize_small (n := 3) (by decide)
  have h5 : Encodable true boolToBer true :=
    .universal (c := boolC) .bool _ fun _ => usize_small (n := 1) (by decide)
  refine .explicit _ _ _ (.indefinite fun v hv => ?_) fun _ n hn => by
    simp [explicitToBer, indefToBer, berTotalLength, Length.addNat] at hn
  have hv := List.eq_of_mem_singleton hv
  subst hv
  refine .struct _ (.cons _ h4 (fun _ => usize_small (n := 5) (by decide))
    (.cons _ h3 (fun _ => usize_small (n := 8) (by decide))
      (.cons _ h5 (fun _ => usize_small (n := 3) (by decide)) .nil))) fun _ => usize_small (n := 18) (by decide)

end Asn1

import Verif.Props.RawSeq
/-!
# `check_constraints` of containers, `push` (C30, C31)
-/
namespace Asn1
open Spec Wr

variable {α : Type}

theorem checkItems_ok {check : Any → Except SErr Unit} {fuel : Nat} {b : Bytes}
    (hf : b.length < fuel) :
    checkItems check fuel ⟨b, false⟩ = .ok () ↔
      ∃ as, RepeatsB (wrapBerParser parseDerAny) b as ∧ ∀ a ∈ as, check a = .ok () := by
  induction fuel generalizing b with
  | zero => omega
  | succ fuel ih =>
    unfold checkItems
    by_cases hb : b = []
    · subst hb
      rw [seqNext_nil]
      exact ⟨fun _ => ⟨[], .nil, by simp⟩, fun _ => rfl⟩
    · cases hx : wrapBerParser parseDerAny b with
      | ok x =>
        obtain ⟨r, a⟩ := x
        rw [seqNext_ok hb hx]
        have hlt : r.length < fuel := by
          obtain ⟨r', h1, rfl⟩ := wrapBerParser_ok.mp hx
          have := consumes_derAny h1
          omega
        simp only
        constructor
        · intro h
          cases hc : check a with
          | error e => simp [hc] at h
          | ok u =>
            simp only [hc] at h
            obtain ⟨as, h1, h2⟩ := (ih hlt).mp h
            refine ⟨a :: as, .cons hb hx h1, fun c hm => ?_⟩
            rcases List.mem_cons.mp hm with rfl | hm
            · exact hc
            · exact h2 c hm
        · rintro ⟨as, h1, h2⟩
          cases h1 with
          | nil => exact absurd rfl hb
          | cons _ hp ht =>
            rw [hx] at hp
            injection hp with hp; injection hp with e1 e2
            subst e1 e2
            simp only [h2 a (by simp)]
            exact (ih hlt).mpr ⟨_, ht, fun c hm => h2 c (by simp [hm])⟩
      | error e =>
        constructor
        · intro h
          have hne : ¬ ((false || b.isEmpty) = true) := by simpa using hb
          unfold SeqIter.next at h
          simp only [Bool.false_or, List.isEmpty_iff, hb, if_false, hx] at h
          cases e <;> simp at h
        · rintro ⟨as, h1, h2⟩
          cases h1 with
          | nil => exact absurd rfl hb
          | cons _ hp ht => rw [hx] at hp; cases hp

/-- **C30**, **C31** `check_constraints` of the containers (`Vec`, `SequenceOf`: tag 16; sets: tag 17)
accepts exactly the constructed objects of this tag whose content splits, without remainder, into DER
objects that all satisfy the constraints of the items. -/
theorem C30_check_constraints (tag : Nat) (check : Any → Except SErr Unit) (a : Any) :
    seqCheck tag check a = .ok () ↔ a.header.tag = tag ∧ a.header.constructed = true ∧
      ∃ as, RepeatsB (wrapBerParser parseDerAny) a.data.data as ∧ ∀ x ∈ as, check x = .ok () := by
  unfold seqCheck
  rw [bindS_eq_ok]
  constructor
  · rintro ⟨_, h1, h2⟩
    obtain ⟨_, h2, h3⟩ := bindS_eq_ok.mp h2
    exact ⟨assertTagS_ok.mp h1, assertConstructedS_ok.mp h2, (checkItems_ok (by omega)).mp h3⟩
  · rintro ⟨h1, h2, h3⟩
    exact ⟨(), assertTagS_ok.mpr h1, bindS_eq_ok.mpr ⟨(), assertConstructedS_ok.mpr h2,
      (checkItems_ok (by omega)).mpr h3⟩⟩

/-- Cases: the second item of the second content is not a minimal INTEGER. -/
example :
    (wrapBerParser parseDerAny [0x30, 6, 2, 1, 5, 2, 1, 9] >>=
      fun x => seqCheck 16 checkDerInt x.2) = .ok () ∧
    (wrapBerParser parseDerAny [0x30, 7, 2, 1, 5, 2, 2, 0, 9] >>=
      fun x => seqCheck 16 checkDerInt x.2) ≠ .ok () := by
  decide +kernel

theorem writeItems_append {t : ToBer α} {vs : List α} {v : α} {acc : Nat} {bs bv : Bytes} {n m : Nat}
    (h1 : Writes (t.writeItems vs acc) bs n) (h2 : Writes (t.encode v) bv m) :
    Writes (t.writeItems (vs ++ [v]) acc) (bs ++ bv) (n + m) := by
  induction vs generalizing acc bs with
  | nil =>
    obtain ⟨rfl, rfl⟩ := h1.unique (writes_pure acc)
    exact (h2.bind (f := fun sz => (pure (n + sz) : Wr Nat)) (writes_pure _)).congr (by simp) rfl
  | cons w vs ih =>
    obtain ⟨b1, a, b2, g1, g2, rfl⟩ := Writes.bind_inv
      (f := fun sz => t.writeItems vs (acc + sz)) (h1 : Writes (t.encode w >>= _) bs n)
    have := g1.bind (f := fun sz => t.writeItems (vs ++ [v]) (acc + sz)) (ih g2)
    exact this.congr (by simp) rfl

/-- **C30** After `push`, the content of a `SequenceOf` (or of a `Vec`) is the previous content
followed by the encoding of the new item. -/
theorem C30_push (t : ToBer α) (s : SequenceOf α) (v : α) (bs bv : Bytes) (n m tag : Nat)
    (h1 : ((listToBer tag t).writeContent s.items).exec = (bs, .ok n))
    (h2 : (t.encode v).exec = (bv, .ok m)) :
    ((listToBer tag t).writeContent (s.push v).items).exec = (bs ++ bv, .ok (n + m)) :=
  writeItems_append h1 h2

example : ((listToBer 16 (uintToBer 4)).writeContent [3]).exec = ([2, 1, 3], .ok 3) ∧
    ((uintToBer 4).encode 300).exec = ([2, 2, 1, 44], .ok 4) := by decide +kernel

end Asn1

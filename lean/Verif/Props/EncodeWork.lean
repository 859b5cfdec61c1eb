import Verif.Proofs.EncodeWork
import Verif.Props.DeriveWrite
import Verif.Props.Simple
/-!
# C135: the calls that the encoders make to find out the lengths

The encoders find out the lengths of the objects before they write them, and compute the length of an object again for
every object that it is inside of.
-/
namespace Asn1
open Spec

/-- **C135** The encoders that count announce the same lengths, and write the same bytes with the same result, whatever
the writer accepts. -/
theorem C135_same {α : Type} {t : ToBer α} {c : CountingToBer α} {d s : Nat} {p : α → Nat} (h : Counting t c d s p)
    (v : α) :
    (c.contentLen v).1 = t.contentLen v ∧
    ∀ (wr : Wr.Writer) hist, (t.encode v).runFaulty wr hist =
      (((c.encode v).runFaulty wr hist).1, ((c.encode v).runFaulty wr hist).2.map Prod.fst) :=
  ⟨(counting_sound h).1.len v, fun wr hist => erases_run ((counting_sound h).1.encode v) wr hist⟩

/-- **C135** (partial) Without fields with a tag attribute inside: the length of a value takes at most one call for each
of its parts, and encoding a value at most as many calls for each part as the type is deep. Missing: the types with such
fields, for which it is false (`C135_doubling_deviation`). -/
theorem C135_lengths_partial {α : Type} {t : ToBer α} {c : CountingToBer α} {d : Nat} {p : α → Nat}
    (h : Counting t c d 0 p) (v : α) :
    (c.contentLen v).2 ≤ p v ∧
    ∀ (wr : Wr.Writer) hist bs n calls, (c.encode v).runFaulty wr hist = (bs, .ok (n, calls)) → calls ≤ d * p v := by
  obtain ⟨_, hb⟩ := counting_sound h
  refine ⟨by simpa using hb.len v, fun wr hist bs n calls hr => ?_⟩
  simpa using yields_run (hb.encode v) wr hr

/-- **C135** With fields with a tag attribute inside each other, `s` of them at most, it may be `2 ^ s` times as many. -/
theorem C135_tagged {α : Type} {t : ToBer α} {c : CountingToBer α} {d s : Nat} {p : α → Nat}
    (h : Counting t c d s p) (v : α) :
    (c.contentLen v).2 ≤ 2 ^ s * p v ∧
    ∀ (wr : Wr.Writer) hist bs n calls, (c.encode v).runFaulty wr hist = (bs, .ok (n, calls)) →
      calls ≤ (d + s) * (2 ^ s * p v) := by
  obtain ⟨_, hb⟩ := counting_sound h
  exact ⟨hb.len v, fun wr hist bs n calls hr => yields_run (hb.encode v) wr hr⟩

-- A `Vec` of derived structs with an INTEGER, a list of REALs, and a field without attribute of another struct.
example (lib : FloatLib) :
    Counting (listToBer 16 (structToBer 16 (.cons .untagged (uintToBer 4) (.cons .untagged
        (listToBer 16 (realToBer lib)) .nil))))
      (.items 16 0 id (.struct 16 (.cons .untagged (.leaf (uintToBer 4) 1) (.cons .untagged
        (.items 16 0 id (.leaf (realToBer lib) 1)) .nil)))) 4 0
      (fun vs => 1 + (vs.map fun v => 1 + (1 + ((1 + (v.2.1.map fun _ => 1).sum) + 0))).sum) :=
  .vec 16 (.struct 16 (.cons .untagged (.leaf (.uint 4)) (.cons .untagged (.vec 16 (.leaf (.real lib))) .nil)))

-- A set in an EXPLICIT tag in a CHOICE, and a struct with a tagged field.
example :
    Counting (choiceToBer .explicit (.cons 0 (fun _ => (.contextSpecific, true, 3))
        (explicitToBer .contextSpecific 3 (fun _ => 17) (listToBer 17 boolToBer))
        (.cons 1 (fun _ => (.universal, true, 16))
          (structToBer 16 (.cons (.explicit .contextSpecific 0) octetToBer .nil)) .nil)))
      (.choice .explicit (.cons 0 (fun _ => (.contextSpecific, true, 3))
        (.explicit .contextSpecific 3 (fun _ => 17) (.items 17 1 id (.leaf boolToBer 1)))
        (.cons 1 (fun _ => (.universal, true, 16))
          (.struct 16 (.cons (.explicit .contextSpecific 0) (.leaf octetToBer 1) .nil)) .nil))) 4 1
      (fun v => 1 + Sum.elim (fun v => 1 + (2 + (v.inner.map fun _ => 1).sum)) (Sum.elim (fun _ => 1 + (1 + 0))
        fun _ => 0) v) :=
  .choice .explicit (.cons 0 _ (.explicit _ 3 _ (.of 17 (.leaf .bool))) (.cons 1 _ (.struct 16 (.cons _
    (.leaf .octetString) .nil)) .nil))

/-! ### Structs in structs -/

theorem nested_counting (tag : FieldTag) (n : Nat) :
    ∃ p, Counting (nestedEnc tag n) (nestedCount tag n) (n + 1) (n * tagCount tag) p ∧
      ∀ b, p (nestedVal b n) = n + 1 := by
  induction n with
  | zero => exact ⟨_, by rw [Nat.zero_mul]; exact .leaf .bool, fun _ => rfl⟩
  | succ n ih =>
    obtain ⟨p, h, hp⟩ := ih
    refine ⟨fun v => 1 + (p v.1 + 0), ?_, fun b => ?_⟩
    · have := Counting.struct 16 (.cons tag h .nil)
      rw [Nat.max_eq_left (Nat.zero_le _), Nat.max_eq_left (Nat.zero_le _),
        show n * tagCount tag + tagCount tag = (n + 1) * tagCount tag by rw [Nat.add_mul, Nat.one_mul]] at this
      exact this
    · show 1 + (p (nestedVal b n) + 0) = _
      rw [hp]; omega

theorem nested_len_calls {tag : FieldTag} (ht : tag ≠ .untagged) (b : Bool) (n : Nat) :
    ((nestedCount tag n).contentLen (nestedVal b n)).2 + 1 = 2 ^ (n + 1) := by
  induction n with
  | zero => rfl
  | succ n ih =>
    have : ((nestedCount tag (n + 1)).contentLen (nestedVal b (n + 1))).2 =
        1 + ((nestedCount tag n).contentLen (nestedVal b n)).2 + ((nestedCount tag n).contentLen (nestedVal b n)).2 := by
      cases tag with
      | untagged => exact absurd rfl ht
      | explicit cls k => rfl
      | implicit cls k => rfl
    rw [this, Nat.pow_succ, ← ih]
    omega

theorem nested_content_calls (cls : Class) (k : Nat) (b : Bool) (n : Nat) :
    ((nestedCount (.explicit cls k) n).writeContent (nestedVal b n)).Yields fun x => x.2 + n + 4 = 2 ^ (n + 2) := by
  induction n with
  | zero => exact yields_bind (yields_true _) fun _ _ => rfl
  | succ n ih =>
    have hl := nested_len_calls (tag := .explicit cls k) (by simp) b n
    refine yields_bind (P := fun x => x.2 + (n + 1) + 4 = 2 ^ (n + 3)) ?_ fun a ha => ?_
    · unfold CountingToBer.writeField CountingToBer.encodeTaggedExplicit
      refine yields_bind (header_calls _ _) fun a ha => yields_bind (header_calls _ _) fun e he =>
        yields_bind ih fun f hf => ?_
      show ((nestedCount (.explicit cls k) n).contentLen (nestedVal b n)).2 + a.2 + e.2 + f.2 + (n + 1) + 4 = _
      have ha : a.2 = 1 := ha
      rw [show 2 ^ (n + 3) = 2 ^ (n + 1) * 2 * 2 by rw [← Nat.pow_succ, ← Nat.pow_succ]]
      rw [show 2 ^ (n + 2) = 2 ^ (n + 1) * 2 by rw [← Nat.pow_succ]] at hf
      omega
    · show 0 + a.2 + (n + 1) + 4 = 2 ^ (n + 1 + 2)
      rw [Nat.zero_add]; exact ha

theorem headerLength_small (k : Nat) (hk : k < 31) (l : Length) : headerLengthOr0 k l ≤ 5 := by
  unfold headerLengthOr0 berHeaderLength berTagLength
  rw [if_pos (by omega)]
  cases l with
  | indefinite => decide
  | definite l =>
    unfold berLengthLength
    simp only
    split
    · rename_i h
      simp only [bind, Except.bind] at h
      split at h
      · cases h
      · rename_i h2
        cases h
        split at h2
        · cases h2; omega
        · split at h2
          · cases h2; omega
          · split at h2
            · cases h2; omega
            · split at h2
              · cases h2; omega
              · cases h2
    · omega

/-- The encoding is short. -/
theorem nested_size (cls : Class) {k : Nat} (hk : k < 31) (b : Bool) (n : Nat) (hn : n ≤ 2 ^ 20) :
    ∃ cs, Encodes (nestedEnc (.explicit cls k) n) (nestedVal b n) cs ∧ cs.length ≤ 1 + 15 * n := by
  have e20 : (2 : Nat) ^ 20 = 1048576 := by decide
  have e24 : (2 : Nat) ^ 24 = 16777216 := by decide
  have e64 : (2 : Nat) ^ 64 = 18446744073709551616 := by decide
  have e32 : (2 : Nat) ^ 32 = 4294967296 := by decide
  induction n with
  | zero => exact ⟨_, bool_encodes b, by simp⟩
  | succ n ih =>
    obtain ⟨cs, he, hl⟩ := ih (by omega)
    have hf : Fits (nestedEnc (.explicit cls k) n) (nestedVal b n) :=
      ⟨he.lengths (by omega), ⟨_, he.len, by omega⟩, he.tag⟩
    obtain ⟨hd, cs', _, h2, _, _, _, h6, h7⟩ := fits_total hf
    have hc : cs'.length = cs.length := by rw [he.len] at h2; injection h2 with h2; exact h2.symm
    have hff : FieldsFit (.cons (.explicit cls k) (nestedEnc (.explicit cls k) n) .nil)
        ((nestedVal b n, ()) : Tup [Nested n]) :=
      .cons hf (by show k < 2 ^ 32; omega) (fun _ m hm => by rw [h6] at hm; injection hm with hm; omega) .nil
    obtain ⟨bs, h8, h9⟩ := fields_write hff
    have h0 : overcount (.cons (.explicit cls k) (nestedEnc (.explicit cls k) n) .nil)
        ((nestedVal b n, ()) : Tup [Nested n]) = 0 := rfl
    rw [h0] at h9
    refine ⟨bs, ?_, ?_⟩
    · exact struct_encodes (by omega) ((h8 0).congr rfl (Nat.zero_add _))
        ((h9 0).trans (by rw [Nat.zero_add, Nat.add_zero]))
    · have h10 := h9 0
      simp only [EncFields.len, FieldTag.addLen, h6] at h10
      have h11 := headerLength_small k hk (.definite (hd ++ cs').length)
      simp only [Length.addNat, Length.add] at h10
      injection h10 with h10
      omega

/-- **C135** Deviation: the length of a field with a tag attribute is computed twice for the length of the struct it is
in, so the calls double with each such struct inside another: `n` structs inside each other, an encoding of at most
`15 * (n + 1)` bytes, take more than `2 ^ (n + 1)` calls. -/
theorem C135_doubling_deviation (cls : Class) {k : Nat} (hk : k < 31) (b : Bool) (n : Nat) (hn : n ≤ 2 ^ 20) :
    ((nestedCount (.explicit cls k) n).contentLen (nestedVal b n)).2 = 2 ^ (n + 1) - 1 ∧
    ((nestedCount (.implicit cls k) n).contentLen (nestedVal b n)).2 = 2 ^ (n + 1) - 1 ∧
    ∃ bs calls, (nestedEnc (.explicit cls k) n).toVec (nestedVal b n) = .ok bs ∧ bs.length ≤ 15 * (n + 1) ∧
      ((nestedCount (.explicit cls k) n).encode (nestedVal b n)).exec = (bs, .ok (bs.length, calls)) ∧
      calls = 3 * 2 ^ (n + 1) - (n + 5) := by
  have e20 : (2 : Nat) ^ 20 = 1048576 := by decide
  have e64 : (2 : Nat) ^ 64 = 18446744073709551616 := by decide
  have l1 := nested_len_calls (tag := .explicit cls k) (by simp) b n
  have l2 := nested_len_calls (tag := .implicit cls k) (by simp) b n
  refine ⟨by omega, by omega, ?_⟩
  obtain ⟨cs, he, hl⟩ := nested_size cls hk b n hn
  have hw := he.encode (by omega)
  obtain ⟨p, hc, _⟩ := nested_counting (.explicit cls k) n
  have h1 := erases_exec ((counting_sound hc).1.encode (nestedVal b n))
  rw [hw] at h1
  have hlen : ((nestedEnc (.explicit cls k) n).fullOf (nestedVal b n) cs).length ≤ cs.length + 10 := by
    have hf : Fits (nestedEnc (.explicit cls k) n) (nestedVal b n) :=
      ⟨he.lengths (by omega), ⟨_, he.len, by rw [show (2 : Nat) ^ 24 = 16777216 by decide]; omega⟩, he.tag⟩
    obtain ⟨hd, cs', _, h2, _, _, _, h6, h7⟩ := fits_total hf
    rw [he.len] at h2
    rw [he.totalLen (by rw [show (2 : Nat) ^ 24 = 16777216 by decide]; omega)] at h6
    injection h2 with h2
    injection h6 with h6
    omega
  rcases hx : ((nestedCount (.explicit cls k) n).encode (nestedVal b n)).exec with ⟨bs, e | ⟨m, calls⟩⟩
  · rw [hx] at h1; cases (Prod.mk.inj h1).2
  · rw [hx] at h1
    obtain ⟨h2, h3⟩ := Prod.mk.inj h1
    injection h3 with h3
    simp only at h2 h3
    subst h2
    refine ⟨(nestedEnc (.explicit cls k) n).fullOf (nestedVal b n) cs, calls, ?_, ?_, ?_, ?_⟩
    · rw [he.toVec (by omega)]
    · omega
    · rw [← h3]
    · have hy : ((nestedCount (.explicit cls k) n).encode (nestedVal b n)).Yields
          fun x => x.2 + (n + 5) = 3 * 2 ^ (n + 1) := by
        unfold CountingToBer.encode
        refine yields_bind (header_calls _ _) fun a ha => yields_bind (nested_content_calls cls k b n) fun e he => ?_
        show a.2 + e.2 + (n + 5) = _
        rw [show 2 ^ (n + 2) = 2 ^ (n + 1) * 2 by rw [← Nat.pow_succ]] at he
        omega
      have := yields_exec hy hx
      simp only at this
      omega

-- Ten structs inside each other: 43 bytes, 6129 calls; the value has eleven parts.
example : ((nestedCount (.explicit .contextSpecific 0) 10).encode (nestedVal true 10)).exec.2 = .ok (43, 6129) := by
  decide +kernel

/-- **C135** Without the attributes the calls still are as many as the square of the depth: the bound above cannot be
improved to a multiple of the number of parts. -/
theorem C135_square (b : Bool) (n : Nat) :
    (∃ p, Counting (nestedEnc .untagged n) (nestedCount .untagged n) (n + 1) 0 p ∧ p (nestedVal b n) = n + 1) ∧
    ∀ (wr : Wr.Writer) hist bs m calls,
      ((nestedCount .untagged n).encode (nestedVal b n)).runFaulty wr hist = (bs, .ok (m, calls)) →
      2 * calls = (n + 1) * (n + 2) := by
  have hl : ∀ n, ((nestedCount .untagged n).contentLen (nestedVal b n)).2 = n + 1 := by
    intro n
    induction n with
    | zero => rfl
    | succ n ih =>
      show 1 + ((nestedCount .untagged n).contentLen (nestedVal b n)).2 = _
      rw [ih]; omega
  have hy : ∀ n, ((nestedCount .untagged n).encode (nestedVal b n)).Yields fun x => 2 * x.2 = (n + 1) * (n + 2) := by
    intro n
    induction n with
    | zero =>
      refine yields_bind (header_calls _ _) fun a ha => yields_bind (P := fun x : WithCalls Nat => x.2 = 0)
        (yields_bind (yields_true _) fun _ _ => rfl) fun e he => ?_
      show 2 * (a.2 + e.2) = 2
      rw [hl] at ha
      omega
    | succ n ih =>
      refine yields_bind (header_calls _ _) fun a ha => yields_bind (P := fun x => 2 * x.2 = (n + 1) * (n + 2))
        (yields_bind ih fun e he => ?_) fun e he => ?_
      · show 2 * (0 + e.2) = _
        rw [Nat.zero_add]; exact he
      · show 2 * (a.2 + e.2) = (n + 1 + 1) * (n + 1 + 2)
        rw [hl] at ha
        rw [Nat.mul_add, he, ha, show (n + 1 + 1) * (n + 1 + 2) = (n + 2) * (n + 1) + (n + 2) * 2 by
          rw [← Nat.mul_add], Nat.mul_comm (n + 1)]
        omega
  refine ⟨?_, fun wr hist bs m calls hr => yields_run (hy n) wr hr⟩
  obtain ⟨p, h1, h2⟩ := nested_counting .untagged n
  rw [tagCount, Nat.mul_zero] at h1
  exact ⟨p, h1, h2 b⟩

end Asn1

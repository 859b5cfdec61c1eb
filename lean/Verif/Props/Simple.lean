import Verif.Model.Simple
import Verif.Proofs.Back
/-!
# BOOLEAN, NULL, ENUMERATED (C19, C20, C21)
-/
namespace Asn1
open Spec Wr

variable {α : Type}

/-! ### BOOLEAN -/

theorem boolean_encodes (v : UInt8) : Encodes booleanToBer v [v] :=
  ⟨((writes_writeAll [v]).bind (f := fun _ => (pure 1 : Wr Nat)) (writes_pure _)), rfl,
    (by decide : (1 : Nat) < 2 ^ 32), rfl⟩

theorem boolean_encodesDer (v : UInt8) :
    Encodes booleanToDer v [if v ≠ 0 then 0xff else 0x00] :=
  ⟨((writes_writeAll _).bind (f := fun _ => (pure 1 : Wr Nat)) (writes_pure _)), rfl,
    (by decide : (1 : Nat) < 2 ^ 32), rfl⟩

theorem bool_encodes (v : Bool) : Encodes boolToBer v [if v then 0xff else 0x00] :=
  ⟨((writes_writeAll _).bind (f := fun _ => (pure 1 : Wr Nat)) (writes_pure _)), rfl,
    (by decide : (1 : Nat) < 2 ^ 32), rfl⟩

theorem booleanContent_ok {h : Header} {i r : Input} {b : UInt8} :
    booleanContent h i = .ok (r, b) ↔
      h.constructed = false ∧ h.length = .definite 1 ∧ i.data = b :: r.data ∧ r = after i 1 := by
  unfold booleanContent
  constructor
  · intro hh
    obtain ⟨_, h1, hh⟩ := bind_eq_ok.mp hh
    split at hh
    · simp [nomErr] at hh
    · rename_i h2
      simp at h2
      unfold beU8 at hh
      split at hh
      · simp at hh
      · rename_i c cs hc
        simp at hh
        obtain ⟨rfl, rfl⟩ := hh
        exact ⟨assertPrimitive_ok.mp h1, h2, hc, by simp [after, hc]⟩
  · rintro ⟨h1, h2, h3, h4⟩
    refine bind_eq_ok.mpr ⟨(), assertPrimitive_ok.mpr h1, ?_⟩
    rw [if_neg (by simp [h2])]
    unfold beU8
    rw [h3, h4]; simp [after, h3]

theorem booleanDerContent_ok {h : Header} {i r : Input} {b : UInt8} :
    booleanDerContent h i = .ok (r, b) ↔ booleanContent h i = .ok (r, b) ∧ (b = 0 ∨ b = 0xff) := by
  unfold booleanDerContent
  constructor
  · intro hh
    obtain ⟨⟨r1, c⟩, h1, hh⟩ := bind_eq_ok.mp hh
    simp only at hh
    split at hh
    · simp [nomErr] at hh
    · rename_i h2
      simp at hh h2
      obtain ⟨rfl, rfl⟩ := hh
      exact ⟨h1, by by_cases e : c = 0 <;> simp_all⟩
  · rintro ⟨h1, h2⟩
    refine bind_eq_ok.mpr ⟨(r, b), h1, ?_⟩
    simp only
    rw [if_neg (by rcases h2 with rfl | rfl <;> simp)]; rfl

theorem map_content {β : Type} {p : Parser α} {f : α → β} {h : Header} {i r : Input} {b : β} :
    (p.map f).content h i = .ok (r, b) ↔ ∃ a, p.content h i = .ok (r, a) ∧ b = f a := by
  unfold Parser.map
  simp only
  split
  · rename_i r1 a e
    rw [e]
    simp only [Except.ok.injEq, Prod.mk.injEq]
    constructor
    · rintro ⟨h1, h2⟩; exact ⟨a, ⟨h1, rfl⟩, h2.symm⟩
    · rintro ⟨a', ⟨h1, h2⟩, h3⟩; exact ⟨h1, by rw [h3, h2]⟩
  · rename_i e; rw [e]; simp

theorem safe_map {β : Type} {p : Parser α} {f : α → β} (hp : p.Safe) : (p.map f).Safe := by
  intro h i
  have := hp h i
  unfold Parser.map
  simp only
  cases hc : p.content h i with
  | ok x => simp
  | error e => rw [hc] at this; cases e <;> simp at this ⊢

theorem safe_boolean : booleanBer.Safe ∧ booleanDer.Safe := by
  have h : booleanBer.Safe := fun hd i =>
    NoPanic.bind (safe_assertPrimitive hd i) fun _ _ => by
      split
      · exact noPanic_nomErr _ _
      · exact noPanic_beU8 i
  refine ⟨h, fun hd i => NoPanic.bind (h hd i) fun x _ => ?_⟩
  obtain ⟨a, b⟩ := x
  simp only
  split
  · exact noPanic_nomErr _ _
  · exact noPanic_ok _

/-- **C19** BOOLEAN. BER accepts exactly the objects with tag number 1 that are primitive
with one content octet, `00` meaning false and anything else true; DER (both APIs) accepts
exactly `00` and `ff`. (What is missing from C19: `from_der` panics on an empty content, see
`C19_from_der_panics`.) -/
theorem C19_boolean_partial (i r : Input) (b : Bool) :
    (boolBer.parseBer i = .ok (r, b) ↔ ∃ a x, parseBerAny i = .ok (r, a) ∧ a.header.tag = 1 ∧
      a.header.constructed = false ∧ a.data.data = [x] ∧ (b = true ↔ x ≠ 0)) ∧
    (boolDer.parseDer i = .ok (r, b) ↔ ∃ a, parseDerAny i = .ok (r, a) ∧ a.header.tag = 1 ∧
      a.header.constructed = false ∧ a.data.data = [if b then 0xff else 0]) ∧
    NoPanic (boolBer.parseBer i) ∧ NoPanic (boolDer.parseDer i) := by
  refine ⟨?_, ?_, safe_parseBer (safe_map safe_boolean.1) i,
    safe_parseDer (safe_map safe_boolean.2) i⟩
  · rw [parseBer_ok]
    constructor
    · rintro ⟨a, x, h1, h2, h3⟩
      obtain ⟨c, h4, rfl⟩ := map_content.mp h3
      obtain ⟨h5, h6, h7, _⟩ := booleanContent_ok.mp h4
      have hlen := berAny_definite h1 h6
      refine ⟨a, c, h1, by simpa [boolBer, Parser.map, booleanBer, tagIs, tagBoolean] using h2, h5,
        ?_, by simp [booleanBool]⟩
      rw [h7] at hlen ⊢
      simp at hlen; simp [hlen]
    · rintro ⟨a, x, h1, h2, h3, h4, h5⟩
      refine ⟨a, after a.data 1, h1, by simpa [boolBer, Parser.map, booleanBer, tagIs, tagBoolean]
        using h2, map_content.mpr ⟨x, booleanContent_ok.mpr ⟨h3, ?_, ?_, rfl⟩, ?_⟩⟩
      · rw [berAny_primitive h1 h3, h4]; rfl
      · simp [h4]
      · rw [booleanBool]; by_cases hx : x = 0 <;> simp_all
  · rw [parseDer_ok]
    constructor
    · rintro ⟨a, x, h1, h2, h3⟩
      obtain ⟨c, h4, rfl⟩ := map_content.mp h3
      obtain ⟨h4, h8⟩ := booleanDerContent_ok.mp h4
      obtain ⟨h5, h6, h7, _⟩ := booleanContent_ok.mp h4
      have hlen := derAny_definite h1
      refine ⟨a, h1, by simpa [boolDer, Parser.map, booleanDer, tagIs, tagBoolean] using h2, h5, ?_⟩
      rw [h6] at hlen
      rw [h7] at hlen ⊢
      simp at hlen
      rw [hlen]
      rcases h8 with rfl | rfl <;> simp [booleanBool]
    · rintro ⟨a, h1, h2, h3, h4⟩
      refine ⟨a, after a.data 1, h1, by simpa [boolDer, Parser.map, booleanDer, tagIs, tagBoolean]
        using h2, map_content.mpr ⟨if b then 0xff else 0,
          booleanDerContent_ok.mpr ⟨booleanContent_ok.mpr ⟨h3, ?_, ?_, rfl⟩, ?_⟩, ?_⟩⟩
      · rw [derAny_definite h1, h4]; rfl
      · simp [h4]
      · cases b <;> simp
      · cases b <;> simp [booleanBool]

/-- Round-trip of `bool` through the four APIs; `Boolean` keeps its byte in BER and its truth
value (`00`/`ff`) in DER. -/
theorem C19_boolean_roundtrip :
    (∀ b, ParseBerBack boolToBer boolBer b b ∧ FromBerBack boolToBer boolBer b b ∧
      ParseDerBack boolToBer boolDer b b ∧ FromDerBack boolToBer boolBer booleanCheck b b) ∧
    (∀ x, ParseBerBack booleanToBer booleanBer x x ∧
      ParseDerBack booleanToDer booleanDer x (if x ≠ 0 then 0xff else 0x00)) := by
  have hdec : ∀ x : UInt8, Decodes booleanBer false [x] x := fun x h d h1 h2 h3 =>
    ⟨after d 1, booleanContent_ok.mpr ⟨h1, h2, by simp [h3], rfl⟩⟩
  have hdecD : ∀ x : UInt8, x = 0 ∨ x = 0xff → Decodes booleanDer false [x] x :=
    fun x hx h d h1 h2 h3 => ⟨after d 1, booleanDerContent_ok.mpr
      ⟨booleanContent_ok.mpr ⟨h1, h2, by simp [h3], rfl⟩, hx⟩⟩
  have hb : ∀ b : Bool, Decodes boolBer false [if b then 0xff else 0x00] b := by
    intro b h d h1 h2 h3
    obtain ⟨x, hx⟩ := hdec _ h d h1 h2 h3
    exact ⟨x, map_content.mpr ⟨_, hx, by cases b <;> rfl⟩⟩
  have hbD : ∀ b : Bool, Decodes boolDer false [if b then 0xff else 0x00] b := by
    intro b h d h1 h2 h3
    obtain ⟨x, hx⟩ := hdecD _ (by cases b <;> simp) h d h1 h2 h3
    exact ⟨x, map_content.mpr ⟨_, hx, by cases b <;> rfl⟩⟩
  constructor
  · intro b
    have h1 := back_ber (p := boolBer) (bool_encodes b) (by simp) rfl (hb b)
    refine ⟨h1.1, h1.2, back_der (bool_encodes b) (by simp) rfl (hbD b),
      back_fromDer (bool_encodes b) (by simp) rfl (hb b) ?_⟩
    intro a _ _ h
    unfold booleanCheck
    rw [h]
    cases b <;> simp
  · intro x
    exact ⟨(back_ber (boolean_encodes x) (by simp) rfl (hdec x)).1,
      back_der (boolean_encodesDer x) (by simp) rfl (hdecD _ (by by_cases h : x = 0 <;> simp [h]))⟩

/-- `bool::from_der` panics exactly on well-formed DER objects without content, whatever their
tag. -/
theorem C19_from_der_panics (bytes : Bytes) :
    fromDer boolBer booleanCheck bytes = .error .panic ↔
      ∃ r a, parseDerAny (Input.fromSlice bytes) = .ok (r, a) ∧ a.data.data = [] := by
  have hs := safe_wrap (fun i => ⟨good_parseDerAny.noPanic i, good_parseDerAny.noDiverge i⟩) bytes
  have ht := fun a => safe_tryFromAny (p := boolBer) (safe_map safe_boolean.1) a
  unfold fromDer
  constructor
  · intro h
    cases hw : wrapBerParser parseDerAny bytes with
    | error e => rw [hw] at h hs; simp [Bind.bind, Except.bind] at h; simp [h] at hs
    | ok x =>
      obtain ⟨rem, a⟩ := x
      obtain ⟨r, h1, h2⟩ := wrapBerParser_ok.mp hw
      refine ⟨r, a, h1, ?_⟩
      rw [hw] at h
      cases hd : a.data.data with
      | nil => rfl
      | cons c cs =>
        exfalso
        revert h
        simp only [Bind.bind, Except.bind, booleanCheck, hd]
        by_cases hcc : (!(decide (c = 0) || decide (c = 255))) = true
        · rw [if_pos hcc]; simp
        · rw [if_neg hcc]
          have := (ht a).1
          cases hta : tryFromAny boolBer a with
          | error e => rw [hta] at this; simpa using this
          | ok v => simp [pure, Except.pure]
  · rintro ⟨r, a, h1, h2⟩
    rw [wrapBerParser_ok.mpr ⟨r, h1, rfl⟩]
    simp [Bind.bind, Except.bind, booleanCheck, h2]

/-- The panic is real: `01 00`, and even `05 00` (NULL). -/
example : fromDer boolBer booleanCheck [0x01, 0x00] = .error .panic ∧
    fromDer boolBer booleanCheck [0x05, 0x00] = .error .panic := by decide +kernel

/-- When it does not panic, `from_der` agrees with `parse_der`. -/
theorem C38_bool_apis_agree (bytes rem : Bytes) (b : Bool) :
    fromDer boolBer booleanCheck bytes = .ok (rem, b) ↔
      ∃ r, boolDer.parseDer (Input.fromSlice bytes) = .ok (r, b) ∧ r.data = rem := by
  rw [fromDer_ok]
  constructor
  · rintro ⟨r, a, x, h1, h2, h3, h4, h5⟩
    obtain ⟨c, h6, rfl⟩ := map_content.mp h5
    refine ⟨r, parseDer_ok.mpr ⟨a, x, h1, h4, map_content.mpr ⟨c,
      booleanDerContent_ok.mpr ⟨h6, ?_⟩, rfl⟩⟩, h2⟩
    unfold booleanCheck at h3
    rw [(booleanContent_ok.mp h6).2.2.1] at h3
    simp only at h3
    by_cases e : c = 0
    · exact .inl e
    · by_cases e2 : c = 0xff
      · exact .inr e2
      · simp [e, e2] at h3
  · rintro ⟨r, h, h2⟩
    obtain ⟨a, x, h1, h3, h4⟩ := parseDer_ok.mp h
    obtain ⟨c, h6, rfl⟩ := map_content.mp h4
    obtain ⟨h7, h8⟩ := booleanDerContent_ok.mp h6
    refine ⟨r, a, x, h1, h2, ?_, h3, map_content.mpr ⟨c, h7, rfl⟩⟩
    unfold booleanCheck
    rw [(booleanContent_ok.mp h7).2.2.1]
    rcases h8 with rfl | rfl <;> simp

/-! ### NULL -/

theorem null_encodes : Encodes nullToBer () [] :=
  ⟨writes_pure _, rfl, (by decide : (5 : Nat) < 2 ^ 32), rfl⟩

theorem nullContent_ok {h : Header} {i r : Input} :
    nullContent h i = .ok (r, ()) ↔ h.constructed = false ∧ h.length = .definite 0 ∧ r = i := by
  unfold nullContent
  constructor
  · intro hh
    obtain ⟨_, h1, hh⟩ := bind_eq_ok.mp hh
    split at hh
    · simp [nomErr] at hh
    · rename_i h2
      simp [Length.isNull] at h2 hh
      exact ⟨assertPrimitive_ok.mp h1, h2, hh.symm⟩
  · rintro ⟨h1, h2, h3⟩
    refine bind_eq_ok.mpr ⟨(), assertPrimitive_ok.mpr h1, ?_⟩
    simp [h2, Length.isNull, h3]

theorem safe_null : nullP.Safe := fun hd i =>
  NoPanic.bind (safe_assertPrimitive hd i) fun _ _ => by
    split
    · exact noPanic_nomErr _ _
    · exact noPanic_ok _

/-- **C20** NULL is accepted (in BER, in DER, by the four APIs) exactly for objects with tag number
5, primitive, without content; it encodes as `05 00`, which decodes. -/
theorem C20_null (i r : Input) :
    (nullP.parseBer i = .ok (r, ()) ↔ ∃ a, parseBerAny i = .ok (r, a) ∧ a.header.tag = 5 ∧
      a.header.constructed = false ∧ a.data.data = []) ∧
    (nullP.parseDer i = .ok (r, ()) ↔ ∃ a, parseDerAny i = .ok (r, a) ∧ a.header.tag = 5 ∧
      a.header.constructed = false ∧ a.data.data = []) ∧
    nullToBer.toVec () = .ok [0x05, 0x00] ∧
    (∀ rest, fromDer nullP nullCheck ([0x05, 0x00] ++ rest) = .ok (rest, ())) ∧
    (∀ rest, fromBer nullP ([0x05, 0x00] ++ rest) = .ok (rest, ())) := by
  have hv : nullToBer.toVec () = .ok [0x05, 0x00] := by decide +kernel
  have hdec : Decodes nullP false [] () := fun h d h1 h2 h3 =>
    ⟨d, nullContent_ok.mpr ⟨h1, h2, rfl⟩⟩
  refine ⟨?_, ?_, hv, ?_, ?_⟩
  · rw [parseBer_ok]
    constructor
    · rintro ⟨a, x, h1, h2, h3⟩
      obtain ⟨h4, h5, _⟩ := nullContent_ok.mp h3
      exact ⟨a, h1, by simpa [nullP, tagIs, tagNull] using h2, h4,
        List.length_eq_zero_iff.mp (berAny_definite h1 h5)⟩
    · rintro ⟨a, h1, h2, h3, h4⟩
      exact ⟨a, _, h1, by simpa [nullP, tagIs, tagNull] using h2,
        nullContent_ok.mpr ⟨h3, by rw [berAny_primitive h1 h3, h4]; rfl, rfl⟩⟩
  · rw [parseDer_ok]
    constructor
    · rintro ⟨a, x, h1, h2, h3⟩
      obtain ⟨h4, h5, _⟩ := nullContent_ok.mp h3
      refine ⟨a, h1, by simpa [nullP, tagIs, tagNull] using h2, h4, ?_⟩
      rw [derAny_definite h1] at h5
      simpa using h5
    · rintro ⟨a, h1, h2, h3, h4⟩
      exact ⟨a, _, h1, by simpa [nullP, tagIs, tagNull] using h2,
        nullContent_ok.mpr ⟨h3, by rw [derAny_definite h1, h4]; rfl, rfl⟩⟩
  · obtain ⟨bs, h1, h2⟩ := back_fromDer (check := nullCheck) null_encodes (by simp) rfl hdec
      (fun _ _ _ _ => rfl)
    rw [hv] at h1; simp at h1; subst h1; exact h2
  · obtain ⟨bs, h1, h2⟩ := (back_ber null_encodes (by simp) rfl hdec).2
    rw [hv] at h1; simp at h1; subst h1; exact h2

/-- NULL: `from_der` and `parse_der` agree. -/
theorem C38_null_apis_agree (bytes rem : Bytes) :
    fromDer nullP nullCheck bytes = .ok (rem, ()) ↔
      ∃ r, nullP.parseDer (Input.fromSlice bytes) = .ok (r, ()) ∧ r.data = rem := by
  rw [fromDer_ok]
  constructor
  · rintro ⟨r, a, x, h1, h2, h3, h4, h5⟩
    exact ⟨r, parseDer_ok.mpr ⟨a, x, h1, h4, h5⟩, h2⟩
  · rintro ⟨r, h, h2⟩
    obtain ⟨a, x, h1, h3, h4⟩ := parseDer_ok.mp h
    exact ⟨r, a, x, h1, h2, rfl, h3, h4⟩

/-! ### ENUMERATED -/

theorem enum_encodes {v : Nat} (hv : v < 2 ^ 32) :
    ∃ cs, Encodes enumeratedToBer v cs ∧ MinimalInt cs ∧ twos cs = v ∧ cs.length ≤ 5 := by
  obtain ⟨d, h1, h2, h3, h4⟩ := fromUint_spec (N := 4) (by decide) (v := v) (by simpa using hv)
  refine ⟨d, ⟨?_, ?_, (by decide : (10 : Nat) < 2 ^ 32), rfl⟩, h2, h3, h4⟩
  · show Writes (writeBytes ((Integer.fromUint 4 v).map (·.data))) _ _
    rw [h1]; exact writeBytes_some d
  · show lenBytes ((Integer.fromUint 4 v).map (·.data)) = _
    rw [h1]; rfl

theorem enumBer_content {h : Header} {i r : Input} {v : Nat} :
    enumeratedBer.content h i = .ok (r, v) ↔ (uintBer 4).content h i = .ok (r, v) := by
  show (h.assertPrimitive i >>= fun _ => (uintBer 4).content h i) = _ ↔ _
  rw [bind_eq_ok]
  constructor
  · rintro ⟨_, _, h2⟩; exact h2
  · intro h2; exact ⟨(), assertPrimitive_ok.mpr ((uintContent_ok (by decide)).mp h2).1, h2⟩

theorem enumDer_content {h : Header} {i r : Input} {v : Nat} :
    enumeratedDer.content h i = .ok (r, v) ↔ (uintDer 4).content h i = .ok (r, v) := by
  show (h.assertPrimitive i >>= fun _ => (uintDer 4).content h i) = _ ↔ _
  rw [bind_eq_ok]
  constructor
  · rintro ⟨_, _, h2⟩; exact h2
  · intro h2; exact ⟨(), assertPrimitive_ok.mpr ((uintDer_content (by decide)).mp h2).2.1, h2⟩

theorem safe_enum : enumeratedBer.Safe ∧ enumeratedDer.Safe :=
  ⟨fun hd i => NoPanic.bind (safe_assertPrimitive hd i) fun _ _ => (safe_uint 4).1 hd i,
   fun hd i => NoPanic.bind (safe_assertPrimitive hd i) fun _ _ => (safe_uint 4).2 hd i⟩

/-- **C21** ENUMERATED: values below 2^32 round-trip; the accepted contents are exactly those
denoting a number in 0..2^32 (DER: in minimal form), decoded to that number. -/
theorem C21_enumerated :
    (∀ v, v < 2 ^ 32 → ParseBerBack enumeratedToBer enumeratedBer v v ∧
      FromBerBack enumeratedToBer enumeratedBer v v ∧
      ParseDerBack enumeratedToBer enumeratedDer v v ∧
      FromDerBack enumeratedToBer enumeratedBer enumeratedCheck v v) ∧
    (∀ i r v, enumeratedBer.parseBer i = .ok (r, v) ↔ ∃ a, parseBerAny i = .ok (r, a) ∧
      a.header.tag = 10 ∧ a.header.constructed = false ∧ 0 ≤ twos a.data.data ∧
      twos a.data.data < 2 ^ 32 ∧ (v : Int) = twos a.data.data) ∧
    (∀ i r v, enumeratedDer.parseDer i = .ok (r, v) ↔ ∃ a, parseDerAny i = .ok (r, a) ∧
      a.header.tag = 10 ∧ a.header.constructed = false ∧ MinimalInt a.data.data ∧
      0 ≤ twos a.data.data ∧ twos a.data.data < 2 ^ 32 ∧ (v : Int) = twos a.data.data) := by
  refine ⟨?_, ?_, ?_⟩
  · intro v hv
    obtain ⟨cs, he, hm, hc, hl⟩ := enum_encodes hv
    have hs : cs.length < 2 ^ 64 := by omega
    have hv' : v < 256 ^ 4 := by simpa using hv
    have hd : Decodes enumeratedBer false cs v := fun h d h1 h2 h3 =>
      let ⟨x, hx⟩ := uint_decodes (N := 4) (by decide) hv' hc h d h1 h2 h3
      ⟨x, enumBer_content.mpr hx⟩
    have hdD : Decodes enumeratedDer false cs v := fun h d h1 h2 h3 =>
      let ⟨x, hx⟩ := uint_decodesDer (N := 4) (by decide) hv' hm hc h d h1 h2 h3
      ⟨x, enumDer_content.mpr hx⟩
    have h1 := back_ber he hs (p := enumeratedBer) rfl hd
    refine ⟨h1.1, h1.2, back_der he hs rfl hdD, back_fromDer he hs rfl hd ?_⟩
    intro a _ h _
    unfold enumeratedCheck assertDefiniteS
    rw [h]; rfl
  · intro i r v
    rw [parseBer_ok]
    constructor
    · rintro ⟨a, x, h1, h2, h3⟩
      obtain ⟨h4, h5, h6, _⟩ := (uintContent_ok (by decide)).mp (enumBer_content.mp h3)
      exact ⟨a, h1, by simpa [enumeratedBer, tagIs, tagEnumerated] using h2, h4, h5.1,
        by simpa using h5.2, h6⟩
    · rintro ⟨a, h1, h2, h3, h4, h5, h6⟩
      exact ⟨a, _, h1, by simpa [enumeratedBer, tagIs, tagEnumerated] using h2,
        enumBer_content.mpr ((uintContent_ok (by decide)).mpr
          ⟨h3, ⟨h4, by simpa using h5⟩, h6, rfl⟩)⟩
  · intro i r v
    rw [parseDer_ok]
    constructor
    · rintro ⟨a, x, h1, h2, h3⟩
      obtain ⟨hm, h4, h5, h6, _⟩ := (uintDer_content (by decide)).mp (enumDer_content.mp h3)
      exact ⟨a, h1, by simpa [enumeratedDer, tagIs, tagEnumerated] using h2, h4, hm, h5.1,
        by simpa using h5.2, h6⟩
    · rintro ⟨a, h1, h2, h3, hm, h4, h5, h6⟩
      exact ⟨a, _, h1, by simpa [enumeratedDer, tagIs, tagEnumerated] using h2,
        enumDer_content.mpr ((uintDer_content (by decide)).mpr
          ⟨hm, h3, ⟨h4, by simpa using h5⟩, h6, rfl⟩)⟩

/-- `Enumerated::from_der` does not check minimality although `parse_der` does: the two APIs
disagree. -/
theorem C38_enumerated_deviation :
    fromDer enumeratedBer enumeratedCheck [0x0a, 0x02, 0x00, 0x01] = .ok ([], 1) ∧
    ∀ v, enumeratedDer.parseDer (Input.fromSlice [0x0a, 0x02, 0x00, 0x01]) ≠ .ok v := by
  refine ⟨by decide +kernel, fun v h => ?_⟩
  have : enumeratedDer.parseDer (Input.fromSlice [0x0a, 0x02, 0x00, 0x01]) =
    .error (.error ⟨[0, 1], 2, 4⟩ (.derConstraintFailed .integerLeadingZeroes)) := by decide +kernel
  rw [this] at h; simp at h

/-- **C11** (BOOLEAN, NULL, ENUMERATED) -/
theorem C11_der_subset_ber_simple (i r : Input) :
    (∀ b, boolDer.parseDer i = .ok (r, b) → boolBer.parseBer i = .ok (r, b)) ∧
    (nullP.parseDer i = .ok (r, ()) → nullP.parseBer i = .ok (r, ())) ∧
    (∀ v, enumeratedDer.parseDer i = .ok (r, v) → enumeratedBer.parseBer i = .ok (r, v)) := by
  refine ⟨fun b h => ?_, fun h => ?_, fun v h => ?_⟩ <;>
    obtain ⟨a, x, h1, h2, h3⟩ := parseDer_ok.mp h <;>
    refine parseBer_ok.mpr ⟨a, x, C11_der_subset_ber_any _ _ _ h1, h2, ?_⟩
  · obtain ⟨c, h4, h5⟩ := map_content.mp h3
    exact map_content.mpr ⟨c, (booleanDerContent_ok.mp h4).1, h5⟩
  · exact h3
  · obtain ⟨_, h4⟩ := (uintDer_content (by decide)).mp (enumDer_content.mp h3)
    exact enumBer_content.mpr ((uintContent_ok (by decide)).mpr h4)

end Asn1

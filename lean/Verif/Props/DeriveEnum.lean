import Verif.Props.DeriveChoice
/-!
# Derived ENUMERATED (C79) and alias (C80)
-/
namespace Asn1
open Spec Wr

variable {α : Type}

/-! ### ENUMERATED -/

/-- **C79** The numbers of the variants: the given one, or one more than the one before, from 0. -/
theorem C79_discriminants (attrs : List (Option Nat)) (ds : List Nat) :
    discriminants 0 attrs = ds ↔ Numbered 0 attrs ds := by
  suffices h : ∀ cur, discriminants cur attrs = ds ↔ Numbered cur attrs ds from h 0
  intro cur
  induction attrs generalizing cur ds with
  | nil =>
    constructor
    · rintro rfl; exact .nil
    · intro h; cases h; rfl
  | cons at0 attrs ih =>
    rw [discriminants]
    constructor
    · rintro rfl
      have := (ih _ (at0.getD cur + 1)).mp rfl
      cases at0 with
      | none => exact .auto this
      | some n => exact .given this
    · intro h
      cases h with
      | auto h => exact congrArg (cur :: ·) ((ih _ _).mpr h)
      | given h => exact congrArg (_ :: ·) ((ih _ _).mpr h)

theorem finIdxOf_ok {ds : List Nat} (hn : ds.Nodup) {n : Nat} {k : Fin ds.length} :
    ds.finIdxOf? n = some k ↔ ds[k] = n := by
  rw [List.finIdxOf?_eq_some_iff]
  constructor
  · rintro ⟨h, _⟩; exact h
  · intro h
    refine ⟨h, fun j hj => ?_⟩
    intro he
    have hh : ds[j] = ds[k] := he.trans h.symm
    have := (List.getElem_inj hn).mp hh
    have hlt : (j : Nat) < k := hj
    omega

theorem enumContent_ok {p : Parser Nat} {ds : List Nat} (hn : ds.Nodup) {h : Header} {i x : Input}
    {k : Fin ds.length} :
    (enumP p ds).content h i = .ok (x, k) ↔ h.constructed = false ∧ p.content h i = .ok (x, ds[k]) := by
  show (h.assertPrimitive i >>= fun _ => p.content h i >>= fun y => _) = _ ↔ _
  rw [bind_eq_ok]
  constructor
  · rintro ⟨_, h1, h2⟩
    obtain ⟨⟨r, n⟩, h3, h4⟩ := bind_eq_ok.mp h2
    refine ⟨assertPrimitive_ok.mp h1, ?_⟩
    cases hf : ds.finIdxOf? n with
    | none =>
      exfalso
      simp only [hf, nomErr] at h4
      cases h4
    | some k' =>
      simp only [hf, Except.ok.injEq, Prod.mk.injEq] at h4
      rw [← h4.2, (finIdxOf_ok hn).mp hf, ← h4.1]
      exact h3
  · rintro ⟨h1, h2⟩
    refine ⟨(), assertPrimitive_ok.mpr h1, bind_eq_ok.mpr ⟨_, h2, ?_⟩⟩
    have : ds.finIdxOf? ds[k] = some k := (finIdxOf_ok hn).mpr rfl
    simp only [this]

/-- **C79** Exactly what the decoders of a derived ENUMERATED accept: a primitive object with tag 10 whose
content is the number of a variant (a two's complement number, for DER in minimal form), which is the
result. `ds` are the numbers of the variants, which rustc requires to be different. -/
theorem C79_enum_accepts (ds : List Nat) (hn : ds.Nodup) (hds : ∀ d ∈ ds, d < 2 ^ 32) (i r : Input)
    (k : Fin ds.length) :
    ((enumP enumeratedBer ds).parseBer i = .ok (r, k) ↔ ∃ a, parseBerAny i = .ok (r, a) ∧
      a.header.tag = 10 ∧ a.header.constructed = false ∧ twos a.data.data = ds[k]) ∧
    ((enumP enumeratedDer ds).parseDer i = .ok (r, k) ↔ ∃ a, parseDerAny i = .ok (r, a) ∧
      a.header.tag = 10 ∧ a.header.constructed = false ∧ MinimalInt a.data.data ∧
      twos a.data.data = ds[k]) := by
  have hk : ds[k] < 2 ^ 32 := hds _ (List.getElem_mem _)
  have hk' : ds[k] < 256 ^ 4 := by simpa using hk
  constructor
  · rw [parseBer_ok]
    constructor
    · rintro ⟨a, x, h1, h2, h3⟩
      obtain ⟨h4, h5⟩ := (enumContent_ok hn).mp h3
      obtain ⟨_, _, h6, _⟩ := (uintContent_ok (by decide)).mp (enumBer_content.mp h5)
      exact ⟨a, h1, by simpa [enumP, tagIs] using h2, h4, h6.symm⟩
    · rintro ⟨a, h1, h2, h3, h4⟩
      refine ⟨a, _, h1, by simpa [enumP, tagIs] using h2, (enumContent_ok hn).mpr ⟨h3,
        enumBer_content.mpr ((uintContent_ok (by decide)).mpr ⟨h3, ⟨by rw [h4]; omega, ?_⟩, h4.symm, rfl⟩)⟩⟩
      rw [h4]; exact_mod_cast hk'
  · rw [parseDer_ok]
    constructor
    · rintro ⟨a, x, h1, h2, h3⟩
      obtain ⟨h4, h5⟩ := (enumContent_ok hn).mp h3
      obtain ⟨hm, _, _, h6, _⟩ := (uintDer_content (by decide)).mp (enumDer_content.mp h5)
      exact ⟨a, h1, by simpa [enumP, tagIs] using h2, h4, hm, h6.symm⟩
    · rintro ⟨a, h1, h2, h3, hm, h4⟩
      refine ⟨a, _, h1, by simpa [enumP, tagIs] using h2, (enumContent_ok hn).mpr ⟨h3,
        enumDer_content.mpr ((uintDer_content (by decide)).mpr
          ⟨hm, h3, ⟨by rw [h4]; omega, ?_⟩, h4.symm, rfl⟩)⟩⟩
      rw [h4]; exact_mod_cast hk'

/-- **C79** The encoding of a variant comes back, and its lengths are right; it is the encoding of its
number as `Enumerated`. -/
theorem C79_enum_roundtrip (ds : List Nat) (hn : ds.Nodup) (hds : ∀ d ∈ ds, d < 2 ^ 32) (k : Fin ds.length) :
    LengthsRight (enumToBer ds) k ∧ (enumToBer ds).toVec k = enumeratedToBer.toVec ds[k] ∧
    InputBack (enumToBer ds) (enumP enumeratedBer ds).parseBer k k ∧
    InputBack (enumToBer ds) (enumP enumeratedDer ds).parseDer k k := by
  have hk : ds[k] < 2 ^ 32 := hds _ (List.getElem_mem _)
  obtain ⟨cs, he, hm, hv, hl⟩ := enum_encodes hk
  have e64 : (2 : Nat) ^ 64 = 18446744073709551616 := by decide
  have hs : cs.length < 2 ^ 64 := by omega
  have he' : Encodes (enumToBer ds) k cs := ⟨he.content, he.len, by show 10 < 2 ^ 32; decide, rfl⟩
  refine ⟨he'.lengths hs, ?_, ⟨_, he'.toVec hs, fun rest i hi => ?_⟩, ⟨_, he'.toVec hs, fun rest i hi => ?_⟩⟩
  · rw [he'.toVec hs, he.toVec hs]; rfl
  · obtain ⟨a, g1, g2, g3, g4, g5, g6, g7⟩ := he'.any hs hi
    exact ((C79_enum_accepts ds hn hds i _ k).1).mpr ⟨a, g1, g5, g4, by rw [g7, hv]⟩
  · obtain ⟨a, g1, g2, g3, g4, g5, g6, g7⟩ := he'.any hs hi
    exact ((C79_enum_accepts ds hn hds i _ k).2).mpr ⟨a, g2, g5, g4, by rw [g7]; exact hm, by rw [g7, hv]⟩

/-- Case: `enum E { A, B = 200, C }`. -/
example : discriminants 0 [none, some 200, none] = [0, 200, 201] ∧ [0, 200, 201].Nodup ∧
    (∀ d ∈ [0, 200, 201], d < 2 ^ 32) ∧
    (enumToBer [0, 200, 201]).toVec ⟨2, by decide⟩ = .ok [10, 2, 0, 201] ∧
    ((enumP enumeratedDer [0, 200, 201]).parseDer ⟨[10, 2, 0, 201], 0, 4⟩).map (·.2) = .ok ⟨2, by decide⟩ ∧
    ((enumP enumeratedDer [0, 200, 201]).parseDer ⟨[10, 1, 1], 0, 3⟩).map (·.2)
      = .error (.error ⟨[1], 2, 3⟩ (.unexpectedTag none 10)) := by
  refine ⟨by decide, by decide, by decide, by decide +kernel, by decide +kernel, by decide +kernel⟩

/-! ### Alias -/

/-- **C80** An alias accepts exactly what its inner type accepts, and gives the same value. -/
theorem C80_alias_accepts (m : Rules) (p : Parser α) (i r : Input) (v : Alias α) :
    m.parse (aliasP p) i = .ok (r, v) ↔ m.parse p i = .ok (r, v.inner) := by
  rw [rules_parse_ok, rules_parse_ok]
  have key : ∀ (a : Any) x, (aliasP p).content a.header a.data = .ok (x, v) ↔
      p.content a.header a.data = .ok (x, v.inner) := by
    intro a x
    show (p.content a.header a.data >>= fun y => _) = _ ↔ _
    rw [bind_eq_ok]
    constructor
    · rintro ⟨y, h1, h2⟩
      cases h2
      exact h1
    · intro h
      exact ⟨_, h, rfl⟩
  constructor
  · rintro ⟨a, z, h1, h2, h3⟩
    exact ⟨a, z, h1, h2, (key a z).mp h3⟩
  · rintro ⟨a, z, h1, h2, h3⟩
    exact ⟨a, z, h1, h2, (key a z).mpr h3⟩

/-- **C80** An alias is encoded as its inner type, for every value: it has the same bytes (or the same
error) and announces the same lengths. -/
theorem C80_alias_encoding (t : ToBer α) (v : α) (ho : OwnHeader t v) :
    (aliasToBer t).toVec ⟨v⟩ = t.toVec v ∧ (aliasToBer t).contentLen ⟨v⟩ = t.contentLen v ∧
    (aliasToBer t).totalLen ⟨v⟩ = t.totalLen v := by
  refine ⟨?_, rfl, rfl⟩
  have hh : ((aliasToBer t).writeHeader ⟨v⟩).exec = (t.writeHeader v).exec := ho.symm
  unfold ToBer.toVec
  have : ((aliasToBer t).encode ⟨v⟩).exec = (t.encode v).exec := by
    unfold ToBer.encode
    rw [exec_bind, exec_bind, hh]
    rfl
  rw [this]

/-- **C80** An alias is encoded as its inner type, and comes back if the inner value does: its lengths are
right, and it decodes to the alias of the same value. (The inner type writes its header as its tag
information says, which all types of the crate do.) -/
theorem C80_alias_roundtrip {β : Type} (m : Rules) (t : ToBer α) (p : Parser β) (v : α) (w : β)
    (hl : LengthsRight t v) (ho : OwnHeader t v) (ht : (t.tagInfo v).2.2 < 2 ^ 32)
    (h64 : ∀ n, t.contentLen v = .definite n → n < 2 ^ 64) (hb : InputBack t (m.parse p) v w) :
    LengthsRight (aliasToBer t) ⟨v⟩ ∧ (aliasToBer t).toVec ⟨v⟩ = t.toVec v ∧
    InputBack (aliasToBer t) (m.parse (aliasP p)) ⟨v⟩ ⟨w⟩ := by
  obtain ⟨hd, cs, h1, h2, h3, h4, h5⟩ := hl
  have hs := h64 _ h2
  have he : Encodes (aliasToBer t) ⟨v⟩ cs := ⟨h1, h2, ht, rfl⟩
  have hhd : hd = identOctets (t.tagInfo v).1 (t.tagInfo v).2.1 (t.tagInfo v).2.2 ++
      lenOctets (.definite cs.length) := by
    unfold OwnHeader at ho
    rw [h3, h2, header_new_writes _ _ ht hs] at ho
    exact congrArg Prod.fst ho
  have htv : (aliasToBer t).toVec ⟨v⟩ = t.toVec v := by
    rw [he.toVec hs]
    unfold ToBer.toVec
    rw [h4, hhd]; rfl
  refine ⟨he.lengths hs, htv, ?_⟩
  obtain ⟨bs, g1, g2⟩ := hb
  exact ⟨bs, htv.trans g1, fun rest i hi => (C80_alias_accepts m p i _ _).mpr (g2 rest i hi)⟩

/-- **C80** In particular the values of the universal types. -/
theorem C80_alias_universal {c : Codec α} {v : α} (h : UniversalValue c v) (hs : SmallContent c.enc v) :
    LengthsRight (aliasToBer c.enc) ⟨v⟩ ∧
    InputBack (aliasToBer c.enc) (aliasP c.ber).parseBer ⟨v⟩ ⟨v⟩ ∧
    InputBack (aliasToBer c.enc) (aliasP c.der).parseDer ⟨v⟩ ⟨v⟩ := by
  have e24 : (2 : Nat) ^ 24 = 16777216 := by decide
  have e64 : (2 : Nat) ^ 64 = 18446744073709551616 := by decide
  have hf := Works.fits h hs
  obtain ⟨cs, hw, hl, ht⟩ := universal_works h
  obtain ⟨n, hn, hlt⟩ := hs
  have h64 : ∀ n, c.enc.contentLen v = .definite n → n < 2 ^ 64 := by
    intro n' hn'
    rw [hn] at hn'
    injection hn' with hn'
    omega
  rw [hl] at hn; injection hn with hn
  have hb := hw.back (by omega)
  have ho := hw.enc.ownHeader (by omega)
  have a := C80_alias_roundtrip .ber c.enc c.ber v v hf.lengths ho hf.tag h64 hb.1
  exact ⟨a.1, a.2.2, (C80_alias_roundtrip .der c.enc c.der v v hf.lengths ho hf.tag h64 hb.2.1).2.2⟩

/-- A case. -/
example : InputBack (aliasToBer (uintToBer 2)) (aliasP (uintBer 2)).parseBer ⟨300⟩ ⟨300⟩ :=
  (C80_alias_universal (.uint 2 (by decide) (by decide)) ⟨2, by decide +kernel, by decide⟩).2.1

/-- Case: an alias of `u32`. -/
example : UniversalValue (uintC 4) 300 ∧ SmallContent (uintC 4).enc 300 ∧
    (aliasToBer (uintToBer 4)).toVec ⟨300⟩ = .ok [2, 2, 1, 44] :=
  ⟨.uint 4 (by decide) (by decide), ⟨2, by decide +kernel, by decide⟩, by decide +kernel⟩

end Asn1

import Verif.Proofs.Language
/-!
# C141: the octets that a type accepts, and the value they denote
-/
namespace Asn1
open Spec

variable {β : Type} {m : Rules} {p : Parser β} {T : Nat → Prop} {L : β → Identity → Bytes → Prop}

/-- **C141** For a type nested in any way, in BER and in DER: the value `w` is decoded from an input, and `rest` is left, if
and only if the input is an object that denotes `w`, followed by `rest`. What an object denotes is said in
`Spec/Language.lean` without any parser: by its identifier octets, its length octets and its content. -/
theorem C141_language (h : Lang m p T L) (i : Input) (w : β) (rest : Bytes) :
    (∃ r, m.parse p i = .ok (r, w) ∧ r.data = rest) ↔ ∃ o, i.data = o ++ rest ∧ LangObject m T (L w) o :=
  (denoted h).parse

/-- **C141** No value is decoded if and only if the input does not begin with an object that denotes a value. -/
theorem C141_refused (h : Lang m p T L) (i : Input) :
    (∀ r w, m.parse p i ≠ .ok (r, w)) ↔ ∀ w o rest, i.data = o ++ rest → ¬ LangObject m T (L w) o := by
  constructor
  · intro hn w o rest h1 h2
    obtain ⟨r, h3, _⟩ := (C141_language h i w rest).mpr ⟨o, h1, h2⟩
    exact hn r w h3
  · intro hn r w hp
    obtain ⟨o, h1, h2⟩ := (C141_language h i w r.data).mp ⟨r, hp, rfl⟩
    exact hn w o _ h1 h2

/-- **C141** Octets denote one value at most, and no object that denotes a value is the beginning of another one: these are
facts of the encoding rules alone, in which no parser occurs. -/
theorem C141_unambiguous (h : Lang m p T L) (w w' : β) (o o' rest rest' : Bytes) (hb : o ++ rest = o' ++ rest')
    (ho : LangObject m T (L w) o) (ho' : LangObject m T (L w') o') : w = w' ∧ o = o' ∧ rest = rest' := by
  obtain ⟨r, h1, h2⟩ := (C141_language h (.fromSlice (o ++ rest)) w rest).mpr ⟨o, rfl, ho⟩
  obtain ⟨r', h1', h2'⟩ := (C141_language h (.fromSlice (o ++ rest)) w' rest').mpr ⟨o', hb, ho'⟩
  rw [h1] at h1'
  injection h1' with h1'
  injection h1' with e1 e2
  have e3 : rest = rest' := by rw [← h2, ← h2', e1]
  subst e3
  exact ⟨e2, List.append_cancel_right hb, rfl⟩

/-- **C141** The content alone: under a header that fits it, as under an IMPLICIT tag. -/
theorem C141_content (h : Lang m p T L) (hd : Header) (i : Input) (w : β)
    (h1 : ∀ n, hd.length = .definite n → n = i.data.length)
    (h2 : hd.constructed = false → hd.length = .definite i.data.length) :
    (∃ r, p.content hd i = .ok (r, w)) ↔ L w (hd.cls, hd.constructed, hd.tag) i.data :=
  (denoted h).value hd i w ⟨h1, h2⟩

/-- **C141** The segments of a string, in the same terms. -/
theorem C141_segments (bs : Bytes) (os : List Obj) : Objects bs os ↔ LangObjects bs os := by
  constructor
  · intro h
    induction h with
    | nil => exact .nil
    | @eoc bs r a hp h0 =>
      obtain ⟨o, h1, h2, _⟩ := any_holds (m := .ber) hp
      have h1 : bs = o ++ r.data := h1
      exact h1 ▸ .eoc h2 h0
    | @cons bs r a os hp h0 _ ih =>
      obtain ⟨o, h1, h2, _⟩ := any_holds (m := .ber) hp
      have h1 : bs = o ++ r.data := h1
      exact h1 ▸ .cons h2 h0 ih
  · intro h
    induction h with
    | nil => exact .nil
    | @eoc x cs o rest h h0 =>
      obtain ⟨r, a, h1, _, rfl, _⟩ := holds_any (i := .fromSlice (o ++ rest)) rfl h
      exact .eoc h1 h0
    | @cons x cs o rest os h h0 _ ih =>
      obtain ⟨r, a, h1, rfl, rfl, rfl⟩ := holds_any (i := .fromSlice (o ++ rest)) rfl h
      exact .cons (a := a) h1 h0 ih

/-! A case: `SEQUENCE { INTEGER, BOOLEAN OPTIONAL, [0] EXPLICIT SEQUENCE OF OCTET STRING }`, in BER, with the indefinite
form and a segmented string, and in DER. -/

/-- The fields, for BER and DER. -/
def langFields (m : Rules) : Fields [Nat, Option Bool, List Bytes] :=
  .cons (.required .untagged (Codec.parser (uintC 4) m)) (.cons (.optional .untagged (Codec.parser boolC m))
    (.cons (.required (.explicit .contextSpecific 0) (vecP (anyParse m) (Codec.parser octetC m))) .nil))

theorem langFields_ber : ∃ L, Lang .ber (structP .ber 16 (langFields .ber)) (· = 16) L :=
  ⟨_, .struct 16 (.required _ (.universal (.uint _ 4 (by decide))) (.optional _ (.universal .boolBer)
    (.required _ (.vec (.universal .octetStringBer)) .nil)))⟩

/-- The object: the BOOLEAN is missing, the OCTET STRING is `24 80 04 01 61 04 01 62 00 00`. -/
def langObject : Bytes :=
  [0x30, 0x80, 0x02, 0x01, 0x07, 0xa0, 0x0c, 0x30, 0x0a, 0x24, 0x80, 0x04, 0x01, 0x61, 0x04, 0x01, 0x62, 0, 0, 0, 0]

set_option synthInstance.maxSize 2000 in
example : ∃ L, Lang .ber (structP .ber 16 (langFields .ber)) (· = 16) L ∧
    LangObject .ber (· = 16) (L (7, none, [[0x61, 0x62]], ())) langObject := by
  obtain ⟨L, h⟩ := langFields_ber
  let : DecidableEq (Except PErr (Input × Nat × Option Bool × List Bytes × Unit)) := inferInstance
  have hp : @Eq (Except PErr (Input × Nat × Option Bool × List Bytes × Unit))
    ((structP .ber 16 (langFields .ber)).parseBer (.fromSlice langObject))
    (.ok (⟨[], 21, 21⟩, (7, none, [[0x61, 0x62]], ()))) := @of_decide_eq_true _ (this _ _) (by decide +kernel)
  obtain ⟨o, h1, h2⟩ := (C141_language h (.fromSlice langObject) _ []).mp ⟨_, hp, rfl⟩
  have h1 : langObject = o := by rw [List.append_nil] at h1; exact h1
  exact ⟨L, h, h1 ▸ h2⟩

/-- From the rules to the parser, for every content: a struct of one OCTET STRING. -/
example (cs : Bytes) (hc : cs.length < 100) (rest : Bytes) : ∃ r,
    (structP .der 16 (.cons (.required .untagged octetDer) .nil)).parseDer
      (.fromSlice ([0x30, UInt8.ofNat (cs.length + 2)] ++ ([0x04, UInt8.ofNat cs.length] ++ cs) ++ rest)) =
      .ok (r, (cs, ())) ∧ r.data = rest := by
  have h := Lang.struct (m := .der) 16 (.required .untagged (.universal .octetString) .nil)
  have hw : ∀ (x : Identity) (b n : UInt8) (c : Bytes), x.2.2 < 31 → b.toNat = identByte x.1 x.2.1 x.2.2 →
      n.toNat = c.length → c.length < 128 → Written x c ([b, n] ++ c) := fun x b n c ht hb hn hl =>
    ⟨[b], [n], .low b ht hb, .short n (by omega) (by rw [hn]), rfl⟩
  have e1 : (UInt8.ofNat cs.length).toNat = cs.length := by rw [UInt8.toNat_ofNat']; omega
  have e2 : (UInt8.ofNat (cs.length + 2)).toNat = cs.length + 2 := by rw [UInt8.toNat_ofNat']; omega
  exact (C141_language h _ _ _).mpr ⟨_, rfl, (.universal, true, 16), [0x04, UInt8.ofNat cs.length] ++ cs,
    .inl (hw _ _ _ _ (by decide) (by decide) (by rw [e2]; simp) (by simp; omega)), rfl, rfl, _, [],
    (List.append_nil _).symm, ⟨(.universal, false, 4), cs,
      .inl (hw _ 0x04 _ cs (by decide) (by decide) e1 (by omega)), .inl rfl, rfl, rfl⟩, trivial⟩

end Asn1

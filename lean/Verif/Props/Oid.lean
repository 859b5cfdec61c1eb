import Verif.Proofs.Oid
import Verif.Proofs.Encoding
import Verif.Proofs.Agree
import Verif.Props.Encoding
/-!
# OBJECT IDENTIFIER (C25, C26, C27)
-/
namespace Asn1
open Spec Wr

theorem pointwise_length {α β : Type} {R : α → β → Prop} {l : List α} {m : List β}
    (h : Pointwise R l m) : l.length = m.length := by
  induction h with
  | nil => rfl
  | cons _ _ ih => simp [ih]

theorem subIds_length {ns : List Nat} {parts : List Bytes} (h : Pointwise SubId ns parts) :
    ns.length ≤ parts.flatten.length := by
  induction h with
  | nil => simp
  | cons hn _ ih =>
    have := (subId_length hn).1
    simp only [List.length_cons, List.flatten_cons, List.length_append]; omega

/-- What the iterator yields on an absolute OID. -/
theorem collect_abs (wrap : Nat → Nat) (b0 : UInt8) {ns : List Nat} {bs : Bytes}
    (h : SubIds ns bs) (hw : ∀ n ∈ ns, ∀ x ≤ n, wrap x = x) :
    SubIter.collect wrap (bs.length + 3) ⟨⟨b0 :: bs, false⟩, 0, false⟩ =
      some (if b0 = 0 ∧ bs = [] then [0] else b0.toNat / 40 :: b0.toNat % 40 :: ns) := by
  obtain ⟨parts, hp, rfl⟩ := h
  have hl := subIds_length hp
  rw [show parts.flatten.length + 3 = (parts.flatten.length + 1) + 1 + 1 from rfl,
    SubIter.collect, SubIter.next]
  simp only [List.length_cons, Nat.zero_ne_add_one, if_false, Bool.not_false, if_true]
  rw [SubIter.collect, SubIter.next]
  simp only [List.length_cons, Nat.zero_ne_add_one, if_false, Bool.not_false, if_true, Bool.not_true,
    Bool.false_eq_true]
  by_cases h0 : b0 = 0 ∧ parts.flatten = []
  · rw [if_pos h0, if_pos h0]
    simp [h0.1]
  · rw [if_neg h0, if_neg h0]
    simp only
    rw [collect_subIds wrap ⟨b0 :: parts.flatten, false⟩ hp hw 1 _ true (.inr ⟨rfl, by omega⟩)
      (by simp) rfl (by omega)]
    rfl

theorem collect_rel (wrap : Nat → Nat) {ns : List Nat} {bs : Bytes}
    (h : SubIds ns bs) (hw : ∀ n ∈ ns, ∀ x ≤ n, wrap x = x) :
    SubIter.collect wrap (bs.length + 2) ⟨⟨bs, true⟩, 0, false⟩ = some ns := by
  obtain ⟨parts, hp, rfl⟩ := h
  have hl := subIds_length hp
  exact collect_subIds wrap ⟨parts.flatten, true⟩ hp hw 0 _ false (.inl rfl)
      (by simp) rfl (by omega)

theorem iterBigint_abs (b0 : UInt8) {ns : List Nat} {bs : Bytes} (h : SubIds ns bs) :
    (Oid.mk (b0 :: bs) false).iterBigint =
      some (if b0 = 0 ∧ bs = [] then [0] else b0.toNat / 40 :: b0.toNat % 40 :: ns) :=
  collect_abs id b0 h fun _ _ _ _ => rfl

theorem iterBigint_rel {ns : List Nat} {bs : Bytes} (h : SubIds ns bs) :
    (Oid.mk bs true).iterBigint = some ns := collect_rel id h fun _ _ _ _ => rfl

theorem iter_abs (b0 : UInt8) {ns : List Nat} {bs : Bytes} (h : SubIds ns bs) :
    (Oid.mk (b0 :: bs) false).iter =
      if ∀ n ∈ ns, n < 2 ^ 63 then (Oid.mk (b0 :: bs) false).iterBigint else none := by
  unfold Oid.iter
  simp only [Bool.false_eq_true, if_false, List.drop_succ_cons, List.drop_zero]
  have hm : maxBits bs > 64 ↔ ¬ ∀ n ∈ ns, n < 2 ^ 63 := by
    obtain ⟨parts, hp, rfl⟩ := h
    exact maxBits_parts hp
  by_cases h63 : ∀ n ∈ ns, n < 2 ^ 63
  · rw [if_neg (by rw [hm]; exact fun g => g h63), if_pos h63, iterBigint_abs b0 h]
    exact collect_abs _ b0 h fun n hn x hx => Nat.mod_eq_of_lt (by have := h63 n hn; omega)
  · rw [if_pos (hm.mpr h63), if_neg h63]

theorem iter_rel {ns : List Nat} {bs : Bytes} (h : SubIds ns bs) :
    (Oid.mk bs true).iter = if ∀ n ∈ ns, n < 2 ^ 63 then some ns else none := by
  unfold Oid.iter
  simp only [if_true]
  have hm : maxBits bs > 64 ↔ ¬ ∀ n ∈ ns, n < 2 ^ 63 := by
    obtain ⟨parts, hp, rfl⟩ := h
    exact maxBits_parts hp
  by_cases h63 : ∀ n ∈ ns, n < 2 ^ 63
  · rw [if_neg (by rw [hm]; exact fun g => g h63), if_pos h63]
    exact collect_rel _ h fun n hn x hx => Nat.mod_eq_of_lt (by have := h63 n hn; omega)
  · rw [if_pos (hm.mpr h63), if_neg h63]

theorem subIds_nil {ns : List Nat} (h : SubIds ns []) : ns = [] := by
  obtain ⟨parts, hp, h⟩ := h
  have := subIds_length hp
  rw [← h] at this
  exact List.eq_nil_of_length_eq_zero (by simpa using this)

/-- **C25** (partial) Building an OID from arcs: which lists are accepted; when the first two arcs
fit in the first octet, and the list is not `0.0`, the content is the first octet `40 a + b`
followed by the minimal sub-identifiers of the other arcs, `iter_bigint` gives back the arcs, and
so does `iter` if the arcs after the second are below `2^63`. Missing: `0.0`, arcs of `2^63` and
above with `iter`; and the code accepts first arcs up to 6 without a faithful encoding
(`C25_deviations`). -/
theorem C25_oid_arcs_partial :
    (∀ s, (∃ o, Oid.from s = .ok o) ↔ s = [0] ∨ ∃ a b rest, s = a :: b :: rest ∧ a < 7 ∧ b < 40) ∧
    ∀ a b rest, a * 40 + b < 256 → b < 40 → ¬ (a = 0 ∧ b = 0 ∧ rest = []) →
      ∃ f bs, Oid.from (a :: b :: rest) = .ok ⟨f :: bs, false⟩ ∧ f.toNat = a * 40 + b ∧
        SubIds rest bs ∧
        (Oid.mk (f :: bs) false).iterBigint = some (a :: b :: rest) ∧
        ((Oid.mk (f :: bs) false).iter = some (a :: b :: rest) ↔ ∀ n ∈ rest, n < 2 ^ 63) := by
  constructor
  · intro s
    match s with
    | [] => simp [Oid.from]
    | [a] => by_cases h : a = 0 <;> simp [Oid.from, h]
    | a :: b :: rest =>
      simp only [Oid.from]
      by_cases h : a ≥ 7 ∨ b ≥ 40
      · rw [if_pos h]
        simp only [reduceCtorEq, exists_false, List.cons.injEq, false_iff, not_or, not_exists,
          not_and]
        exact ⟨fun _ h => by simp at h, fun a' b' r' e _ => by omega⟩
      · rw [if_neg h]
        refine iff_of_true ⟨_, rfl⟩ (.inr ⟨a, b, rest, rfl, by omega, by omega⟩)
  · intro a b rest hab hb hne
    have hf : (UInt8.ofNat (a * 40 + b)).toNat = a * 40 + b := by
      rw [ofNat_toNat_mod]; omega
    have hs := encodeRelative_subIds rest
    have hz : ¬ (UInt8.ofNat (a * 40 + b) = 0 ∧ encodeRelative rest = []) := by
      rintro ⟨h1, h2⟩
      rw [byte_eq0, hf] at h1
      rw [h2] at hs
      exact hne ⟨by omega, by omega, subIds_nil hs⟩
    have hi : (Oid.mk (UInt8.ofNat (a * 40 + b) :: encodeRelative rest) false).iterBigint =
        some (a :: b :: rest) := by
      rw [iterBigint_abs _ hs, if_neg hz, hf]
      congr 2
      · omega
      · congr 1; omega
    refine ⟨_, _, ?_, hf, hs, hi, ?_⟩
    · rw [Oid.from, if_neg (by omega)]
    · rw [iter_abs _ hs, hi]
      by_cases h63 : ∀ n ∈ rest, n < 2 ^ 63
      · rw [if_pos h63]; exact iff_of_true rfl h63
      · rw [if_neg h63]; simp [h63]

/-- The arcs 1.2.840.113549 (RSA). -/
example : Oid.from [1, 2, 840, 113549] = .ok ⟨[0x2a, 0x86, 0x48, 0x86, 0xf7, 0x0d], false⟩ ∧
    (Oid.mk [0x2a, 0x86, 0x48, 0x86, 0xf7, 0x0d] false).iter = some [1, 2, 840, 113549] := by
  decide +kernel

/-- **C25** Decoding contents as X.690 reads them: for every well-formed content, iterating gives
the X.690 arcs exactly when the first octet is below 120 and the content is not the single octet
0. -/
theorem C25_decoding (bs : Bytes) (arcs : List Nat) (h : X690Oid bs arcs) :
    (Oid.mk bs false).iterBigint = some arcs ↔
      ∃ f tl, bs = f :: tl ∧ f.toNat < 120 ∧ ¬ (f.toNat = 0 ∧ tl = []) := by
  obtain ⟨n, ns, a, b, ⟨parts, hp, rfl⟩, ⟨hn, ha, hb⟩, rfl⟩ := h
  cases hp with
  | @cons _ part _ parts hpart hrest =>
    obtain ⟨⟨hi, last, rfl, g1, g2⟩, hv, hz⟩ := hpart
    cases hi with
    | nil =>
      have e : ([] ++ [last] :: parts).flatten = last :: parts.flatten := by simp
      have e' : (([] ++ [last]) :: parts).flatten = last :: parts.flatten := by simp
      rw [e', iterBigint_abs last ⟨parts, hrest, rfl⟩]
      have hln : last.toNat = n := by
        have : base128 [last] = last.toNat % 128 := by simp [base128]
        rw [List.nil_append, this] at hv; omega
      constructor
      · intro h
        refine ⟨_, _, rfl, ?_⟩
        split at h
        · simp at h
        · rename_i hne
          simp only [Option.some.injEq, List.cons.injEq] at h
          refine ⟨by omega, fun hc => hne ⟨(byte_eq0 _).mpr hc.1, hc.2⟩⟩
      · rintro ⟨f, tl, hft, hlt, hne⟩
        obtain ⟨rfl, rfl⟩ := List.cons.inj hft
        rw [if_neg (fun hc => hne ⟨(byte_eq0 _).mp hc.1, hc.2⟩)]
        have : a < 2 → b < 40 := hb
        congr 2
        · by_cases h2 : a < 2
          · have := hb h2; omega
          · omega
        · congr 1
          by_cases h2 : a < 2
          · have := hb h2; omega
          · omega
    | cons x hi =>
      have hx := g1 x List.mem_cons_self
      constructor
      · intro h
        exfalso
        have e : ((x :: hi ++ [last]) :: parts).flatten = x :: ((hi ++ [last]) ++ parts.flatten) := by simp
        rw [e] at h
        unfold Oid.iterBigint at h
        simp only [List.length_cons] at h
        rw [show ∀ k, k + 1 + 2 = (k + 2) + 1 from fun _ => rfl, SubIter.collect, SubIter.next] at h
        simp only [List.length_cons, Nat.zero_ne_add_one, if_false, Bool.not_false, if_true] at h
        cases hc : SubIter.collect id
            ((hi ++ [last] ++ parts.flatten).length + 2)
            ⟨⟨x :: (hi ++ [last] ++ parts.flatten), false⟩, 0, true⟩ with
        | none => rw [hc] at h; simp at h
        | some l =>
          rw [hc] at h
          simp only [Option.map_some, Option.some.injEq, List.cons.injEq] at h
          omega
      · rintro ⟨f, tl, hft, hlt, _⟩
        simp only [List.flatten_cons, List.cons_append, List.cons.injEq] at hft
        rw [← hft.1] at hlt; omega

/-- A case: 2.5.4.3 is read as such; 2.999 (88 37) is not. -/
example : (Oid.mk [0x55, 4, 3] false).iterBigint = some [2, 5, 4, 3] ∧
    (Oid.mk [0x88, 0x37] false).iterBigint = some [3, 16, 55] ∧ base128 [0x88, 0x37] = 2 * 40 + 999 := by
  decide +kernel

/-- **C25** Deviations of the code: `0.0` iterates as `0`; `6.16` wraps to the octet 0; an arc of
`2^63` makes `iter` return nothing although it fits 64 bits; 2.40 is refused; the content 120 (2.40)
is read as 3.0; sub-identifiers with leading 80 octets, or cut short, are accepted, also by DER. -/
theorem C25_deviations :
    (∃ o, Oid.from [0, 0] = .ok o ∧ o.iterBigint = some [0]) ∧
    (∃ o, Oid.from [6, 16] = .ok o ∧ o.iterBigint = some [0]) ∧
    (∃ o, Oid.from [1, 2, 2 ^ 63] = .ok o ∧ o.iter = none ∧ o.iterBigint = some [1, 2, 2 ^ 63]) ∧
    Oid.from [2, 40] = .error .firstComponentsTooLarge ∧
    (Oid.mk [120] false).iterBigint = some [3, 0] ∧
    fromDer oidP oidCheck [6, 3, 0x2a, 0x80, 0x01] = .ok ([], ⟨[0x2a, 0x80, 0x01], false⟩) ∧
    (Oid.mk [0x2a, 0x80, 0x01] false).iterBigint = some [1, 2, 1] ∧
    fromDer oidP oidCheck [6, 2, 0x2a, 0x81] = .ok ([], ⟨[0x2a, 0x81], false⟩) := by
  refine ⟨⟨_, rfl, ?_⟩, ⟨_, rfl, ?_⟩, ⟨_, rfl, ?_⟩, ?_⟩ <;> decide +kernel

/-! ### Relative OIDs -/

theorem subIds_unique {ns : List Nat} {bs bs' : Bytes} (h : SubIds ns bs) (h' : SubIds ns bs') :
    bs = bs' := by
  obtain ⟨ps, hp, rfl⟩ := h
  obtain ⟨qs, hq, rfl⟩ := h'
  congr 1
  induction hp generalizing qs with
  | nil => cases hq; rfl
  | cons h1 _ ih =>
    cases hq with
    | cons h2 hq => rw [subId_unique h1 h2, ih _ hq]

/-- The sub-identifiers determine the numbers. -/
theorem subIds_inj {ns ms : List Nat} {bs : Bytes} (h : SubIds ns bs) (h' : SubIds ms bs) :
    ns = ms := by
  have h1 := iterBigint_rel h
  rw [iterBigint_rel h'] at h1
  simpa using h1.symm

/-- **C26** Relative OIDs: exactly the non-empty lists are accepted; the content is made of the
minimal sub-identifiers of the arcs; `iter_bigint` gives back the arcs, and `iter` too exactly when
they are below `2^63`; different lists give different contents. -/
theorem C26_relative_oid :
    (∀ s, (∃ o, Oid.fromRelative s = .ok o) ↔ s ≠ []) ∧
    (∀ s o, Oid.fromRelative s = .ok o → o.relative = true ∧ SubIds s o.asn1 ∧
      o.iterBigint = some s ∧ (o.iter = some s ↔ ∀ n ∈ s, n < 2 ^ 63)) ∧
    (∀ s t o, Oid.fromRelative s = .ok o → Oid.fromRelative t = .ok o → s = t) := by
  have key : ∀ s o, Oid.fromRelative s = .ok o → o.relative = true ∧ SubIds s o.asn1 ∧
      o.iterBigint = some s ∧ (o.iter = some s ↔ ∀ n ∈ s, n < 2 ^ 63) := by
    intro s o h
    unfold Oid.fromRelative at h
    split at h
    · simp at h
    · simp only [Except.ok.injEq] at h
      subst h
      have hs := encodeRelative_subIds s
      refine ⟨rfl, hs, iterBigint_rel hs, ?_⟩
      rw [iter_rel hs]
      by_cases h63 : ∀ n ∈ s, n < 2 ^ 63
      · rw [if_pos h63]; exact iff_of_true rfl h63
      · rw [if_neg h63]; simp [h63]
  refine ⟨?_, key, ?_⟩
  · intro s
    unfold Oid.fromRelative
    cases s <;> simp
  · intro s t o h1 h2
    have a := (key s o h1).2.2.1
    rw [(key t o h2).2.2.1] at a
    simpa using a.symm

example : Oid.fromRelative [8571, 3, 2] = .ok ⟨[0xc2, 0x7b, 3, 2], true⟩ ∧
    (Oid.mk [0xc2, 0x7b, 3, 2] true).iter = some [8571, 3, 2] := by decide +kernel

/-! ### Encoding and decoding -/

theorem oid_encodes (o : Oid) : Encodes oidToBer o o.asn1 :=
  ⟨((writes_writeAll o.asn1).bind (f := fun _ => (pure o.asn1.length : Wr Nat)) (writes_pure _)).congr
    (by simp) rfl, rfl,
    by show (if o.relative then tagRelativeOid else tagOid) < 2 ^ 32
       split <;> decide, rfl⟩

theorem oidContent_ok {h : Header} {i r : Input} {o : Oid} :
    oidContent h i = .ok (r, o) ↔ h.constructed = false ∧ i.data ≠ [] ∧ o = ⟨i.data, false⟩ ∧
      r = after i i.data.length := by
  unfold oidContent
  rw [bind_eq_ok]
  have hE : i.isEmpty = true ↔ i.data = [] := by simp [Input.isEmpty]
  constructor
  · rintro ⟨u, h1, h2⟩
    have hc := assertPrimitive_ok.mp h1
    split at h2
    · simp [nomErr] at h2
    · rename_i he
      rw [takeSplit_eq, if_pos (by simp [Input.len])] at h2
      simp [Bind.bind, Except.bind, pure, Except.pure] at h2
      refine ⟨hc, fun h => he (hE.mpr h), ?_, ?_⟩
      · rw [← h2.2]; simp [Input.len]
      · rw [← h2.1]; rfl
  · rintro ⟨hc, hne, rfl, rfl⟩
    refine ⟨(), assertPrimitive_ok.mpr hc, ?_⟩
    rw [if_neg (fun h => hne (hE.mp h)), takeSplit_eq, if_pos (by simp [Input.len])]
    simp [Bind.bind, Except.bind, pure, Except.pure, Input.len]

theorem oidCheck_ok {a : Any} : oidCheck a = .ok () ↔
    a.header.constructed = false ∧ a.header.length.isDefinite = true := by
  unfold oidCheck assertPrimitiveS assertDefiniteS
  cases a.header.constructed <;> cases a.header.length.isDefinite <;> simp [Bind.bind, Except.bind]

theorem safe_oid : oidP.Safe := fun hd i => by
  refine NoPanic.bind (safe_assertPrimitive hd i) fun _ _ => ?_
  split
  · exact noPanic_nomErr _ _
  · rw [takeSplit_eq, if_pos (by simp [Input.len])]
    exact noPanic_ok _

/-- The typed decoders never set the flag. -/
theorem oid_back (o : Oid) (hne : o.asn1 ≠ []) (hs : o.asn1.length < 2 ^ 64) :
    ParseBerBack oidToBer oidP o ⟨o.asn1, false⟩ ∧ FromBerBack oidToBer oidP o ⟨o.asn1, false⟩ ∧
    ParseDerBack oidToBer oidP o ⟨o.asn1, false⟩ ∧
    FromDerBack oidToBer oidP oidCheck o ⟨o.asn1, false⟩ := by
  have hd : Decodes oidP false o.asn1 ⟨o.asn1, false⟩ := fun h d h1 _ h3 =>
    ⟨_, oidContent_ok.mpr ⟨h1, h3 ▸ hne, by rw [h3], rfl⟩⟩
  have hacc : oidP.acceptTag (oidToBer.tagInfo o).2.2 = true := by
    show (tagIs tagOid (if o.relative then tagRelativeOid else tagOid) ||
      tagIs tagRelativeOid (if o.relative then tagRelativeOid else tagOid)) = true
    cases o.relative <;> decide
  have h1 := back_ber (p := oidP) (oid_encodes o) hs hacc hd
  exact ⟨h1.1, h1.2, back_der (oid_encodes o) hs hacc hd,
    back_fromDer (oid_encodes o) hs hacc hd fun a h1 h2 _ =>
      oidCheck_ok.mpr ⟨h1, by rw [h2]; rfl⟩⟩

/-- **C25** Every OID built from arcs encodes and decodes back to itself with the four decoders. -/
theorem C25_oid_roundtrip (s : List Nat) (o : Oid) (h : Oid.from s = .ok o)
    (hs : o.asn1.length < 2 ^ 64) :
    ParseBerBack oidToBer oidP o o ∧ FromBerBack oidToBer oidP o o ∧
    ParseDerBack oidToBer oidP o o ∧ FromDerBack oidToBer oidP oidCheck o o := by
  have : o.asn1 ≠ [] ∧ o = ⟨o.asn1, false⟩ := by
    match s with
    | [] => simp [Oid.from] at h
    | [a] =>
      rw [Oid.from] at h
      split at h
      · simp at h; subst h; simp
      · simp at h
    | a :: b :: rest =>
      rw [Oid.from] at h
      split at h
      · simp at h
      · simp at h; subst h; simp
  have hb := oid_back o this.1 hs
  rwa [← this.2] at hb

example : oidToBer.toVec ⟨[0x55, 4, 3], false⟩ = .ok [6, 3, 0x55, 4, 3] ∧
    fromDer oidP oidCheck [6, 3, 0x55, 4, 3] = .ok ([], ⟨[0x55, 4, 3], false⟩) := by decide +kernel

/-- **C26** Relative OIDs encode and decode back to themselves with the two dedicated decoders; the
generic typed decoders return the same octets as an absolute OID (the flag is lost). -/
theorem C26_relative_roundtrip (s : List Nat) (o : Oid) (h : Oid.fromRelative s = .ok o)
    (hs : o.asn1.length < 2 ^ 64) :
    (∃ bs, oidToBer.toVec o = .ok bs ∧ ∀ rest, Oid.fromBerRelative (bs ++ rest) = .ok (rest, o) ∧
      Oid.fromDerRelative (bs ++ rest) = .ok (rest, o)) ∧
    ParseDerBack oidToBer oidP o ⟨o.asn1, false⟩ ∧
    FromDerBack oidToBer oidP oidCheck o ⟨o.asn1, false⟩ ∧ o ≠ ⟨o.asn1, false⟩ := by
  have hk := C26_relative_oid.2.1 s o h
  have hne : o.asn1 ≠ [] := by
    intro he
    have h2 := hk.2.1
    rw [he] at h2
    have := subIds_nil h2
    subst this
    simp [Oid.fromRelative] at h
  obtain ⟨asn1, rel⟩ := o
  obtain rfl : rel = true := hk.1
  have hb := oid_back _ hne hs
  refine ⟨⟨_, (oid_encodes _).toVec hs, fun rest => ?_⟩, hb.2.2.1, hb.2.2.2, by simp⟩
  show Oid.fromBerRelative (full .universal false 13 asn1 ++ rest) = _ ∧
    Oid.fromDerRelative (full .universal false 13 asn1 ++ rest) = _
  have hD := parseDerAny_full (Input.fromSlice (full .universal false 13 asn1 ++ rest)) .universal
    false 13 asn1 rest (by decide) hs rfl
  have hB := parseBerAny_full (Input.fromSlice (full .universal false 13 asn1 ++ rest)) .universal
    false 13 asn1 rest (by decide) hs rfl
  have hdat := full_content (Input.fromSlice (full .universal false 13 asn1 ++ rest)) .universal
    false 13 asn1 rest rfl
  generalize hi : Input.fromSlice (full .universal false 13 asn1 ++ rest) = i at hD hB hdat
  generalize full .universal false 13 asn1 = enc at hi hD hB hdat ⊢
  have hrem : (after i enc.length).data = rest := by rw [← hi]; exact List.drop_left' rfl
  have hcon : (first (after i (enc.length - asn1.length)) asn1.length).data = asn1 := by
    show List.take _ (after i _).data = _
    rw [hdat]; exact List.take_left' rfl
  have e1 := wrapBerParser_ok.mpr ⟨_, hi ▸ hB, rfl⟩
  have e2 := wrapBerParser_ok.mpr ⟨_, hi ▸ hD, rfl⟩
  constructor
  · unfold Oid.fromBerRelative
    rw [e1]
    simp only [Bind.bind, Except.bind, assertPrimitiveS, assertTagS, tagAssertEq, tagRelativeOid,
      pure, Except.pure, Bool.false_eq_true, if_false, if_true, hi, hcon, hrem]
  · unfold Oid.fromDerRelative
    rw [e2]
    simp only [Bind.bind, Except.bind, assertPrimitiveS, assertTagS, tagAssertEq, tagRelativeOid,
      pure, Except.pure, Bool.false_eq_true, if_false, if_true, hi, hcon, hrem, oidCheck,
      assertDefiniteS, Length.isDefinite]

example : oidToBer.toVec ⟨[3, 2], true⟩ = .ok [13, 2, 3, 2] ∧
    Oid.fromDerRelative [13, 2, 3, 2] = .ok ([], ⟨[3, 2], true⟩) ∧
    fromDer oidP oidCheck [13, 2, 3, 2] = .ok ([], ⟨[3, 2], false⟩) := by decide +kernel

/-! ### C27 -/

theorem startsWith_iff (o n : Oid) : o.startsWith n = true ↔ n.asn1 <+: o.asn1 := by
  unfold Oid.startsWith
  simp only [Bool.and_eq_true, decide_eq_true_eq, List.isPrefixOf_iff_prefix]
  exact ⟨fun h => h.2, fun h => ⟨h.length_le, h⟩⟩

/-- **C27** (partial) `starts_with` is the prefix relation on arcs, for OIDs built from at least two
arcs whose first two fit the first octet, and for relative OIDs. Missing: the OID built from the
single arc 0, and first arcs that do not fit; the flag of relative OIDs is not compared
(`C27_deviations`). -/
theorem C27_starts_with_partial :
    (∀ a b s c d t o n, Oid.from (a :: b :: s) = .ok o → Oid.from (c :: d :: t) = .ok n →
      a * 40 + b < 256 → c * 40 + d < 256 →
      (o.startsWith n = true ↔ (c :: d :: t) <+: (a :: b :: s))) ∧
    (∀ s t o n, Oid.fromRelative s = .ok o → Oid.fromRelative t = .ok n →
      (o.startsWith n = true ↔ t <+: s)) := by
  have hsub : ∀ s t bs cs, SubIds s bs → SubIds t cs → (cs <+: bs ↔ t <+: s) := by
    rintro s t bs cs ⟨ps, hp, rfl⟩ ⟨qs, hq, rfl⟩
    exact subIds_prefix hq hp
  constructor
  · intro a b s c d t o n ho hn hab hcd
    rw [Oid.from] at ho hn
    split at ho
    · simp at ho
    split at hn
    · simp at hn
    simp only [Except.ok.injEq] at ho hn
    subst ho hn
    rw [startsWith_iff, List.cons_prefix_cons, List.cons_prefix_cons, List.cons_prefix_cons,
      hsub s t _ _ (encodeRelative_subIds s) (encodeRelative_subIds t), byte_eq_iff,
      ofNat_toNat_mod, ofNat_toNat_mod, Nat.mod_eq_of_lt hab, Nat.mod_eq_of_lt hcd, ← and_assoc]
    refine and_congr_left fun _ => ?_
    omega
  · intro s t o n ho hn
    have h1 := C26_relative_oid.2.1 s o ho
    have h2 := C26_relative_oid.2.1 t n hn
    rw [startsWith_iff, hsub s t _ _ h1.2.1 h2.2.1]

example : ∃ o n m, Oid.from [1, 2, 840, 113549] = .ok o ∧ Oid.from [1, 2, 840] = .ok n ∧
    Oid.from [1, 2, 6] = .ok m ∧ o.startsWith n = true ∧ o.startsWith m = false :=
  ⟨_, _, _, rfl, rfl, rfl, by decide +kernel, by decide +kernel⟩

/-- **C27** Deviations: `0` is not a prefix of `0.5`; `0.0` and `6.16` are confused; a relative OID
is a prefix of an absolute one with the same octets. -/
theorem C27_deviations :
    (∃ o n, Oid.from [0, 5] = .ok o ∧ Oid.from [0] = .ok n ∧ o.startsWith n = false) ∧
    (∃ o n, Oid.from [0, 0, 1] = .ok o ∧ Oid.from [6, 16] = .ok n ∧ o.startsWith n = true) ∧
    (∃ o n, Oid.from [1, 2, 3] = .ok o ∧ Oid.fromRelative [42] = .ok n ∧ o.startsWith n = true) :=
  ⟨⟨_, _, rfl, rfl, by decide +kernel⟩, ⟨_, _, rfl, rfl, by decide +kernel⟩,
    ⟨_, _, rfl, rfl, by decide +kernel⟩⟩

/-! ### The properties common to all types -/

/-- **C11** What DER accepts as OBJECT IDENTIFIER, BER accepts with the same value and remainder. -/
theorem C11_der_subset_ber_oid (i r : Input) (o : Oid) (h : oidP.parseDer i = .ok (r, o)) :
    oidP.parseBer i = .ok (r, o) :=
  der_subset_ber (fun _ h => h) (fun _ _ r _ _ h => ⟨r, h⟩) h

/-- A case. -/
example : oidP.parseBer (Input.fromSlice [6, 2, 0x2a, 3, 9]) = .ok (⟨[9], 4, 5⟩, ⟨[0x2a, 3], false⟩) :=
  C11_der_subset_ber_oid _ _ _ (by decide +kernel)

/-- **C38** `parse_der` and `from_der` agree on OBJECT IDENTIFIER. -/
theorem C38_oid_apis_agree (bs rem : Bytes) (o : Oid) :
    fromDer oidP oidCheck bs = .ok (rem, o) ↔
      ∃ r, oidP.parseDer (Input.fromSlice bs) = .ok (r, o) ∧ r.data = rem := by
  refine der_apis_agree (fun _ => Iff.rfl) (fun a v hl => ⟨fun h => h.2, fun ⟨x, hx⟩ => ⟨?_, x, hx⟩⟩) _ _ _
  exact oidCheck_ok.mpr ⟨(oidContent_ok.mp hx).1, by rw [hl]; rfl⟩

/-- **C18** (partial, as `C18_lengths_partial`), **C50** and **C52** for OBJECT IDENTIFIER. -/
theorem C18_oid_lengths_partial (o : Oid) (h : o.asn1.length < 2 ^ 64) : LengthsRight oidToBer o :=
  (oid_encodes o).lengths h

/-- A case: the OID 1.2.840.113549. -/
example : LengthsRight oidToBer ⟨[0x2a, 0x86, 0x48, 0x86, 0xf7, 0x0d], false⟩ :=
  C18_oid_lengths_partial _ (by decide)

theorem C50_oid_failing_writer (o : Oid) : FaultTolerant oidToBer o :=
  faultTolerant ((strict_writeAll _).bind fun _ => strict_pure _)

theorem C52_oid_prefix_free :
    PrefixFree oidToBer (fun o => o.relative = false ∧ o.asn1 ≠ [] ∧ o.asn1.length < 2 ^ 64) := by
  refine prefixFree_der (p := oidP) fun o ho => ?_
  have := (oid_back o ho.2.1 ho.2.2).2.2.1
  obtain ⟨asn1, rel⟩ := o
  obtain rfl : rel = false := ho.1
  exact this

example : fromDer oidP oidCheck [6, 3, 0x2a, 3, 4, 5] = .ok ([5], ⟨[0x2a, 3, 4], false⟩) ∧
    oidP.parseDer (Input.fromSlice [6, 3, 0x2a, 3, 4, 5]) = .ok (⟨[5], 5, 6⟩, ⟨[0x2a, 3, 4], false⟩) ∧
    oidToBer.totalLen ⟨[0x2a, 3, 4], false⟩ = .definite 5 := by decide +kernel

end Asn1

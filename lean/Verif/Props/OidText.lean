import Verif.Props.Oid
import Verif.Props.Integer
import Verif.Spec.Time
/-!
# Text of OIDs, announced length of their iterator, the macros `oid!` and `int!` (C57 to C60)
-/
namespace Asn1
open Spec

/-! ### Decimal numbers -/

theorem decimal_digits (n : Nat) : Digits n (decimal n) := by
  induction n using Nat.strongRecOn with
  | _ n ih =>
    rw [decimal]
    split
    · exact .one n (by assumption)
    · have := Digits.more (n / 10) (n % 10) _ (by omega) (Nat.mod_lt _ (by decide))
        (ih (n / 10) (by omega))
      rwa [show 10 * (n / 10) + n % 10 = n by omega] at this

theorem digit_toNat {d : Nat} (h : d < 10) : (UInt8.ofNat (48 + d)).toNat = 48 + d := by
  rw [ofNat_toNat_mod]; omega

theorem digits_bytes {n : Nat} {t : Bytes} (h : Digits n t) :
    t ≠ [] ∧ ∀ b ∈ t, 48 ≤ b.toNat ∧ b.toNat ≤ 57 := by
  induction h with
  | one n hn =>
    refine ⟨by simp, fun b hb => ?_⟩
    simp only [List.mem_singleton] at hb
    subst hb; rw [digit_toNat hn]; omega
  | more n d t _ hd _ ih =>
    refine ⟨by simp, fun b hb => ?_⟩
    simp only [List.mem_append, List.mem_singleton] at hb
    rcases hb with hb | rfl
    · exact ih.2 b hb
    · rw [digit_toNat hd]; omega

theorem parseDigits_append (t u : Bytes) (acc : Nat) :
    parseDigits (t ++ u) acc = (parseDigits t acc).bind (parseDigits u) := by
  induction t generalizing acc with
  | nil => rfl
  | cons b t ih =>
    simp only [List.cons_append, parseDigits]
    split
    · split
      · exact ih _
      · rfl
    · rfl

theorem parseDigits_digits {n : Nat} {t : Bytes} (h : Digits n t) (hn : n < 2 ^ 64) :
    parseDigits t 0 = some n := by
  induction h with
  | one n h10 =>
    simp only [parseDigits]
    rw [digit_toNat h10, if_pos (by omega), if_pos (by omega)]
    simp
  | more n d t _ hd _ ih =>
    rw [parseDigits_append, ih (by omega)]
    simp only [Option.bind_some, parseDigits]
    rw [digit_toNat hd, if_pos (by omega), if_pos (by omega)]
    congr 1; omega

theorem parseU64_digits {n : Nat} {t : Bytes} (h : Digits n t) (hn : n < 2 ^ 64) :
    parseU64 t = some n := by
  obtain ⟨h1, h2⟩ := digits_bytes h
  have h3 := parseDigits_digits h hn
  cases t with
  | nil => exact absurd rfl h1
  | cons b t =>
    have := h2 b List.mem_cons_self
    simp only [parseU64]
    rw [if_neg (by rw [byte_eq_iff]; show ¬ b.toNat = 43; omega), h3]

theorem splitDots_word (t : Bytes) (ht : ∀ b ∈ t, b ≠ 46) :
    splitDots t = [t] ∧ ∀ u, splitDots (t ++ 46 :: u) = t :: splitDots u := by
  induction t with
  | nil => exact ⟨rfl, fun u => by simp [splitDots]⟩
  | cons b t ih =>
    obtain ⟨h1, h2⟩ := ih fun x hx => ht x (List.mem_cons_of_mem _ hx)
    have hb := ht b List.mem_cons_self
    constructor
    · rw [splitDots, if_neg hb, h1]
    · intro u
      rw [List.cons_append, splitDots, if_neg hb, h2]

theorem digits_noDot {n : Nat} {t : Bytes} (h : Digits n t) : ∀ b ∈ t, b ≠ 46 := by
  intro b hb
  have := (digits_bytes h).2 b hb
  rw [Ne, byte_eq_iff]; show ¬ b.toNat = 46; omega

theorem joinDots_dotted {ns : List Nat} (h : ns ≠ []) : Dotted ns (joinDots (ns.map decimal)) := by
  induction ns with
  | nil => exact absurd rfl h
  | cons n ns ih =>
    cases ns with
    | nil => exact .one n _ (decimal_digits n)
    | cons m ns => exact .more n _ _ _ (decimal_digits n) (ih (by simp))

theorem fromStr_dotted {ns : List Nat} {t : Bytes} (h : Dotted ns t) (hn : ∀ n ∈ ns, n < 2 ^ 64) :
    collectOption parseU64 (splitDots t) = some ns := by
  induction h with
  | one n t ht =>
    rw [(splitDots_word t (digits_noDot ht)).1]
    simp [collectOption, parseU64_digits ht (hn n (by simp))]
  | more n ns t ts ht _ ih =>
    rw [(splitDots_word t (digits_noDot ht)).2, collectOption,
      parseU64_digits ht (hn n (by simp)), ih fun m hm => hn m (List.mem_cons_of_mem _ hm)]
    rfl

/-- **C57** (partial) Text of OIDs. Dotted decimal text of 64-bit numbers reads as the OID of these numbers;
the text of an OID built from arcs is the dotted decimal
text of its arcs, and reads back as the same OID. The variant without big integers gives the same
text when the arcs after the second are below `2^63`. Missing: `0.0` and first arcs which do not fit
one octet, whose text is not that of the arcs (`C57_deviations`); it is read back as the same OID
(`C57_reads_back`). -/
theorem C57_oid_text_partial :
    (∀ ns t, Dotted ns t → (∀ n ∈ ns, n < 2 ^ 64) → Oid.fromStr t = Oid.from ns) ∧
    (∀ a b rest o, Oid.from (a :: b :: rest) = .ok o → a * 40 + b < 256 →
      ¬ (a = 0 ∧ b = 0 ∧ rest = []) → (∀ n ∈ rest, n < 2 ^ 64) →
      ∃ t, o.toIdString = some t ∧ Dotted (a :: b :: rest) t ∧ Oid.fromStr t = .ok o ∧
        ((∀ n ∈ rest, n < 2 ^ 63) → o.toIdStringU64 = some t)) := by
  have h1 : ∀ ns t, Dotted ns t → (∀ n ∈ ns, n < 2 ^ 64) → Oid.fromStr t = Oid.from ns := by
    intro ns t h hn
    rw [Oid.fromStr, fromStr_dotted h hn]
  refine ⟨h1, fun a b rest o ho hab hne hr => ?_⟩
  have ⟨_, hbound⟩ : a < 7 ∧ b < 40 := by
    rw [Oid.from] at ho; split at ho
    · simp at ho
    · omega
  obtain ⟨f, bs, g1, _, _, g2, g3⟩ := C25_oid_arcs_partial.2 a b rest hab hbound hne
  rw [ho] at g1
  simp only [Except.ok.injEq] at g1
  subst g1
  have hd := joinDots_dotted (ns := a :: b :: rest) (by simp)
  refine ⟨_, ?_, hd, ?_, ?_⟩
  · rw [Oid.toIdString, g2]; rfl
  · rw [h1 _ _ hd, ho]
    intro n hn
    simp only [List.mem_cons] at hn
    rcases hn with rfl | rfl | hn
    · omega
    · omega
    · exact hr n hn
  · intro h63
    rw [Oid.toIdStringU64, g3.mpr h63]

/-- `1.2.840`, as ASCII; text that is not of this form may also be accepted (`+1.02`). -/
example : Oid.fromStr [49, 46, 50, 46, 56, 52, 48] = .ok ⟨[0x2a, 0x86, 0x48], false⟩ ∧
    (Oid.mk [0x2a, 0x86, 0x48] false).toIdString = some [49, 46, 50, 46, 56, 52, 48] ∧
    Oid.fromStr [43, 49, 46, 48, 50] = .ok ⟨[0x2a], false⟩ ∧
    (Oid.mk [0x2a] true).toIdStringU64 = some [52, 50] ∧
    (Oid.mk [0x2a, 0x81, 0x80, 0x80, 0x80, 0x80, 0x80, 0x80, 0x80, 0x80, 0x00] false).toIdStringU64
      = some [50, 97, 32, 56, 49, 32, 56, 48, 32, 56, 48, 32, 56, 48, 32, 56, 48, 32, 56, 48, 32, 56,
          48, 32, 56, 48, 32, 56, 48, 32, 48, 48] := by
  decide +kernel

theorem octet_wraps {n m : Nat} (h : n = m + 256) : UInt8.ofNat n = UInt8.ofNat m := by
  apply UInt8.toNat_inj.mp
  simp only [UInt8.toNat_ofNat']
  omega

/-- **C57** Whatever the arcs an OID is built from, its text reads back as the same OID. -/
theorem C57_reads_back (arcs : List Nat) (o : Oid) (h : Oid.from arcs = .ok o)
    (hn : ∀ n ∈ arcs, n < 2 ^ 64) : ∃ t, o.toIdString = some t ∧ Oid.fromStr t = .ok o := by
  have zero : ∃ t, (Oid.mk [0] false).toIdString = some t ∧ Oid.fromStr t = .ok ⟨[0], false⟩ :=
    ⟨[48], by decide +kernel, by decide +kernel⟩
  have pair : ∀ a b rest, Oid.from (a :: b :: rest) = .ok o → a * 40 + b < 256 → (∀ n ∈ rest, n < 2 ^ 64) →
      ∃ t, o.toIdString = some t ∧ Oid.fromStr t = .ok o := by
    intro a b rest h hab hr
    by_cases hz : a = 0 ∧ b = 0 ∧ rest = []
    · obtain ⟨rfl, rfl, rfl⟩ := hz
      rw [← Except.ok.inj (show Oid.from [0, 0] = .ok ⟨[0], false⟩ by decide +kernel) |>.symm.trans
        (Except.ok.inj h)]
      exact zero
    · obtain ⟨t, h1, _, h2, _⟩ := C57_oid_text_partial.2 a b rest o h hab hz hr
      exact ⟨t, h1, h2⟩
  match arcs, h, hn with
  | [], h, _ => cases h
  | [a], h, _ =>
    rw [Oid.from] at h
    split at h
    · rw [← Except.ok.inj h]; exact zero
    · cases h
  | a :: b :: rest, h, hn =>
    have hr : ∀ n ∈ rest, n < 2 ^ 64 := fun n hm => hn n (by simp [hm])
    by_cases hab : a * 40 + b < 256
    · exact pair a b rest h hab hr
    · have hlt : a < 7 ∧ b < 40 := by
        rw [Oid.from] at h; split at h
        · cases h
        · omega
      refine pair 0 (a * 40 + b - 256) rest ?_ (by omega) hr
      rw [← h, Oid.from, Oid.from, if_neg (by omega), if_neg (by omega)]
      rw [octet_wraps (show a * 40 + b = (0 * 40 + (a * 40 + b - 256)) + 256 by omega)]

/-- A case: the OID made of 6 and 39, which is that of 0 and 23. -/
example : Oid.from [6, 39] = .ok ⟨[23], false⟩ := by decide +kernel

/-- **C57** Deviations: the text of `0.0` is `0`; that of `6.b`, for `b` from 17 on, is `0.` and `b - 16`. -/
theorem C57_deviations :
    (∃ o, Oid.from [0, 0] = .ok o ∧ o.toIdString = some (ascii "0")) ∧
    ∀ b, 16 < b → b < 40 → ∃ o t, Oid.from [6, b] = .ok o ∧ o.toIdString = some t ∧ Dotted [0, b - 16] t := by
  refine ⟨⟨⟨[0], false⟩, by decide +kernel, by decide +kernel⟩, fun b h1 h2 => ?_⟩
  have e : Oid.from [6, b] = Oid.from [0, b - 16] := by
    rw [Oid.from, Oid.from, if_neg (by omega), if_neg (by omega)]
    rw [octet_wraps (show 6 * 40 + b = (0 * 40 + (b - 16)) + 256 by omega)]
  obtain ⟨o, ho⟩ := (C25_oid_arcs_partial.1 [0, b - 16]).mpr (.inr ⟨0, b - 16, [], rfl, by omega, by omega⟩)
  obtain ⟨t, h3, h4, _⟩ := C57_oid_text_partial.2 0 (b - 16) [] o ho (by omega) (by omega) (by simp)
  exact ⟨o, t, e.trans ho, h3, h4⟩

theorem hexDigit_alphabet (d : Nat) (h : d < 16) : hexAlphabet[d]? = some (hexDigit d) := by
  have : ∀ d : Fin 16, hexAlphabet[d.val]? = some (hexDigit d.val) := by decide
  exact this ⟨d, h⟩

theorem hexString_text : ∀ bs : Bytes, HexText bs (hexString bs)
  | [] => .nil
  | [b] => .one b _ _ (hexDigit_alphabet _ (by have := b.toNat_lt; omega))
      (hexDigit_alphabet _ (by omega))
  | b :: c :: rest => .more b _ _ _ _ (by simp) (hexDigit_alphabet _ (by have := b.toNat_lt; omega))
      (hexDigit_alphabet _ (by omega)) (hexString_text (c :: rest))

theorem hexText_chars {bs t : Bytes} (h : HexText bs t) : ∀ c ∈ t, c ≠ 46 := by
  have hal : ∀ (d : UInt8) (i : Nat), hexAlphabet[i]? = some d → d ≠ 46 := by
    intro d i hd
    have := List.mem_of_getElem? hd
    simp only [hexAlphabet, List.mem_cons, List.not_mem_nil, or_false] at this
    rcases this with h | h | h | h | h | h | h | h | h | h | h | h | h | h | h | h <;> subst h <;>
      decide
  induction h with
  | nil => intro c hc; cases hc
  | one b d e h1 h2 =>
    intro c hc
    simp only [List.mem_cons, List.not_mem_nil, or_false] at hc
    rcases hc with rfl | rfl
    · exact hal _ _ h1
    · exact hal _ _ h2
  | more b d e bs t _ h1 h2 _ ih =>
    intro c hc
    simp only [List.mem_cons] at hc
    rcases hc with rfl | rfl | rfl | hc
    · exact hal _ _ h1
    · exact hal _ _ h2
    · decide
    · exact ih c hc

theorem hexText_inj {bs cs t : Bytes} (h : HexText bs t) (h' : HexText cs t) : bs = cs := by
  have hal : ∀ (i j : Nat) (d : UInt8), hexAlphabet[i]? = some d → hexAlphabet[j]? = some d → i = j := by
    intro i j d hi hj
    have li : i < 16 := (List.getElem?_eq_some_iff.mp hi).1
    have lj : j < 16 := (List.getElem?_eq_some_iff.mp hj).1
    have : ∀ i j : Fin 16, hexAlphabet[i.val]? = hexAlphabet[j.val]? → i = j := by decide +kernel
    exact congrArg Fin.val (this ⟨i, li⟩ ⟨j, lj⟩ (hi.trans hj.symm))
  have key : ∀ b c d e : UInt8, hexAlphabet[b.toNat / 16]? = some d → hexAlphabet[b.toNat % 16]? = some e →
      hexAlphabet[c.toNat / 16]? = some d → hexAlphabet[c.toNat % 16]? = some e → b = c := by
    intro b c d e h1 h2 h3 h4
    have a := hal _ _ _ h1 h3
    have b' := hal _ _ _ h2 h4
    exact UInt8.toNat_inj.mp (by omega)
  induction h generalizing cs with
  | nil => cases h'; rfl
  | one b d e h1 h2 =>
    cases h' with
    | one c _ _ h3 h4 => rw [key b c d e h1 h2 h3 h4]
  | more b d e bs t _ h1 h2 _ ih =>
    cases h' with
    | more c _ _ cs _ _ h3 h4 h5 => rw [key b c d e h1 h2 h3 h4, ih h5]

/-- **C57** Builds without big integers: when an arc does not fit 64 bits, the text is that of the
content octets in hexadecimal; it contains no dot, and two such OIDs of the same text have the same
content. -/
theorem C57_hex_text (o : Oid) (h : o.iter = none) :
    ∃ t, o.toIdStringU64 = some t ∧ HexText o.asn1 t ∧ (46 : UInt8) ∉ t ∧
      ∀ p : Oid, p.iter = none → p.toIdStringU64 = some t → p.asn1 = o.asn1 := by
  have e : ∀ p : Oid, p.iter = none → p.toIdStringU64 = some (hexString p.asn1) := fun p hp => by
    rw [Oid.toIdStringU64, hp]
  refine ⟨_, e o h, hexString_text _, fun hc => hexText_chars (hexString_text _) _ hc rfl,
    fun p hp ht => ?_⟩
  rw [e p hp] at ht
  exact hexText_inj (hexString_text p.asn1) (Option.some.inj ht ▸ hexString_text o.asn1)

/-- Such an OID. -/
example : (Oid.mk [0x2a, 0x82, 0x80, 0x80, 0x80, 0x80, 0x80, 0x80, 0x80, 0x80, 0x00] false).iter = none := by
  decide +kernel

/-- **C57** Display and Debug. What is displayed is the text of the OID, after `rel. ` if it is
relative; Debug is that between `OID(` and `)`. -/
theorem C57_display (o : Oid) (idString : Oid → Option Bytes) (t : Bytes) (h : idString o = some t) :
    (o.relative = false → o.display idString = some t ∧
      o.debug idString = some (ascii "OID(" ++ t ++ ascii ")")) ∧
    (o.relative = true → o.display idString = some (ascii "rel. " ++ t) ∧
      o.debug idString = some (ascii "OID(rel. " ++ t ++ ascii ")")) := by
  refine ⟨fun hr => ?_, fun hr => ?_⟩
  · simp only [Oid.debug, Oid.display, h, Option.map_some, hr, Bool.false_eq_true, if_false, true_and]
    rfl
  · simp only [Oid.debug, Oid.display, h, Option.map_some, hr, if_true]
    exact ⟨rfl, rfl⟩

/-- A case: the OID 1.2.840 as absolute and as relative one (there is no zero octet in its text). -/
example : (Oid.mk [0x2a, 0x86, 0x48] false).display Oid.toIdString = some (ascii "1.2.840") := by decide +kernel

/-- **C57** Displayed OIDs: the text of relative ones is told from that of absolute ones, and the
displayed arcs are read back (with `FromStr`, which makes absolute OIDs only). -/
theorem C57_display_reads_partial (a b : Nat) (rest : List Nat) (o : Oid) (ho : Oid.from (a :: b :: rest) = .ok o)
    (hab : a * 40 + b < 256) (hz : ¬ (a = 0 ∧ b = 0 ∧ rest = [])) (hr : ∀ n ∈ rest, n < 2 ^ 64) :
    ∃ t, o.display Oid.toIdString = some t ∧ Dotted (a :: b :: rest) t ∧ Oid.fromStr t = .ok o ∧
      ∀ p : Oid, p.relative = true → p.display Oid.toIdString ≠ some t := by
  obtain ⟨t, h1, h2, h3, _⟩ := C57_oid_text_partial.2 a b rest o ho hab hz hr
  have hrel : o.relative = false := by
    rw [Oid.from] at ho; split at ho
    · cases ho
    · rw [← Except.ok.inj ho]
  refine ⟨t, ((C57_display o _ t h1).1 hrel).1, h2, h3, fun p hp hd => ?_⟩
  have h1 : ∃ u, t = 114 :: u := by
    cases hq : Oid.toIdString p with
    | none => simp [Oid.display, hq] at hd
    | some q =>
      have := ((C57_display p _ q hq).2 hp).1
      rw [hd] at this
      exact ⟨ascii "el. " ++ q, Option.some.inj this⟩
  obtain ⟨u, hu⟩ := h1
  have hfirst : ∀ ns t', Dotted ns t' → ∀ c u, t' = c :: u → c.toNat ≤ 57 := by
    intro ns t' hd c u he
    have first : ∀ n w, Digits n w → ∀ v, w ++ v = c :: u → c.toNat ≤ 57 := by
      intro n w hw v hv
      obtain ⟨hne, hb⟩ := digits_bytes hw
      cases w with
      | nil => exact absurd rfl hne
      | cons x w => exact (List.cons.inj hv).1 ▸ (hb x List.mem_cons_self).2
    cases hd with
    | one n t hw => exact first n t' hw [] (by rw [List.append_nil, he])
    | more n ns w ts hw _ => exact first n w hw _ he
  exact absurd (hfirst _ t h2 114 u hu) (by decide)

example : (Oid.mk [0x2a, 0x03] true).display Oid.toIdStringU64 = some (ascii "rel. 42.3") ∧
    (Oid.mk [0x2a, 0x03] false).debug Oid.toIdStringU64 = some (ascii "OID(1.2.3)") := by
  decide +kernel

/-! ### Announced length of the iterator -/

theorem filter_subIds {ns : List Nat} {bs : Bytes} (h : SubIds ns bs) :
    (bs.filter (fun b : UInt8 => b >>> 7 = 0)).length = ns.length := by
  obtain ⟨parts, hp, rfl⟩ := h
  induction hp with
  | nil => rfl
  | cons hn _ ih =>
    obtain ⟨⟨hi, last, rfl, g1, g2⟩, _, _⟩ := hn
    have h1 : hi.filter (fun b : UInt8 => b >>> 7 = 0) = [] := by
      rw [List.filter_eq_nil_iff]
      intro b hb
      have := g1 b hb
      simp only [decide_eq_true_eq]
      intro h; have := (top7 b).mp h; omega
    have h2 : [last].filter (fun b : UInt8 => b >>> 7 = 0) = [last] := by
      simp only [List.filter_cons, List.filter_nil]
      rw [if_pos (by simpa using (top7 last).mpr g2)]
    simp only [List.flatten_cons, List.filter_append, List.length_append, h1, h2, ih,
      List.length_cons, List.length_nil]
    omega

/-- **C60** (partial) The announced length (`len`) of the iterator over sub-identifiers, before
the first item. Relative OIDs: the number of arcs. Absolute OIDs built from arcs: the number of
arcs, except when there is a third arc and it is below 128, where it is one less. Missing: the
claim itself in that last case, where it is false; and `len` does not decrease as items are read
(the model's `iterLen` has no position, as in the code). -/
theorem C60_iterator_len_partial :
    (∀ s o, Oid.fromRelative s = .ok o → o.iterLen = s.length) ∧
    (∀ a b rest o, Oid.from (a :: b :: rest) = .ok o → a * 40 + b < 256 →
      ¬ (a = 0 ∧ b = 0 ∧ rest = []) →
      ((∃ c tl, rest = c :: tl ∧ c < 128) → o.iterLen = rest.length + 1) ∧
      ((∀ c tl, rest = c :: tl → 128 ≤ c) → o.iterLen = rest.length + 2)) := by
  constructor
  · intro s o h
    have hk := C26_relative_oid.2.1 s o h
    rw [Oid.iterLen, if_pos hk.1]
    exact filter_subIds hk.2.1
  · intro a b rest o ho hab hne
    rw [Oid.from] at ho; split at ho
    · simp at ho
    simp only [Except.ok.injEq] at ho
    subst ho
    have hs := encodeRelative_subIds rest
    have hfl := filter_subIds hs
    rw [Oid.iterLen]
    simp only [Bool.false_eq_true, if_false]
    cases rest with
    | nil =>
      have h0 : ¬ (UInt8.ofNat (a * 40 + b) = 0) := by
        rw [byte_eq0, ofNat_toNat_mod]
        have : ¬ (a = 0 ∧ b = 0) := fun h => hne ⟨h.1, h.2, rfl⟩
        omega
      refine ⟨fun ⟨c, tl, h, _⟩ => by simp at h, fun _ => ?_⟩
      show (if UInt8.ofNat (a * 40 + b) = 0 then 1 else 2) = _
      rw [if_neg h0]; rfl
    | cons c tl =>
      have hc := encodeArc_subId c
      have he : encodeRelative (c :: tl) = encodeArc c ++ encodeRelative tl := rfl
      rw [he] at hfl ⊢
      obtain ⟨⟨hi, last, e, g1, g2⟩, hv, hz⟩ := hc
      rw [e] at hfl hv ⊢
      cases hi with
      | nil =>
        have hlast : c < 128 := by
          rw [← hv]; simp [base128]; omega
        refine ⟨fun _ => ?_, fun h => by have := h c tl rfl; omega⟩
        have ht := filter_subIds (encodeRelative_subIds tl)
        simp only [List.nil_append, List.singleton_append]
        rw [ht]; simp; omega
      | cons x hi =>
        have hx := g1 x List.mem_cons_self
        have hc128 : ¬ c < 128 := by
          have hx' := hz x (hi ++ [last]) e
          rw [List.cons_append] at hv
          rw [base128_cons] at hv
          have h1 : 128 ≤ 128 ^ (hi ++ [last]).length := by
            rw [List.length_append, List.length_singleton, Nat.pow_succ]
            have := Nat.pow_pos (n := hi.length) (by decide : 0 < 128)
            omega
          have h2 : 1 ≤ x.toNat % 128 := by have := x.toNat_lt; omega
          have h3 := Nat.mul_le_mul h2 h1
          omega
        refine ⟨fun ⟨c', tl', h1, h2⟩ => by
          obtain ⟨rfl, rfl⟩ := List.cons.inj h1; exact absurd h2 hc128, fun _ => ?_⟩
        simp only [List.cons_append]
        have hxf : ¬ (x >>> 7 = 0) := fun h => by have := (top7 x).mp h; omega
        rw [List.cons_append, List.cons_append, List.filter_cons, if_neg (by simpa using hxf)] at hfl
        rw [hfl]; simp; omega

/-- The announced length of 1.2.3 is 2, although three items are yielded; 1.2.840 is right. -/
example : ∃ o p, Oid.from [1, 2, 3] = .ok o ∧ o.iterLen = 2 ∧ o.iter = some [1, 2, 3] ∧
    Oid.from [1, 2, 840] = .ok p ∧ p.iterLen = 3 :=
  ⟨_, _, rfl, by decide +kernel, by decide +kernel, rfl, by decide +kernel⟩

/-! ### The macros -/

theorem base128Loop_subId : ∀ (fuel val : Nat) (acc : Bytes) (n : Nat), val < 128 ^ fuel →
    IsGroup acc → base128 acc = n → (val = 0 → ∀ x xs, acc = x :: xs → x.toNat ≠ 128) →
    SubId (val * 128 ^ acc.length + n) (base128Loop fuel val acc) := by
  intro fuel
  induction fuel with
  | zero =>
    intro val acc n hv hg hb hz
    obtain rfl : val = 0 := by simpa using hv
    rw [base128Loop]
    exact ⟨hg, by rw [hb]; simp, hz rfl⟩
  | succ fuel ih =>
    intro val acc n hv hg hb hz
    rw [base128Loop]
    split
    · rename_i h0
      subst h0
      exact ⟨hg, by rw [hb]; simp, hz rfl⟩
    · rename_i h0
      have hb7 : val &&& 0x7f = val % 128 := Nat.and_two_pow_sub_one_eq_mod val 7
      have hs7 : val >>> 7 = val / 128 := by rw [Nat.shiftRight_eq_div_pow]
      have hx : (UInt8.ofNat (val &&& 0x7f) ||| 0x80).toNat = val % 128 + 128 := by
        rw [or80_toNat _ (by rw [ofNat_toNat_mod, hb7]; omega), ofNat_toNat_mod, hb7]; omega
      generalize (UInt8.ofNat (val &&& 0x7f) ||| 0x80) = x at hx
      have hg' : IsGroup (x :: acc) := by
        obtain ⟨hi, last, rfl, g1, g2⟩ := hg
        refine ⟨x :: hi, last, rfl, fun b hb => ?_, g2⟩
        simp only [List.mem_cons] at hb
        rcases hb with rfl | hb
        · omega
        · exact g1 b hb
      have := ih (val >>> 7) (x :: acc) _
        (by rw [hs7]; rw [Nat.pow_succ] at hv; exact Nat.div_lt_of_lt_mul (by omega)) hg' rfl
        (by
          intro hz0 y ys hy
          obtain ⟨rfl, _⟩ := List.cons.inj hy
          rw [hs7] at hz0; omega)
      rw [base128_cons, hb, hs7, hx, List.length_cons, Nat.pow_succ] at this
      rw [hs7]
      have e : val / 128 * (128 ^ acc.length * 128) + ((val % 128 + 128) % 128 * 128 ^ acc.length + n)
          = val * 128 ^ acc.length + n := by
        have h1 : (val % 128 + 128) % 128 = val % 128 := by omega
        have h2 : val = 128 * (val / 128) + val % 128 := by omega
        rw [h1]
        conv => rhs; rw [h2, Nat.add_mul]
        rw [Nat.mul_comm (128 ^ acc.length) 128, ← Nat.mul_assoc, Nat.mul_comm (val / 128) 128]
        omega
      rwa [e] at this

theorem encodeBase128_eq {n : Nat} (h : n < 2 ^ 128) : encodeBase128 n = encodeArc n := by
  refine subId_unique (n := n) ?_ (encodeArc_subId n)
  have hb7 : n &&& 0x7f = n % 128 := Nat.and_two_pow_sub_one_eq_mod n 7
  have hs7 : n >>> 7 = n / 128 := by rw [Nat.shiftRight_eq_div_pow]
  have hx : (UInt8.ofNat (n &&& 0x7f)).toNat = n % 128 := by
    rw [ofNat_toNat_mod, hb7]; omega
  have := base128Loop_subId 20 (n >>> 7) [UInt8.ofNat (n &&& 0x7f)] (n % 128)
    (by rw [hs7]; have : (2:Nat) ^ 128 ≤ 128 ^ 20 := by decide
        have := Nat.div_le_self n 128; omega)
    ⟨[], _, rfl, by simp, by omega⟩
    (by have : base128 [UInt8.ofNat (n &&& 0x7f)] = (UInt8.ofNat (n &&& 0x7f)).toNat % 128 := by
          simp [base128]
        rw [this, hx]; omega)
    (by intro _ x xs he
        obtain ⟨rfl, _⟩ := List.cons.inj he
        omega)
  rw [hs7] at this
  simp only [List.length_singleton, Nat.pow_one] at this
  rw [show n / 128 * 128 + n % 128 = n by omega] at this
  rwa [encodeBase128, hs7]

/-- **C58** The `oid!` macro. On 128-bit numbers, the content it produces is the one the run-time
constructor produces; what the macro accepts the constructor accepts; the constructor accepts in
addition exactly the lists whose first arc is 3 to 6. -/
theorem C58_oid_macro (items : List Nat) (h : ∀ n ∈ items, n < 2 ^ 128) :
    (items ≠ [] → ∃ bs, encodeOidMacro true items = some bs ∧
      Oid.fromRelative items = .ok ⟨bs, true⟩) ∧
    (∀ bs, encodeOidMacro false items = some bs → Oid.from items = .ok ⟨bs, false⟩) ∧
    (∀ o, Oid.from items = .ok o → encodeOidMacro false items = none →
      ∃ a b rest, items = a :: b :: rest ∧ 3 ≤ a ∧ a ≤ 6) := by
  have hm : ∀ l : List Nat, (∀ n ∈ l, n < 2 ^ 128) → l.flatMap encodeBase128 = encodeRelative l := by
    intro l hl
    induction l with
    | nil => rfl
    | cons n l ih =>
      rw [List.flatMap_cons, encodeBase128_eq (hl n List.mem_cons_self),
        ih fun m hm => hl m (List.mem_cons_of_mem _ hm)]
      rfl
  refine ⟨?_, ?_, ?_⟩
  · intro hne
    refine ⟨_, rfl, ?_⟩
    rw [hm _ h, Oid.fromRelative, if_neg (by simpa using hne)]
  · intro bs hb
    match items with
    | [] => simp [encodeOidMacro] at hb
    | [a] =>
      simp only [encodeOidMacro, Bool.false_eq_true, if_false] at hb
      rw [Oid.from]
      split at hb
      · simp at hb; subst hb; rename_i h; rw [if_pos h]
      · simp at hb
    | a :: b :: rest =>
      simp only [encodeOidMacro, Bool.false_eq_true, if_false] at hb
      split at hb
      · simp at hb
      · simp only [Option.some.injEq] at hb
        rw [hm _ fun n hn => h n (by simp [hn])] at hb
        subst hb
        rw [Oid.from, if_neg (by omega)]
  · intro o ho hn
    match items with
    | [] => simp [Oid.from] at ho
    | [a] =>
      rw [Oid.from] at ho
      split at ho
      · rename_i h; simp [encodeOidMacro, h] at hn
      · simp at ho
    | a :: b :: rest =>
      simp only [encodeOidMacro, Bool.false_eq_true, if_false] at hn
      rw [Oid.from] at ho
      split at ho
      · simp at ho
      · split at hn
        · exact ⟨a, b, rest, rfl, by omega, by omega⟩
        · simp at hn

example : encodeOidMacro false [1, 2, 840, 113549] = some [0x2a, 0x86, 0x48, 0x86, 0xf7, 0x0d] ∧
    encodeOidMacro false [2, 40] = none := by decide +kernel

/-- **C59** (partial) The `int!` macro: the octets it produces are the DER content of the value
exactly when the value is not 0 and its leading octet is below 128. Missing: the other values, for
which the claim is false (`int!(0)` has an empty content, `int!(128)` denotes -128). -/
theorem C59_int_macro_partial (v : Nat) (hv : v < 2 ^ 64) :
    (MinimalInt (encodeIntMacro v) ∧ twos (encodeIntMacro v) = v) ↔
      ∃ k, 256 ^ k ≤ v ∧ v < 128 * 256 ^ k := by
  by_cases hv0 : v = 0
  · subst hv0
    refine iff_of_false (fun h => absurd h.1 (by simp [encodeIntMacro, toBE, MinimalInt])) ?_
    rintro ⟨k, h1, _⟩
    have := Nat.pow_pos (n := k) (by decide : 0 < 256)
    omega
  obtain ⟨hz, hlead⟩ := dropWhile_zero (toBE 8 v)
  have h1 := beNat_toBE_of_lt (n := 8) (v := v) (by simpa using hv)
  rw [h1] at hz hlead
  have hval := hz
  replace hlead := hlead hv0
  unfold encodeIntMacro
  generalize (toBE 8 v).dropWhile (· == 0) = bs at hval hlead
  cases bs with
  | nil =>
    obtain ⟨x, xs, hx, _⟩ := hlead
    simp at hx
  | cons b bs =>
    have hb0 : b.toNat ≠ 0 := by
      obtain ⟨x, xs, hx, h⟩ := hlead
      obtain ⟨rfl, rfl⟩ := List.cons.inj hx
      exact h
    have hlt := beNat_lt bs
    have hc := beNat_cons b bs
    have hmul := Nat.mul_le_mul_right (256 ^ bs.length) (show 1 ≤ b.toNat by omega)
    by_cases hb : 128 ≤ b.toNat
    · constructor
      · rintro ⟨_, h2⟩
        simp only [twos, if_pos hb, hval] at h2
        have := Nat.pow_pos (n := (b :: bs).length) (by decide : 0 < 256)
        omega
      · rintro ⟨k, h1, h2⟩
        exfalso
        have hm2 := Nat.mul_le_mul_right (256 ^ bs.length) hb
        have hb256 := Nat.mul_le_mul_right (256 ^ bs.length) (show b.toNat ≤ 255 by have := b.toNat_lt; omega)
        have a1 : bs.length < k := (Nat.pow_lt_pow_iff_right (by omega : 1 < 256)).mp (by omega)
        have a2 : k < bs.length + 1 := (Nat.pow_lt_pow_iff_right (by omega : 1 < 256)).mp
          (by rw [Nat.pow_succ]; omega)
        omega
    · refine iff_of_true ⟨?_, ?_⟩ ⟨bs.length, by omega, ?_⟩
      · cases bs with
        | nil => trivial
        | cons c bs => exact ⟨by omega, by omega⟩
      · simp only [twos, if_neg hb, hval]
      · have hm2 := Nat.mul_le_mul_right (256 ^ bs.length) (show b.toNat ≤ 127 by omega)
        omega

/-- Both cases. -/
example : encodeIntMacro 1234 = [0x04, 0xd2] ∧ (∃ k, 256 ^ k ≤ 1234 ∧ 1234 < 128 * 256 ^ k) ∧
    encodeIntMacro 128 = [0x80] ∧ twos [0x80] = -128 ∧ encodeIntMacro 0 = [] :=
  ⟨by decide +kernel, ⟨1, by decide⟩, by decide +kernel, by decide +kernel, by decide +kernel⟩

end Asn1

import Verif.Model.TimeText
import Verif.Spec.TimeText
import Verif.Props.Time
/-!
# C90: the texts of times for people
-/
namespace Asn1
open Spec Wr

theorem longDate_of {t : DateTime} (h : FourDigits t) : dateTimeText t = longDate t := by
  obtain ⟨h1, h2, h3, h4, h5, h6⟩ := h
  simp only [dateTimeText, padded, pad_four h1, pad_two h2, pad_two h3, pad_two h4, pad_two h5,
    pad_two h6]
  rfl

theorem ascii_z : ascii "Z" = [0x5a] := by decide

theorem compact_long (t : DateTime) (tail : Bytes) :
    compact (longDate t ++ tail) = four t.year ++ monthToMinute t ++ two t.second ++ tail := by
  simp [compact, longDate, four, two, ascii, monthToMinute]

theorem offsetText_zone {z : Bytes} {hh mm : Int} (h : ZoneText z (.offset hh mm)) :
    ∃ z', offsetText hh mm = some z' ∧ ZoneText z' (.offset hh mm) := by
  have e128 : ∀ n : Nat, n < 100 → -(n : Int) ≠ -128 := by omega
  have key : ∀ n : Nat, n < 100 → paddedInt 2 (n : Int) = two n := by
    intro n hn
    rw [paddedInt, if_neg (by omega)]
    exact pad_two (by simpa using hn)
  cases h with
  | @plus h m hh hm =>
    by_cases hz : h = 0
    · subst hz
      refine ⟨_, rfl, ?_⟩
      have : ZoneText _ _ := ZoneText.minus (h := 0) (m := m) (by omega) hm
      show ZoneText ([0x2d] ++ paddedInt 2 (0 : Nat) ++ paddedInt 2 m) _
      rw [key _ (by omega), key _ hm]
      exact this
    · refine ⟨_, if_pos (by omega), ?_⟩
      rw [key _ hh, key _ hm]
      exact .plus hh hm
  | @minus h m hh hm =>
    have e : offsetText (-(h : Int)) m = some ([0x2d] ++ two h ++ two m) := by
      rw [offsetText, if_neg (by omega), negI8, if_neg (e128 h hh), Option.map_some, Int.neg_neg,
        key _ hh, key _ hm]
    exact ⟨_, e, .minus hh hm⟩

/-- Every decoded time has a text: the date, the fraction and a time zone. -/
theorem genDisplay_of {text : Bytes} {t : DateTime} (h : GenText text t) :
    ∃ zone, genDisplay t = some (longDate t ++ fractional t.millisecond ++ zone) ∧
      (ZoneText zone t.tz ∨ zone = [] ∧ t.tz = .undefined) := by
  have hl := longDate_of (fourDigits_of h.year h.range)
  have hz : (∃ z, ZoneText z t.tz) ∨ t.tz = .undefined := by
    rcases h.text with ⟨_, _, _, hz⟩ | ⟨_, z, _, _, hz | hz⟩
    · exact .inl ⟨ascii "Z", by rw [hz]; exact .z⟩
    · exact .inl ⟨z, hz⟩
    · exact .inr hz.2
  unfold genDisplay
  rw [hl]
  cases htz : t.tz with
  | undefined => exact ⟨[], by simp, .inr ⟨rfl, rfl⟩⟩
  | z => exact ⟨_, rfl, .inl .z⟩
  | offset hh mm =>
    rcases hz with ⟨z, hz⟩ | hz
    · rw [htz] at hz
      obtain ⟨z', e, hz'⟩ := offsetText_zone hz
      exact ⟨z', by simp only [e, Option.map_some], .inl hz'⟩
    · rw [htz] at hz; cases hz

theorem digitText_bound {ds : Bytes} {n : Nat} (h : DigitText ds n) : n < 10 ^ ds.length := by
  induction h with
  | nil => decide
  | snoc _ hd ih =>
    rw [List.length_append, List.length_singleton, Nat.pow_succ]
    omega

theorem misread_eq (v : Nat) : misread v = millisBack v := rfl

/-- The fraction of a decoded time, when written, can be read. -/
theorem fraction_of {text : Bytes} {t : DateTime} (h : GenText text t) {zone : Bytes}
    (hz : ZoneText zone t.tz ∨ zone = [] ∧ t.tz = .undefined) :
    FractionText zone (fractional t.millisecond) (t.millisecond.map misread) := by
  cases hms : t.millisecond with
  | none => exact .none
  | some v =>
    have hv : v < 10000 ∧ (zone ≠ [] → v < 1000) := by
      rcases h.text with ⟨_, _, hn, _⟩ | ⟨_, z, _, hf, hz'⟩
      · rw [hn] at hms; cases hms
      · rw [hms] at hf
        generalize hfr : some v = o at hf
        cases hf with
        | none => cases hfr
        | @some sep ds n hs hd hl4 h4 h0 =>
          injection hfr with hfr
          have hb := digitText_bound hd
          have e1 : scaled ds.length n < 10 ^ max 3 ds.length := by
            unfold scaled
            split
            · rename_i hk
              rw [hk] at hb ⊢
              have : (10:Nat) ^ 1 = 10 := rfl
              have : (10:Nat) ^ max 3 1 = 1000 := rfl
              omega
            · split
              · rename_i hk
                rw [hk] at hb ⊢
                have : (10:Nat) ^ 2 = 100 := rfl
                have : (10:Nat) ^ max 3 2 = 1000 := rfl
                omega
              · exact Nat.lt_of_lt_of_le hb (Nat.pow_le_pow_right (by omega) (by omega))
          refine ⟨?_, fun hne => ?_⟩
          · have : (10:Nat) ^ max 3 ds.length ≤ 10 ^ 4 := Nat.pow_le_pow_right (by omega) (by omega)
            have : (10:Nat) ^ 4 = 10000 := rfl
            omega
          · have hl : ds.length ≤ 3 := by
              by_cases he : ds.length = 4
              · have := h4 he
                subst this
                rcases hz' with hz' | hz'
                · exact absurd rfl (zoneText_ne hz')
                · rcases hz with hz | hz
                  · rw [hz'.2] at hz; cases hz
                  · exact absurd hz.1 hne
              · omega
            have : max 3 ds.length = 3 := by omega
            rw [this] at e1
            have : (10:Nat) ^ 3 = 1000 := rfl
            omega
    rw [Option.map_some, misread_eq, ← scaled_decimal v]
    have h4 := (decimal_length_le v 3).mpr hv.1
    have hp : decimal v ≠ [] := by rw [decimal]; split <;> simp
    refine .some (by decide) (digitText_decimal v) (by omega) (fun h => ?_) (fun h => absurd h hp)
    by_cases hne : zone = []
    · exact hne
    · have := (decimal_length_le v 2).mpr (hv.2 hne)
      omega

/-- **C90** Every GeneralizedTime that is decoded has a text for people, of the form
`YYYY-MM-DD hh:mm:ss` followed by the fraction and the time zone (no panic), and this text, without
its separators, is decoded again as the same time but for the milliseconds, which lose their leading
zeros. -/
theorem C90_generalized_readback (bytes : Bytes) (t : DateTime) (h : genFromBytes bytes = .ok t) :
    ∃ tail, genDisplay t = some (longDate t ++ tail) ∧
      genFromBytes (compact (longDate t ++ tail)) =
        .ok { t with millisecond := t.millisecond.map misread } := by
  have ht := genFromBytes_ok.mp h
  obtain ⟨zone, e, hz⟩ := genDisplay_of ht
  refine ⟨fractional t.millisecond ++ zone, by rw [e, List.append_assoc], ?_⟩
  rw [compact_long, genFromBytes_ok]
  refine ⟨ht.year, ⟨ht.range.1, ht.range.2, ht.range.3, ht.range.4, ht.range.5⟩,
    .inr ⟨_, zone, (List.append_assoc ..).symm, fraction_of ht hz, hz⟩⟩

/-- A case: a time with a fraction. -/
example : genFromBytes (ascii "20021213142923.456Z") = .ok ⟨2002, 12, 13, 14, 29, 23, some 456, .z⟩ := by
  decide +kernel

/-- **C90** The text for people of a decoded GeneralizedTime with no milliseconds, or 0, or at least 100,
is decoded as the same time. With 1 to 99 milliseconds it is not (`C90_deviations`). -/
theorem C90_generalized_exact (bytes : Bytes) (t : DateTime)
    (h : genFromBytes bytes = .ok t)
    (hm : ∀ v, t.millisecond = some v → v = 0 ∨ 100 ≤ v) :
    ∃ text, genDisplay t = some text ∧ genFromBytes (compact text) = .ok t := by
  have : t.millisecond.map misread = t.millisecond := by
    cases hms : t.millisecond with
    | none => rfl
    | some v =>
      rw [Option.map_some]
      congr 1
      unfold misread
      rcases hm v hms with rfl | h
      · rfl
      · rw [if_neg (by omega), if_neg (by omega)]
  obtain ⟨tail, e, hb⟩ := C90_generalized_readback bytes t h
  rw [this] at hb
  exact ⟨_, e, hb⟩

/-- A case: an offset to the west and a fraction. -/
example : genFromBytes (ascii "19851106210627.3-0500") =
      .ok ⟨1985, 11, 6, 21, 6, 27, some 300, .offset (-5) 0⟩ ∧
    genDisplay ⟨1985, 11, 6, 21, 6, 27, some 300, .offset (-5) 0⟩ =
      some (ascii "1985-11-06 21:06:27.300-0500") := by decide +kernel

/-- **C90** Every UTCTime that is decoded has a text for people, of the form
`00YY-MM-DD hh:mm:ss` followed by the time zone (no panic), and this text, without the century and
the separators, is decoded again as the same time. -/
theorem C90_utc_readback (bytes : Bytes) (t : DateTime) (h : utcFromBytes bytes = .ok t) :
    ∃ zone, utcDisplay t = some (longDate t ++ zone) ∧
      utcFromBytes ((compact (longDate t ++ zone)).drop 2) = .ok t := by
  have ht := utcFromBytes_ok.mp h
  have hy := ht.year
  have hl := longDate_of (fourDigits_of (by omega) ht.range)
  have hz : ∃ z, ZoneText z t.tz := by
    rcases ht.text with ⟨_, _, hz⟩ | ⟨z, _, hz⟩
    · exact ⟨ascii "Z", by rw [hz]; exact .z⟩
    · exact ⟨z, hz⟩
  have key : ∃ z, utcDisplay t = some (longDate t ++ z) ∧ ZoneText z t.tz := by
    obtain ⟨z, hz⟩ := hz
    unfold utcDisplay
    rw [hl]
    cases htz : t.tz with
    | undefined => rw [htz] at hz; cases hz
    | z => exact ⟨ascii "Z", congrArg some (congrArg _ ascii_z.symm), .z⟩
    | offset hh mm =>
      rw [htz] at hz
      obtain ⟨z', e, hz'⟩ := offsetText_zone hz
      exact ⟨z', by simp only [e, Option.map_some], hz'⟩
  obtain ⟨z, e, hz⟩ := key
  refine ⟨z, e, ?_⟩
  rw [compact_long, utcFromBytes_ok]
  refine ⟨hy, ht.range, ht.noMillis, .inr ⟨z, ?_, hz⟩⟩
  have e1 : t.year % 100 = t.year := by omega
  have e2 : ∀ l : Bytes, (four t.year ++ l).drop 2 = two t.year ++ l := by
    intro l
    rw [four, e1, List.append_assoc]; rfl
  simp only [List.append_assoc]
  exact e2 _

/-- A case. -/
example : utcFromBytes (ascii "021213142923+0300") = .ok ⟨2, 12, 13, 14, 29, 23, none, .offset 3 0⟩ ∧
    utcDisplay ⟨2, 12, 13, 14, 29, 23, none, .offset 3 0⟩ =
      some (ascii "0002-12-13 14:29:23+0300") := by decide +kernel

/-- **C90** Different decoded UTCTimes have different texts for people. -/
theorem C90_utc_injective (b₁ b₂ : Bytes) (t₁ t₂ : DateTime) (h₁ : utcFromBytes b₁ = .ok t₁)
    (h₂ : utcFromBytes b₂ = .ok t₂) (h : utcDisplay t₁ = utcDisplay t₂) : t₁ = t₂ := by
  obtain ⟨z₁, e₁, k₁⟩ := C90_utc_readback b₁ t₁ h₁
  obtain ⟨z₂, e₂, k₂⟩ := C90_utc_readback b₂ t₂ h₂
  have h' := Option.some.inj (e₁.symm.trans (h.trans e₂))
  rw [h', k₂] at k₁
  exact (Except.ok.inj k₁).symm

/-- A case. -/
example : utcFromBytes (ascii "021213142923Z") = .ok ⟨2, 12, 13, 14, 29, 23, none, .z⟩ := by decide +kernel

theorem digitText_unique {ds : Bytes} {m n : Nat} (h₁ : DigitText ds m) (h₂ : DigitText ds n) :
    m = n := (digitText_iff.mp h₁).2.trans (digitText_iff.mp h₂).2.symm

theorem fractional_inj {a b : Option Nat} (h : fractional a = fractional b) : a = b := by
  cases a with
  | none => cases b with
    | none => rfl
    | some w => cases h
  | some v => cases b with
    | none => cases h
    | some w =>
      have h' : decimal v = decimal w := (List.cons.inj h).2
      have := digitText_decimal v
      rw [h'] at this
      rw [digitText_unique this (digitText_decimal w)]

/-- **C90** Different decoded GeneralizedTimes have different texts for people. -/
theorem C90_generalized_injective (b₁ b₂ : Bytes) (t₁ t₂ : DateTime)
    (h₁ : genFromBytes b₁ = .ok t₁) (h₂ : genFromBytes b₂ = .ok t₂)
    (h : genDisplay t₁ = genDisplay t₂) : t₁ = t₂ := by
  have hs : ∃ x, genDisplay t₁ = some x :=
    have ⟨_, e, _⟩ := C90_generalized_readback b₁ t₁ h₁
    ⟨_, e⟩
  obtain ⟨tail₁, e₁, k₁⟩ := C90_generalized_readback b₁ t₁ h₁
  obtain ⟨tail₂, e₂, k₂⟩ := C90_generalized_readback b₂ t₂ h₂
  have h' := Option.some.inj (e₁.symm.trans (h.trans e₂))
  rw [h', k₂] at k₁
  have k := Except.ok.inj k₁
  clear k₁ k₂ h' e₁ e₂ tail₁ tail₂ h₁ h₂
  obtain ⟨y, mo, d, hr, mi, s, ms, tz⟩ := t₁
  obtain ⟨y', mo', d', hr', mi', s', ms', tz'⟩ := t₂
  simp only [DateTime.mk.injEq] at k
  obtain ⟨rfl, rfl, rfl, rfl, rfl, rfl, -, rfl⟩ := k
  have hf : fractional ms = fractional ms' := by
    unfold genDisplay at h hs
    have hd : ∀ m, dateTimeText ⟨y', mo', d', hr', mi', s', m, tz'⟩ =
        dateTimeText ⟨y', mo', d', hr', mi', s', none, tz'⟩ := fun _ => rfl
    simp only [hd ms, hd ms'] at h hs
    generalize dateTimeText ⟨y', mo', d', hr', mi', s', none, tz'⟩ = x at h hs
    cases tz' with
    | undefined => exact List.append_cancel_left (Option.some.inj h)
    | z =>
      exact List.append_cancel_left (List.append_cancel_right (Option.some.inj h))
    | offset hh mm =>
      simp only at h hs
      cases ho : offsetText hh mm with
      | none => rw [ho] at hs; obtain ⟨_, hs⟩ := hs; cases hs
      | some z =>
        rw [ho] at h
        exact List.append_cancel_left (List.append_cancel_right (Option.some.inj h))
  rw [fractional_inj hf]

/-- A case: two texts of one time. -/
example : genFromBytes (ascii "20021213142923.5Z") = genFromBytes (ascii "20021213142923.500Z") ∧
    (genFromBytes (ascii "20021213142923.5Z")).isOk = true := by decide +kernel

/-- **C90** The text of an `ASN1DateTime` is the content that is written for the GeneralizedTime. -/
theorem C90_datetime_text (t : DateTime) :
    ∃ n, Writes (genToBer.writeContent t) (dateTimeDisplay t) n := by
  refine ⟨_, ((writes_pieces (genPieces t)).bind
    (f := fun _ => (pure (15 + (fractional t.millisecond).length) : Wr Nat)) (writes_pure _)).congr
    ?_ rfl⟩
  simp [genPieces, dateTimeDisplay, padded]

/-- **C90** Only an offset of -128 hours has no text (overflow of `-hh`); no decoder returns it. -/
theorem C90_display_panic (t : DateTime) :
    (genDisplay t = none ↔ ∃ mm, t.tz = .offset (-128) mm) ∧
    (utcDisplay t = none ↔ ∃ mm, t.tz = .offset (-128) mm) := by
  have key : ∀ hh mm, offsetText hh mm = none ↔ hh = -128 := by
    intro hh mm
    unfold offsetText negI8
    by_cases h : hh > 0
    · rw [if_pos h]; constructor
      · intro h; cases h
      · intro; omega
    · rw [if_neg h]
      by_cases h2 : hh = -128
      · simp [h2]
      · simp [h2]
  unfold genDisplay utcDisplay
  cases t.tz with
  | undefined => simp
  | z => simp
  | offset hh mm => simp [key]

/-- **C90** Deviation: minutes below zero, which only a value built by hand has, are shown with their
own sign, which takes the place of the first digit. -/
theorem C90_negative_minutes_deviation (h m : Nat) (h0 : 0 < h) (hh : h < 100) (m0 : 0 < m)
    (hm : m < 10) :
    offsetText h (-(m : Int)) = some (ascii "+" ++ two h ++ ascii "-" ++ [digit m]) ∧
    offsetText (-(h : Int)) (-(m : Int)) = some (ascii "-" ++ two h ++ ascii "-" ++ [digit m]) := by
  have key : paddedInt 2 (h : Int) = two h := by
    rw [paddedInt, if_neg (by omega)]
    exact pad_two (by simpa using hh)
  have neg : paddedInt 2 (-(m : Int)) = ascii "-" ++ [digit m] := by
    rw [paddedInt, if_pos (by omega), Int.natAbs_neg, Int.natAbs_natCast]
    have : m = 1 ∨ m = 2 ∨ m = 3 ∨ m = 4 ∨ m = 5 ∨ m = 6 ∨ m = 7 ∨ m = 8 ∨ m = 9 := by omega
    rcases this with h | h | h | h | h | h | h | h | h <;> subst h <;> decide +kernel
  constructor
  · rw [offsetText, if_pos (by omega), key, neg]
    simp [ascii]
  · rw [offsetText, if_neg (by omega), negI8, if_neg (by omega), Option.map_some, Int.neg_neg, key, neg]
    simp [ascii]

example : genDisplay ⟨2024, 1, 2, 3, 4, 5, none, .offset 1 (-5)⟩ =
    some (ascii "2024-01-02 03:04:05+01-5") := by decide +kernel

/-- **C90** Deviations. Five hundredths of a second and half a second have the same text but for a
digit: `.05` is shown as `.50`. An offset of less than an hour to the east is shown to the west. The
text of an `ASN1DateTime` says `Z` whatever the time zone. The year of a UTCTime is shown as a year
of the first century. -/
theorem C90_deviations :
    (∃ t, genFromBytes (ascii "20240102030405.05Z") = .ok t ∧
      genDisplay t = some (ascii "2024-01-02 03:04:05.50Z") ∧
      genFromBytes (compact (ascii "2024-01-02 03:04:05.50Z")) ≠ .ok t) ∧
    (∃ t, genFromBytes (ascii "20240102030405+0030") = .ok t ∧
      genDisplay t = some (ascii "2024-01-02 03:04:05-0030")) ∧
    (∃ t, genFromBytes (ascii "20240102030405+0300") = .ok t ∧
      dateTimeDisplay t = ascii "20240102030405Z") ∧
    (∃ t, utcFromBytes (ascii "991231235959Z") = .ok t ∧
      utcDisplay t = some (ascii "0099-12-31 23:59:59Z")) :=
  ⟨⟨⟨2024, 1, 2, 3, 4, 5, some 50, .z⟩, by decide +kernel⟩,
    ⟨⟨2024, 1, 2, 3, 4, 5, none, .offset 0 30⟩, by decide +kernel⟩,
    ⟨⟨2024, 1, 2, 3, 4, 5, none, .offset 3 0⟩, by decide +kernel⟩,
    ⟨⟨99, 12, 31, 23, 59, 59, none, .z⟩, by decide +kernel⟩⟩

end Asn1

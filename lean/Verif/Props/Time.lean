import Verif.Proofs.Time
/-!
# UTCTime and GeneralizedTime (C40, C41, C42, C43, C68)
-/
namespace Asn1
open Spec Wr

/-! ### Decoding -/

/-- **C40** The exact set of objects that the four UTCTime decoders accept, with the components
returned: primitive objects of tag 23 whose content is a `UtcText` (see Spec/Time). In particular
the year has two digits, and month, day, hour, minute and second are in range. -/
theorem C40_utctime_accepts (i r : Input) (bytes rem : Bytes) (t : DateTime) :
    (utcBer.parseBer i = .ok (r, t) ↔ ∃ a, parseBerAny i = .ok (r, a) ∧ a.header.tag = 23 ∧
      a.header.constructed = false ∧ UtcText a.data.data t) ∧
    (utcDer.parseDer i = .ok (r, t) ↔ ∃ a, parseDerAny i = .ok (r, a) ∧ a.header.tag = 23 ∧
      a.header.constructed = false ∧ UtcText a.data.data t) ∧
    (fromBer utcBer bytes = .ok (rem, t) ↔ ∃ r a, parseBerAny (Input.fromSlice bytes) = .ok (r, a) ∧
      r.data = rem ∧ a.header.tag = 23 ∧ a.header.constructed = false ∧ UtcText a.data.data t) ∧
    (fromDer utcBer utcCheck bytes = .ok (rem, t) ↔
      ∃ r a, parseDerAny (Input.fromSlice bytes) = .ok (r, a) ∧
        r.data = rem ∧ a.header.tag = 23 ∧ a.header.constructed = false ∧ UtcText a.data.data t) := by
  have htag : ∀ n, utcBer.acceptTag n = true ↔ n = 23 := fun n => tagIs_iff
  have htag' : ∀ n, utcDer.acceptTag n = true ↔ n = 23 := fun n => tagIs_iff
  refine ⟨?_, ?_, ?_, ?_⟩
  · rw [parseBer_ok]
    constructor
    · rintro ⟨a, x, h1, h2, h3⟩
      obtain ⟨h4, _, h5⟩ := utcBer_content.mp h3
      exact ⟨a, h1, (htag _).mp h2, h4, h5⟩
    · rintro ⟨a, h1, h2, h3, h4⟩
      exact ⟨a, _, h1, (htag _).mpr h2, utcBer_content.mpr ⟨h3, rfl, h4⟩⟩
  · rw [parseDer_ok]
    constructor
    · rintro ⟨a, x, h1, h2, h3⟩
      obtain ⟨h4, _, h5⟩ := utcDer_content.mp h3
      exact ⟨a, h1, (htag' _).mp h2, h4, h5⟩
    · rintro ⟨a, h1, h2, h3, h4⟩
      exact ⟨a, _, h1, (htag' _).mpr h2, utcDer_content.mpr ⟨h3, rfl, h4⟩⟩
  · rw [fromBer_ok]
    constructor
    · rintro ⟨r, a, x, h1, h2, h3, h4⟩
      obtain ⟨h5, _, h6⟩ := utcBer_content.mp h4
      exact ⟨r, a, h1, h2, (htag _).mp h3, h5, h6⟩
    · rintro ⟨r, a, h1, h2, h3, h4, h5⟩
      exact ⟨r, a, _, h1, h2, (htag _).mpr h3, utcBer_content.mpr ⟨h4, rfl, h5⟩⟩
  · rw [fromDer_ok]
    constructor
    · rintro ⟨r, a, x, h1, h2, _, h3, h4⟩
      obtain ⟨h5, _, h6⟩ := utcBer_content.mp h4
      exact ⟨r, a, h1, h2, (htag _).mp h3, h5, h6⟩
    · rintro ⟨r, a, h1, h2, h3, h4, h5⟩
      exact ⟨r, a, _, h1, h2, rfl, (htag _).mpr h3, utcBer_content.mpr ⟨h4, rfl, h5⟩⟩

/-- Cases: `0212131429Z`, `021213142923Z`, `021213142923+0300`. -/
example :
    UtcText (ascii "021213142923+0300") ⟨2, 12, 13, 14, 29, 23, none, .offset 3 0⟩ ∧
    utcFromBytes (ascii "0212131429Z") = .ok ⟨2, 12, 13, 14, 29, 0, none, .z⟩ ∧
    utcFromBytes (ascii "021213142923Z") = .ok ⟨2, 12, 13, 14, 29, 23, none, .z⟩ ∧
    utcFromBytes (ascii "021313142923Z") =
      .error (.invalidValue 23 "time components with invalid values") ∧
    utcDer.parseDer (Input.fromSlice ([0x17, 0x0d] ++ ascii "021213142923Z" ++ [0xff])) =
      .ok (⟨[0xff], 15, 16⟩, ⟨2, 12, 13, 14, 29, 23, none, .z⟩) := by
  refine ⟨⟨by decide, ⟨by decide, by decide, by decide, by decide, by decide⟩, rfl,
    .inr ⟨ascii "+0300", by decide, .plus (h := 3) (m := 0) (by decide) (by decide)⟩⟩, ?_⟩
  decide +kernel

/-- **C40** Deviations from X.680: month 0, day 0 and the 31st of February are accepted; the sign of
`-0030` is lost; offsets of 99 hours and 99 minutes are accepted; an offset without seconds, which
X.680 allows, is rejected. -/
theorem C40_deviations :
    utcFromBytes (ascii "990000000000Z") = .ok ⟨99, 0, 0, 0, 0, 0, none, .z⟩ ∧
    utcFromBytes (ascii "990231000000Z") = .ok ⟨99, 2, 31, 0, 0, 0, none, .z⟩ ∧
    utcFromBytes (ascii "990101000000-0030") = utcFromBytes (ascii "990101000000+0030") ∧
    utcFromBytes (ascii "990101000000+9999") = .ok ⟨99, 1, 1, 0, 0, 0, none, .offset 99 99⟩ ∧
    utcFromBytes (ascii "9901010000+0100") =
      .error (.invalidValue 23 "expected digit") := by decide +kernel

/-- **C43** The exact set of objects that the four GeneralizedTime decoders accept, with the
components returned: primitive objects of tag 24 whose content is a `GenText` (see Spec/Time); for
the DER decoders, the content must also end with `Z` and have no comma. In particular the
components are in range and the fractions `.d`, `.dd`, `.ddd` are read as `100 d`, `10 dd` and `ddd`
milliseconds (`scaled`). -/
theorem C43_generalizedtime_accepts (i r : Input) (bytes rem : Bytes) (t : DateTime) :
    (genBer.parseBer i = .ok (r, t) ↔ ∃ a, parseBerAny i = .ok (r, a) ∧ a.header.tag = 24 ∧
      a.header.constructed = false ∧ GenText a.data.data t) ∧
    (genDer.parseDer i = .ok (r, t) ↔ ∃ a, parseDerAny i = .ok (r, a) ∧ a.header.tag = 24 ∧
      a.header.constructed = false ∧ GenText a.data.data t ∧
      ascii "Z" <:+ a.data.data ∧ ¬ ascii "," <:+: a.data.data) ∧
    (fromBer genBer bytes = .ok (rem, t) ↔ ∃ r a, parseBerAny (Input.fromSlice bytes) = .ok (r, a) ∧
      r.data = rem ∧ a.header.tag = 24 ∧ a.header.constructed = false ∧ GenText a.data.data t) ∧
    (fromDer genBer genCheck bytes = .ok (rem, t) ↔
      ∃ r a, parseDerAny (Input.fromSlice bytes) = .ok (r, a) ∧
        r.data = rem ∧ a.header.tag = 24 ∧ a.header.constructed = false ∧ GenText a.data.data t ∧
        ascii "Z" <:+ a.data.data ∧ ¬ ascii "," <:+: a.data.data) := by
  have htag : ∀ n, genBer.acceptTag n = true ↔ n = 24 := fun n => tagIs_iff
  have htag' : ∀ n, genDer.acceptTag n = true ↔ n = 24 := fun n => tagIs_iff
  have hlast : ∀ l : Bytes, l.getLast? = some 0x5a ↔ ascii "Z" <:+ l := by
    intro l
    constructor
    · intro h
      obtain ⟨ys, rfl⟩ := List.getLast?_eq_some_iff.mp h
      exact ⟨ys, rfl⟩
    · rintro ⟨ys, rfl⟩
      exact List.getLast?_eq_some_iff.mpr ⟨ys, rfl⟩
  have hmem : ∀ l : Bytes, (0x2c : UInt8) ∉ l ↔ ¬ ascii "," <:+: l := by
    intro l
    refine not_congr ⟨fun h => ?_, fun ⟨s, u, h⟩ => ?_⟩
    · obtain ⟨s, u, rfl⟩ := List.append_of_mem h
      exact ⟨s, u, by simp [ascii]⟩
    · rw [← h]; simp [ascii]
  refine ⟨?_, ?_, ?_, ?_⟩
  · rw [parseBer_ok]
    constructor
    · rintro ⟨a, x, h1, h2, h3⟩
      obtain ⟨h4, _, h5⟩ := genBer_content.mp h3
      exact ⟨a, h1, (htag _).mp h2, h4, h5⟩
    · rintro ⟨a, h1, h2, h3, h4⟩
      exact ⟨a, _, h1, (htag _).mpr h2, genBer_content.mpr ⟨h3, rfl, h4⟩⟩
  · rw [parseDer_ok]
    constructor
    · rintro ⟨a, x, h1, h2, h3⟩
      obtain ⟨h4, _, h5, h6, h7⟩ := genDer_content.mp h3
      exact ⟨a, h1, (htag' _).mp h2, h4, h5, (hlast _).mp h6, (hmem _).mp h7⟩
    · rintro ⟨a, h1, h2, h3, h4, h5, h6⟩
      exact ⟨a, _, h1, (htag' _).mpr h2,
        genDer_content.mpr ⟨h3, rfl, h4, (hlast _).mpr h5, (hmem _).mpr h6⟩⟩
  · rw [fromBer_ok]
    constructor
    · rintro ⟨r, a, x, h1, h2, h3, h4⟩
      obtain ⟨h5, _, h6⟩ := genBer_content.mp h4
      exact ⟨r, a, h1, h2, (htag _).mp h3, h5, h6⟩
    · rintro ⟨r, a, h1, h2, h3, h4, h5⟩
      exact ⟨r, a, _, h1, h2, (htag _).mpr h3, genBer_content.mpr ⟨h4, rfl, h5⟩⟩
  · rw [fromDer_ok]
    constructor
    · rintro ⟨r, a, x, h1, h2, h0, h3, h4⟩
      obtain ⟨h5, _, h6⟩ := genBer_content.mp h4
      obtain ⟨h7, h8⟩ := genCheck_ok.mp h0
      exact ⟨r, a, h1, h2, (htag _).mp h3, h5, h6, (hlast _).mp h7, (hmem _).mp h8⟩
    · rintro ⟨r, a, h1, h2, h3, h4, h5, h6, h7⟩
      exact ⟨r, a, _, h1, h2, genCheck_ok.mpr ⟨(hlast _).mpr h6, (hmem _).mpr h7⟩,
        (htag _).mpr h3, genBer_content.mpr ⟨h4, rfl, h5⟩⟩

/-- Cases: a fraction with one digit and a zone; a local time. -/
example :
    GenText (ascii "19851106210627.3-0500") ⟨1985, 11, 6, 21, 6, 27, some 300, .offset (-5) 0⟩ ∧
    genFromBytes (ascii "19851106210627.3Z") = .ok ⟨1985, 11, 6, 21, 6, 27, some 300, .z⟩ ∧
    genFromBytes (ascii "19851106210627.03Z") = .ok ⟨1985, 11, 6, 21, 6, 27, some 30, .z⟩ ∧
    genFromBytes (ascii "19851106210627,123") =
      .ok ⟨1985, 11, 6, 21, 6, 27, some 123, .undefined⟩ ∧
    genFromBytes (ascii "19851106210627") = .ok ⟨1985, 11, 6, 21, 6, 27, none, .undefined⟩ ∧
    genDer.parseDer (Input.fromSlice ([0x18, 0x11] ++ ascii "19851106210627.3Z")) =
      .ok (⟨[], 19, 19⟩, ⟨1985, 11, 6, 21, 6, 27, some 300, .z⟩) := by
  refine ⟨⟨by decide, ⟨by decide, by decide, by decide, by decide, by decide⟩,
    .inr ⟨ascii ".3", ascii "-0500", by decide, ?_, .inl ?_⟩⟩, ?_⟩
  · exact .some (sep := 0x2e) (ds := ascii "3") (n := 3) (by decide)
      (DigitText.snoc (t := []) (n := 0) (d := 3) .nil (by decide)) (by decide) (by decide) (by decide)
  · exact .minus (h := 5) (m := 0) (by decide) (by decide)
  · decide +kernel

theorem digitText_lt {ds : Bytes} {n : Nat} (h : DigitText ds n) : n < 10 ^ ds.length := by
  induction h with
  | nil => decide
  | snoc _ hd ih => rw [List.length_append, List.length_singleton, Nat.pow_succ]; omega

theorem fraction_lt {zone frac : Bytes} {o : Option Nat} (h : FractionText zone frac o) (ms : Nat)
    (hm : o = some ms) : ms < 10000 ∧ (zone ≠ [] → ms < 1000) := by
  cases h with
  | none => cases hm
  | @some sep ds n hs hd hl h4 h0 =>
    have hn := digitText_lt hd
    have hv := Option.some.inj hm
    unfold scaled at hv
    have h01 : ds.length = 0 ∨ ds.length = 1 ∨ ds.length = 2 ∨ ds.length = 3 ∨ ds.length = 4 := by omega
    rcases h01 with h | h | h | h | h <;> rw [h] at hv hn <;> simp at hv hn
    · omega
    · omega
    · omega
    · omega
    · exact ⟨by omega, fun hz => absurd (h4 h) hz⟩

/-- **C43** (partial) The components of every accepted GeneralizedTime are in range. Missing: the
milliseconds of a time without a zone, which can be up to 9999 (`C43_deviations`). -/
theorem C43_ranges_partial (i r : Input) (t : DateTime)
    (h : genBer.parseBer i = .ok (r, t) ∨ genDer.parseDer i = .ok (r, t)) :
    t.year < 10000 ∧ t.month ≤ 12 ∧ t.day ≤ 31 ∧ t.hour < 24 ∧ t.minute < 60 ∧ t.second < 60 ∧
      (∀ ms, t.millisecond = some ms → ms < 10000) ∧
      (t.tz ≠ .undefined → ∀ ms, t.millisecond = some ms → ms < 1000) := by
  obtain ⟨text, g⟩ : ∃ text, GenText text t := by
    rcases h with h | h
    · obtain ⟨a, _, _, _, g⟩ := (C43_generalizedtime_accepts i r [] [] t).1.mp h
      exact ⟨_, g⟩
    · obtain ⟨a, _, _, _, g, _⟩ := (C43_generalizedtime_accepts i r [] [] t).2.1.mp h
      exact ⟨_, g⟩
  have hms : ∀ ms, t.millisecond = some ms → ms < 10000 ∧ (t.tz ≠ .undefined → ms < 1000) := by
    intro ms hm
    rcases g.text with ⟨_, _, h1, _⟩ | ⟨frac, zone, _, h1, h2⟩
    · rw [hm] at h1; cases h1
    · obtain ⟨h3, h4⟩ := fraction_lt h1 ms hm
      refine ⟨h3, fun hz => h4 ?_⟩
      rcases h2 with h2 | ⟨_, h2⟩
      · exact zoneText_ne h2
      · exact absurd h2 hz
  exact ⟨g.year, g.range.month, g.range.day, by have := g.range.hour; omega, by have := g.range.minute; omega,
    by have := g.range.second; omega, fun ms h => (hms ms h).1, fun hz ms h => (hms ms h).2 hz⟩

/-- A case: a time with a fraction and a zone. -/
example : (genBer.parseBer (Input.fromSlice ([24, 19] ++ ascii "20000101000000.123Z"))).isOk = true := by
  decide +kernel

/-- **C43** Deviations: a dot without digits is accepted in front of a zone, and means 0
milliseconds; four digits without zone are read as up to 9999 milliseconds; four digits in front of
a zone are rejected; the 0th of month 0 is accepted. -/
theorem C43_deviations :
    genFromBytes (ascii "20000101000000.Z") = .ok ⟨2000, 1, 1, 0, 0, 0, some 0, .z⟩ ∧
    genFromBytes (ascii "20000101000000.9999") =
      .ok ⟨2000, 1, 1, 0, 0, 0, some 9999, .undefined⟩ ∧
    genFromBytes (ascii "20000101000000.1234Z") =
      .error (.invalidValue 24 "malformed time string (invalid milliseconds)") ∧
    genFromBytes (ascii "00000000000000Z") = .ok ⟨0, 0, 0, 0, 0, 0, none, .z⟩ := by decide +kernel

/-! ### Round-trips -/

theorem utcText_of {t : DateTime} (hy : t.year < 100) (hr : InRange t) :
    UtcText (utcContentOf t) { t with millisecond := none, tz := .z } :=
  ⟨hy, ⟨hr.1, hr.2, hr.3, hr.4, hr.5⟩, rfl, .inr ⟨ascii "Z", rfl, .z⟩⟩

theorem twoDigits_of {t : DateTime} (hy : t.year < 100) (hr : InRange t) : TwoDigits t := by
  obtain ⟨h1, h2, h3, h4, h5⟩ := hr
  exact ⟨hy, by omega, by omega, by omega, by omega, by omega⟩

theorem fourDigits_of {t : DateTime} (hy : t.year < 10000) (hr : InRange t) : FourDigits t := by
  obtain ⟨h1, h2, h3, h4, h5⟩ := hr
  exact ⟨hy, by omega, by omega, by omega, by omega, by omega⟩

/-- The content written, on 13 bytes. -/
theorem utcContentOf_length (t : DateTime) : (utcContentOf t).length = 13 := rfl

/-- **C41** Encoding a UTCTime with a two-digit year and components in range, then decoding it with
any of the four decoders, returns the same year, month, day, hour, minute and second, in UTC. -/
theorem C41_utctime_roundtrip (t : DateTime) (hy : t.year < 100) (hr : InRange t) :
    let w : DateTime := { t with millisecond := none, tz := .z }
    ParseBerBack utcToBer utcBer t w ∧ ParseDerBack utcToBer utcDer t w ∧
    FromBerBack utcToBer utcBer t w ∧ FromDerBack utcToBer utcBer utcCheck t w := by
  have he := utc_encodes (twoDigits_of hy hr)
  have hs : (utcContentOf t).length < 2 ^ 64 := by rw [utcContentOf_length]; decide
  have hb : Decodes utcBer false (utcContentOf t) { t with millisecond := none, tz := .z } :=
    fun _ _ h1 _ h3 => ⟨_, utcBer_content.mpr ⟨h1, rfl, h3 ▸ utcText_of hy hr⟩⟩
  have hd : Decodes utcDer false (utcContentOf t) { t with millisecond := none, tz := .z } :=
    fun _ _ h1 _ h3 => ⟨_, utcDer_content.mpr ⟨h1, rfl, h3 ▸ utcText_of hy hr⟩⟩
  exact ⟨(back_ber he hs rfl hb).1, back_der he hs rfl hd, (back_ber he hs rfl hb).2,
    back_fromDer he hs rfl hb fun _ _ _ _ => rfl⟩

/-- A case, and what is lost: the time zone is not written. -/
example : InRange ⟨13, 12, 2, 14, 29, 23, none, .z⟩ ∧
    utcToBer.toVec ⟨13, 12, 2, 14, 29, 23, none, .z⟩ = .ok ([0x17, 0x0d] ++ ascii "131202142923Z") :=
  ⟨⟨by decide, by decide, by decide, by decide, by decide⟩, by decide +kernel⟩

/-- **C41** Deviation: the encoder drops the offset and writes `Z`, so that a UTCTime read with an
offset is written as another instant: `+0300` becomes `Z`. -/
theorem C41_zone_deviation :
    ∃ t, utcFromBytes (ascii "021213142923+0300") = .ok t ∧
      utcToBer.toVec t = .ok ([0x17, 0x0d] ++ ascii "021213142923Z") :=
  ⟨_, rfl, by decide +kernel⟩

/-- **C18** The lengths announced and returned for a UTCTime are right exactly when all components,
including the year, have two digits. The announced length is always 13, so a UTCTime made with the
full year is written as a malformed object. -/
theorem C18_utctime_lengths (t : DateTime) : LengthsRight utcToBer t ↔ TwoDigits t := by
  constructor
  · rintro ⟨hd, cs, h1, h2, _⟩
    have h3 : Writes (utcToBer.writeContent t) ((utcPieces t).flatten ++ []) 13 :=
      (writes_pieces (utcPieces t)).bind (f := fun _ => (pure 13 : Wr Nat)) (writes_pure _)
    have h4 : cs = (utcPieces t).flatten := by
      have := h1.symm.trans h3
      injection this with this _
      rw [this, List.append_nil]
    have h5 : cs.length = 13 := by
      have h2 : Length.definite 13 = .definite cs.length := h2
      injection h2 with h2
      exact h2.symm
    rw [h4] at h5
    simp only [utcPieces, List.flatten_append, List.length_append, pad_length] at h5
    have hz : ([[(0x5a : UInt8)]] : List Bytes).flatten.length = 1 := rfl
    rw [hz] at h5
    have key := fun v => decimal_length_le v 1
    exact ⟨(key _).mp (by omega), (key _).mp (by omega), (key _).mp (by omega),
      (key _).mp (by omega), (key _).mp (by omega), (key _).mp (by omega)⟩
  · intro h
    exact (utc_encodes h).lengths (by rw [utcContentOf_length]; decide)

/-- A case: the year 2024 written as UTCTime. The header announces 13 bytes, 15 follow. -/
example : utcToBer.toVec ⟨2024, 1, 2, 3, 4, 5, none, .z⟩ =
    .ok ([0x17, 0x0d] ++ ascii "20240102030405Z") := by decide +kernel

/-- What a number of milliseconds becomes when it is written and read: `.7` is read as 700 and `.42`
as 420. -/
def millisBack (v : Nat) : Nat := if v < 10 then 100 * v else if v < 100 then 10 * v else v

theorem scaled_decimal (v : Nat) : scaled (decimal v).length v = millisBack v := by
  have k1 := decimal_length_le v 0
  have k2 := decimal_length_le v 1
  have hp : 0 < (decimal v).length := by rw [decimal]; split <;> simp
  unfold scaled millisBack
  by_cases h1 : v < 10
  · have := k1.mpr (by omega)
    rw [if_pos (by omega), if_pos h1]; omega
  · have h2 : ¬ (decimal v).length = 1 := fun h => h1 (by have := k1.mp (by omega); omega)
    rw [if_neg h2, if_neg h1]
    by_cases h3 : v < 100
    · have := k2.mpr (by omega)
      rw [if_pos (by omega), if_pos h3]; omega
    · have h4 : ¬ (decimal v).length = 2 := fun h => h3 (by have := k2.mp (by omega); omega)
      rw [if_neg h4, if_neg h3]

theorem genText_of {t : DateTime} (hy : t.year < 10000) (hr : InRange t)
    (hm : ∀ v, t.millisecond = some v → v < 1000) :
    GenText (genContentOf t) { t with millisecond := t.millisecond.map millisBack, tz := .z } := by
  refine ⟨hy, ⟨hr.1, hr.2, hr.3, hr.4, hr.5⟩, .inr ⟨fractional t.millisecond, ascii "Z", rfl, ?_,
    .inl .z⟩⟩
  show FractionText (ascii "Z") _ (t.millisecond.map millisBack)
  cases hms : t.millisecond with
  | none => exact .none
  | some v =>
    have hv := hm v hms
    have hl := (decimal_length_le v 2).mpr hv
    rw [Option.map_some, ← scaled_decimal v]
    exact .some (by decide) (digitText_decimal v) (by omega) (by omega) (fun _ => by decide)

theorem genText_last (t : DateTime) : (genContentOf t).getLast? = some 0x5a := by
  simp [genContentOf, ascii]

theorem digit_ne_comma {d : Nat} (h : d < 10) : (0x2c : UInt8) ≠ digit d := by
  intro e
  have := congrArg UInt8.toNat e
  rw [digit_val h] at this
  have h2 : (0x2c : UInt8).toNat = 44 := rfl
  omega

theorem comma_two {n : Nat} (h : n < 100) : (0x2c : UInt8) ∉ two n := by
  simp only [two, List.mem_cons, List.not_mem_nil, or_false, not_or]
  exact ⟨digit_ne_comma (by omega), digit_ne_comma (by omega)⟩

theorem comma_digits {ds : Bytes} {n : Nat} (h : DigitText ds n) : (0x2c : UInt8) ∉ ds := by
  induction h with
  | nil => simp
  | snoc _ hd ih =>
    simp only [List.mem_append, List.mem_singleton, not_or]
    exact ⟨ih, digit_ne_comma hd⟩

theorem genText_comma {t : DateTime} (hf : FourDigits t) : (0x2c : UInt8) ∉ genContentOf t := by
  obtain ⟨h1, h2, h3, h4, h5, h6⟩ := hf
  have hfr : (0x2c : UInt8) ∉ fractional t.millisecond := by
    cases t.millisecond with
    | none => simp [fractional]
    | some v =>
      simp only [fractional, List.mem_cons, not_or]
      exact ⟨by decide, comma_digits (digitText_decimal v)⟩
  simp only [genContentOf, four, monthToMinute, List.mem_append, not_or]
  exact ⟨⟨⟨⟨⟨comma_two (by omega), comma_two (by omega)⟩, ⟨⟨comma_two h2, comma_two h3⟩,
    comma_two h4⟩, comma_two h5⟩, comma_two h6⟩, hfr⟩, by decide⟩

theorem genContent_small {t : DateTime} (hm : ∀ v, t.millisecond = some v → v < 2 ^ 16) :
    (genContentOf t).length < 2 ^ 64 := by
  rw [genContentOf_length, genLen]
  cases hms : t.millisecond with
  | none => decide
  | some v =>
    have := (decimal_length_le v 4).mpr (by have := hm v hms; omega)
    simp only
    omega

/-- **C42** Encoding a GeneralizedTime with components in range and fewer than 1000 milliseconds,
then decoding it with any of the four decoders, returns the same components, in UTC, except for the
milliseconds, which are written without leading zeros: `7` is read back as 700, `42` as 420
(`millisBack`). -/
theorem C42_generalizedtime_roundtrip (t : DateTime) (hy : t.year < 10000) (hr : InRange t)
    (hm : ∀ v, t.millisecond = some v → v < 1000) :
    let w : DateTime := { t with millisecond := t.millisecond.map millisBack, tz := .z }
    ParseBerBack genToBer genBer t w ∧ ParseDerBack genToBer genDer t w ∧
    FromBerBack genToBer genBer t w ∧ FromDerBack genToBer genBer genCheck t w := by
  have hf := fourDigits_of hy hr
  have he := gen_encodes hf
  have hs := genContent_small fun v h => by have := hm v h; omega
  have ht := genText_of hy hr hm
  have hb : Decodes genBer false (genContentOf t)
      { t with millisecond := t.millisecond.map millisBack, tz := .z } :=
    fun _ _ h1 _ h3 => ⟨_, genBer_content.mpr ⟨h1, rfl, h3 ▸ ht⟩⟩
  have hd : Decodes genDer false (genContentOf t)
      { t with millisecond := t.millisecond.map millisBack, tz := .z } :=
    fun _ _ h1 _ h3 => ⟨_, genDer_content.mpr ⟨h1, rfl, h3 ▸ ht, h3 ▸ genText_last t,
      h3 ▸ genText_comma hf⟩⟩
  exact ⟨(back_ber he hs rfl hb).1, back_der he hs rfl hd, (back_ber he hs rfl hb).2,
    back_fromDer he hs rfl hb fun a _ _ h3 =>
      genCheck_ok.mpr ⟨h3 ▸ genText_last t, h3 ▸ genText_comma hf⟩⟩

/-- A case: 2002-12-13 14:29:23.456. -/
example : InRange ⟨2002, 12, 13, 14, 29, 23, some 456, .z⟩ ∧
    genToBer.toVec ⟨2002, 12, 13, 14, 29, 23, some 456, .z⟩ = .ok ([0x18, 19] ++ ascii "20021213142923.456Z") :=
  ⟨⟨by decide, by decide, by decide, by decide, by decide⟩, by decide +kernel⟩

theorem millis_self {t : DateTime} (h : GenValue t) :
    ({ t with millisecond := t.millisecond.map millisBack, tz := .z } : DateTime) = t ∧
      ∀ v, t.millisecond = some v → v < 1000 := by
  obtain ⟨hy, hr, hm, hz⟩ := h
  have h1 : t.millisecond.map millisBack = t.millisecond := by
    cases hms : t.millisecond with
    | none => rfl
    | some v =>
      rw [hms] at hm
      rw [Option.map_some]
      congr 1
      unfold millisBack
      rcases hm with rfl | h
      · rfl
      · rw [if_neg (by omega), if_neg (by omega)]
  refine ⟨by rw [h1, ← hz], fun v hv => ?_⟩
  rw [hv] at hm
  rcases hm with rfl | h
  · decide
  · omega

theorem genText_self {t : DateTime} (h : GenValue t) : GenText (genContentOf t) t := by
  have := genText_of h.1 h.2.1 (millis_self h).2
  rwa [(millis_self h).1] at this

/-- **C42** (partial) A GeneralizedTime in UTC with components in range, and either no milliseconds,
0 or 100 to 999, is decoded as itself by the four decoders. Missing: 1 to 99 milliseconds, which are
changed (`C42_generalizedtime_roundtrip`, `C42_millis_deviation`). -/
theorem C42_generalizedtime_exact_partial (t : DateTime) (h : GenValue t) :
    ParseBerBack genToBer genBer t t ∧ ParseDerBack genToBer genDer t t ∧
    FromBerBack genToBer genBer t t ∧ FromDerBack genToBer genBer genCheck t t := by
  have := C42_generalizedtime_roundtrip t h.1 h.2.1 (millis_self h).2
  rw [(millis_self h).1] at this
  exact this

/-- A case. -/
example : GenValue ⟨1999, 12, 31, 23, 59, 59, some 123, .z⟩ ∧
    genToBer.toVec ⟨1999, 12, 31, 23, 59, 59, some 123, .z⟩ =
      .ok ([0x18, 0x13] ++ ascii "19991231235959.123Z") := by
  refine ⟨⟨by decide, ⟨by decide, by decide, by decide, by decide, by decide⟩, .inr ⟨by decide,
    by decide⟩, rfl⟩, by decide +kernel⟩

theorem genFromBytes_millis {t : DateTime} {v : Nat} (hy : t.year < 10000) (hr : InRange t)
    (hms : t.millisecond = some v) (hv : 1000 ≤ v) (w : DateTime) : ¬ GenText (genContentOf t) w := by
  intro h
  have hs := hr.second
  have h1 := hr.month; have h2 := hr.day; have h3 := hr.hour; have h4 := hr.minute
  have h := genFromBytes_ok.mpr h
  have e : genContentOf t = digit (t.year / 100 / 10) :: digit (t.year / 100 % 10) ::
      digit (t.year % 100 / 10) :: digit (t.year % 100 % 10) ::
      digit (t.month / 10) :: digit (t.month % 10) :: digit (t.day / 10) :: digit (t.day % 10) ::
      digit (t.hour / 10) :: digit (t.hour % 10) :: digit (t.minute / 10) :: digit (t.minute % 10) ::
      (two t.second ++ (0x2e :: (decimal v ++ [0x5a]))) := by
    simp [genContentOf, hms, four, two, monthToMinute, fractional, ascii]
  rw [e] at h
  simp only [genFromBytes] at h
  rw [decodeDecimal_two _ (by omega), decodeDecimal_two _ (by omega),
    decodeDecimal_two _ (by omega), decodeDecimal_two _ (by omega),
    decodeDecimal_two _ (by omega), decodeDecimal_two _ (by omega)] at h
  simp only [bind_ok] at h
  unfold genTime at h
  rw [if_neg (by simp [two]), decodeSeconds_ok.mpr (.inr ⟨by omega, rfl⟩)] at h
  simp only [bind_ok] at h
  split at h
  · exact absurd h (by simp)
  · unfold genRest at h
    rw [if_neg (by simp)] at h
    obtain ⟨⟨ms, rem⟩, g, _⟩ := bind_eq_ok.mp h
    simp only [decodeFraction] at g
    rw [if_pos (by decide)] at g
    obtain ⟨⟨f, k, r⟩, g, _⟩ := bind_eq_ok.mp g
    obtain ⟨ds, g1, g2, _, g3, g4⟩ := (fracLoop_ok 5 0 _ _ (by omega) (by omega)).mp g
    have hl : ¬ (decimal v).length ≤ 3 := fun h => by
      have := (decimal_length_le v 2).mp h; omega
    have hdig := (digitText_iff.mp (digitText_decimal v)).1
    rcases g4 with ⟨rfl, _⟩ | ⟨c, r', rfl, g5, g6⟩
    · rw [List.append_nil] at g1
      rw [← g1] at g2
      simp only [List.all_append, Bool.and_eq_true] at g2
      exact absurd g2.2 (by decide)
    · have hc : c ∈ decimal v := by
        have := congrArg (fun l => l[ds.length]?) g1
        simp only [List.getElem?_append_right (Nat.le_refl _), Nat.sub_self,
          List.getElem?_cons_zero] at this
        rw [List.getElem?_append_left (by omega)] at this
        exact List.mem_of_getElem? this
      have := List.all_eq_true.mp hdig c hc
      rcases g5 with rfl | rfl | rfl <;> exact absurd this (by decide)

/-- **C42** Deviation: a GeneralizedTime with 1 to 99 milliseconds is read back with another number
of milliseconds, and one with 1000 or more is written as an object that no decoder accepts. -/
theorem C42_millis_deviation (t : DateTime) (v : Nat) (hy : t.year < 10000) (hr : InRange t)
    (hv : t.millisecond = some v) (h16 : v < 2 ^ 16) :
    (1 ≤ v ∧ v < 100 → ∃ w, ParseDerBack genToBer genDer t w ∧ w.millisecond ≠ t.millisecond) ∧
    (1000 ≤ v → ∃ bs, genToBer.toVec t = .ok bs ∧ ∀ (rest : Bytes) (i : Input) (r : Input)
      (w : DateTime), i.data = bs ++ rest →
        genBer.parseBer i ≠ .ok (r, w) ∧ genDer.parseDer i ≠ .ok (r, w)) := by
  constructor
  · intro h
    refine ⟨_, (C42_generalizedtime_roundtrip t hy hr fun u hu => ?_).2.1, ?_⟩
    · rw [hv] at hu; injection hu with hu; omega
    · simp only [hv, Option.map_some]
      intro e
      injection e with e
      unfold millisBack at e
      split at e
      · omega
      · rw [if_pos h.2] at e; omega
  · intro h
    have he := gen_encodes (fourDigits_of hy hr)
    have hs := genContent_small (t := t) fun u hu => by
      rw [hv] at hu; injection hu with hu; omega
    refine ⟨_, he.toVec hs, fun rest i r w hi => ?_⟩
    have hb := parseBerAny_full i _ _ _ _ rest he.tag hs hi
    have hd := parseDerAny_full i _ _ _ _ rest he.tag hs hi
    have hc := full_content i _ _ _ _ rest hi
    have hne := genFromBytes_millis hy hr hv h w
    constructor
    · intro hp
      obtain ⟨a, h1, _, _, h4⟩ := (C43_generalizedtime_accepts i r [] [] w).1.mp hp
      rw [hb] at h1
      injection h1 with h1
      injection h1 with _ h1
      subst h1
      simp only [first_data] at h4
      rw [hc, List.take_left' rfl] at h4
      exact hne h4
    · intro hp
      obtain ⟨a, h1, _, _, h4, _⟩ := (C43_generalizedtime_accepts i r [] [] w).2.1.mp hp
      rw [hd] at h1
      injection h1 with h1
      injection h1 with _ h1
      subst h1
      simp only [first_data] at h4
      rw [hc, List.take_left' rfl] at h4
      exact hne h4

/-- Cases. -/
example : genToBer.toVec ⟨2000, 1, 1, 0, 0, 0, some 7, .z⟩ =
      .ok ([0x18, 0x11] ++ ascii "20000101000000.7Z") ∧
    genFromBytes (ascii "20000101000000.7Z") = .ok ⟨2000, 1, 1, 0, 0, 0, some 700, .z⟩ ∧
    (genFromBytes (ascii "20000101000000.1000Z")).isOk = false := by decide +kernel

/-- **C18** The lengths announced and returned for a GeneralizedTime (with milliseconds that fit
`u16`) are right exactly when the year has at most four digits and the other components two. -/
theorem C18_generalizedtime_lengths (t : DateTime) (hm : ∀ v, t.millisecond = some v → v < 2 ^ 16) :
    LengthsRight genToBer t ↔ FourDigits t := by
  constructor
  · rintro ⟨hd, cs, h1, h2, _⟩
    have h3 : Writes (genToBer.writeContent t) ((genPieces t).flatten ++ [])
        (15 + (fractional t.millisecond).length) :=
      (writes_pieces (genPieces t)).bind
        (f := fun _ => (pure (15 + (fractional t.millisecond).length) : Wr Nat)) (writes_pure _)
    have h4 : cs = (genPieces t).flatten := by
      have := h1.symm.trans h3
      injection this with this _
      rw [this, List.append_nil]
    have h5 : cs.length = genLen t := by
      have h2 : Length.definite (genLen t) = .definite cs.length := h2
      injection h2 with h2
      exact h2.symm
    rw [h4, genLen_eq] at h5
    simp only [genPieces, List.flatten_append, List.length_append, pad_length] at h5
    have hz : ([fractional t.millisecond, [(0x5a : UInt8)]] : List Bytes).flatten.length =
        (fractional t.millisecond).length + 1 := by simp
    rw [hz] at h5
    have key := fun v => decimal_length_le v 1
    have key4 := fun v => decimal_length_le v 3
    exact ⟨(key4 _).mp (by omega), (key _).mp (by omega), (key _).mp (by omega),
      (key _).mp (by omega), (key _).mp (by omega), (key _).mp (by omega)⟩
  · intro h
    exact (gen_encodes h).lengths (genContent_small hm)

example : LengthsRight genToBer ⟨1999, 12, 31, 23, 59, 59, some 123, .z⟩ :=
  (C18_generalizedtime_lengths _ (fun v h => by injection h with h; omega)).mpr (by
    refine ⟨?_, ?_, ?_, ?_, ?_, ?_⟩ <;> decide)

/-! ### DER canonicity -/

/-- **C68** (partial) The DER decoders of times accept one content per value among those that follow
the DER rules for whole seconds: if the content of an accepted UTCTime has 13 bytes, or that of an
accepted GeneralizedTime has 15 bytes and ends with `Z`, encoding the value writes the same content.
Missing: fractions, and the rules that are not checked (`C68_deviations`). -/
theorem C68_canonical_partial (text : Bytes) (t : DateTime) :
    (UtcText text t → text.length = 13 → (utcToBer.writeContent t).exec = (text, .ok 13)) ∧
    (GenText text t → text.length = 15 → ascii "Z" <:+ text →
      (genToBer.writeContent t).exec = (text, .ok 15)) := by
  constructor
  · intro h hl
    have := (utc_encodes (twoDigits_of h.year h.range)).content
    rcases h.text with ⟨e, _, _⟩ | ⟨zone, e, hz⟩
    · rw [e] at hl; simp [two, monthToMinute, ascii] at hl
    · have hz1 : zone.length = 1 := by
        rw [e] at hl
        simp [two, monthToMinute] at hl
        omega
      have := (zoneText_short hz (by omega)).1
      subst this
      rw [e]
      exact (utc_encodes (twoDigits_of h.year h.range)).content
  · intro h hl hz
    have hen := (gen_encodes (fourDigits_of h.year h.range)).content
    rcases h.text with ⟨e, _, _⟩ | ⟨frac, zone, e, hf, hz'⟩
    · rw [e] at hl; simp [four, two, monthToMinute, ascii] at hl
    · have hz1 : frac.length + zone.length = 1 := by
        rw [e] at hl
        simp [four, two, monthToMinute] at hl
        omega
      have hfe : frac = [] ∧ t.millisecond = none := by
        generalize t.millisecond = m at hf
        cases hf with
        | none => exact ⟨rfl, rfl⟩
        | @some sep ds n hs hd hl4 h4 h0 =>
          exfalso
          have h5 : ds = [] := List.length_eq_zero_iff.mp (by simp at hz1; omega)
          have := List.length_pos_iff.mpr (h0 h5)
          simp at hz1; omega
      obtain ⟨rfl, hms⟩ := hfe
      have hzz : zone = ascii "Z" := by
        rcases hz' with hz' | ⟨rfl, _⟩
        · exact (zoneText_short hz' (by simp at hz1; omega)).1
        · simp at hz1
      subst hzz
      have : genContentOf t = text := by rw [e, genContentOf, hms]; rfl
      rw [this] at hen
      rw [← hl]
      exact hen

/-- Cases. -/
example : UtcText (ascii "021213142923Z") ⟨2, 12, 13, 14, 29, 23, none, .z⟩ ∧
    GenText (ascii "20021213142923Z") ⟨2002, 12, 13, 14, 29, 23, none, .z⟩ :=
  ⟨utcFromBytes_ok.mp (by decide +kernel), genFromBytes_ok.mp (by decide +kernel)⟩

/-- **C68** Deviations: DER accepts a UTCTime without seconds and one with an offset, both rejected
by X.690 11.8, and a GeneralizedTime without seconds, with trailing zeros, or with a dot and no digit
(X.690 11.7): so several contents are accepted for one value. -/
theorem C68_deviations :
    fromDer utcBer utcCheck ([0x17, 0x0b] ++ ascii "9912312359Z") =
      .ok ([], ⟨99, 12, 31, 23, 59, 0, none, .z⟩) ∧
    fromDer utcBer utcCheck ([0x17, 0x0d] ++ ascii "991231235900Z") =
      .ok ([], ⟨99, 12, 31, 23, 59, 0, none, .z⟩) ∧
    (fromDer utcBer utcCheck ([0x17, 0x11] ++ ascii "991231235900+0100")).isOk = true ∧
    fromDer genBer genCheck ([0x18, 0x0d] ++ ascii "199912312359Z") =
      .ok ([], ⟨1999, 12, 31, 23, 59, 0, none, .z⟩) ∧
    fromDer genBer genCheck ([0x18, 0x0f] ++ ascii "19991231235900Z") =
      .ok ([], ⟨1999, 12, 31, 23, 59, 0, none, .z⟩) ∧
    fromDer genBer genCheck ([0x18, 0x11] ++ ascii "19991231235900.3Z") =
      fromDer genBer genCheck ([0x18, 0x13] ++ ascii "19991231235900.300Z") ∧
    fromDer genBer genCheck ([0x18, 0x10] ++ ascii "19991231235900.Z") =
      .ok ([], ⟨1999, 12, 31, 23, 59, 0, some 0, .z⟩) := by decide +kernel

/-! ### The properties common to all types -/

/-- **C11** What DER accepts as a time, BER accepts with the same value and remainder. -/
theorem C11_der_subset_ber_time (i r : Input) (t : DateTime) :
    (utcDer.parseDer i = .ok (r, t) → utcBer.parseBer i = .ok (r, t)) ∧
    (genDer.parseDer i = .ok (r, t) → genBer.parseBer i = .ok (r, t)) :=
  ⟨der_subset_ber (pb := utcBer) (pd := utcDer) (fun _ h => h) fun _ _ r _ _ h => ⟨r, utcBer_content.mpr (utcDer_content.mp h)⟩,
   der_subset_ber (pb := genBer) (pd := genDer) (fun _ h => h) fun _ _ r _ _ h =>
    have ⟨h1, h2, h3, _⟩ := genDer_content.mp h
    ⟨r, genBer_content.mpr ⟨h1, h2, h3⟩⟩⟩

/-- **C38** `parse_der` and `from_der` agree on times. -/
theorem C38_time_apis_agree (bs rem : Bytes) (t : DateTime) :
    (fromDer utcBer utcCheck bs = .ok (rem, t) ↔
      ∃ r, utcDer.parseDer (Input.fromSlice bs) = .ok (r, t) ∧ r.data = rem) ∧
    (fromDer genBer genCheck bs = .ok (rem, t) ↔
      ∃ r, genDer.parseDer (Input.fromSlice bs) = .ok (r, t) ∧ r.data = rem) := by
  constructor
  · refine der_apis_agree (pb := utcBer) (pd := utcDer) (fun _ => Iff.rfl) (fun a v _ => ⟨?_, ?_⟩) _ _ _
    · rintro ⟨_, x, hx⟩
      exact ⟨x, utcDer_content.mpr (utcBer_content.mp hx)⟩
    · rintro ⟨x, hx⟩
      exact ⟨rfl, x, utcBer_content.mpr (utcDer_content.mp hx)⟩
  · refine der_apis_agree (pb := genBer) (pd := genDer) (fun _ => Iff.rfl) (fun a v _ => ⟨?_, ?_⟩) _ _ _
    · rintro ⟨hc, x, hx⟩
      obtain ⟨h1, h2, h3⟩ := genBer_content.mp hx
      exact ⟨x, genDer_content.mpr ⟨h1, h2, h3, genCheck_ok.mp hc⟩⟩
    · rintro ⟨x, hx⟩
      obtain ⟨h1, h2, h3, h4⟩ := genDer_content.mp hx
      exact ⟨genCheck_ok.mpr h4, x, genBer_content.mpr ⟨h1, h2, h3⟩⟩

/-- **C50** Encoding a time to a failing writer. -/
theorem C50_time_failing_writer (t : DateTime) : FaultTolerant utcToBer t ∧ FaultTolerant genToBer t :=
  ⟨faultTolerant ((strict_pieces _).bind fun _ => strict_pure _),
   faultTolerant ((strict_pieces _).bind fun _ => strict_pure _)⟩

/-- **C52** No encoding of a time is a prefix of another. -/
theorem C52_time_prefix_free : PrefixFree utcToBer UtcValue ∧ PrefixFree genToBer GenValue := by
  refine ⟨prefixFree_der (p := utcDer) fun t h => ?_,
    prefixFree_der (p := genDer) fun t h => (C42_generalizedtime_exact_partial t h).2.1⟩
  obtain ⟨hy, hr, hm, hz⟩ := h
  have := (C41_utctime_roundtrip t hy hr).2.1
  rw [← hm, ← hz] at this
  exact this

theorem safe_timeOf (rem data : Input) (r : Except Error DateTime) : NoPanic (timeOf rem data r) := by
  cases r <;> simp [timeOf, nomErr, NoPanic]

theorem safe_utc : utcBer.Safe ∧ utcDer.Safe := by
  constructor
  · intro h i
    show NoPanic (utcBerContent h i)
    unfold utcBerContent
    rw [Input.len, takeSplit_eq, if_pos (Nat.le_refl _)]
    repeat' split
    all_goals first | exact safe_timeOf _ _ _ | simp [nomErr, NoPanic]
  · intro h i
    show NoPanic (utcDerContent h i)
    unfold utcDerContent
    rw [Input.len, takeSplit_eq, if_pos (Nat.le_refl _)]
    refine NoPanic.bind (safe_assertPrimitive h i) fun _ _ => ?_
    repeat' split
    all_goals first | exact safe_timeOf _ _ _ | simp [nomErr, NoPanic]

theorem safe_gen : genBer.Safe ∧ genDer.Safe := by
  constructor
  · intro h i
    show NoPanic (genBerContent h i)
    unfold genBerContent
    rw [Input.len, takeSplit_eq, if_pos (Nat.le_refl _)]
    repeat' split
    all_goals first | exact safe_timeOf _ _ _ | simp [nomErr, NoPanic]
  · intro h i
    show NoPanic (genDerContent h i)
    unfold genDerContent
    rw [Input.len, takeSplit_eq, if_pos (Nat.le_refl _)]
    refine NoPanic.bind (safe_assertPrimitive h i) fun _ _ => ?_
    simp only [bind_ok]
    repeat' split
    all_goals first | exact safe_timeOf _ _ _ | simp [nomErr, NoPanic]

/-- **C61** The four decoders of times neither panic nor loop, on any input. -/
theorem C61_time_no_panic : Total utcBer utcDer utcCheck ∧ Total genBer genDer genCheck := by
  refine ⟨total_of safe_utc.1 safe_utc.2 fun a => by simp [utcCheck, NoPanicS],
    total_of safe_gen.1 safe_gen.2 fun a => ?_⟩
  unfold genCheck NoPanicS
  repeat' split
  all_goals simp

end Asn1

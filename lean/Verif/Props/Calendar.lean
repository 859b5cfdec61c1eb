import Verif.Props.Time
import Verif.Spec.Calendar
/-!
# Comparison of times and conversion to calendar dates (C69, C70)
-/
namespace Asn1
open Spec

/-! ### The calendar -/

theorem isLeap_nat (y : Nat) : isLeap (y : Int) = true ↔ LeapYear y := by
  unfold isLeap LeapYear
  simp only [Bool.and_eq_true, Bool.or_eq_true, beq_iff_eq, bne_iff_ne]
  omega

theorem daysIn_nat (y : Nat) {m : Nat} (h : 1 ≤ m ∧ m ≤ 12) : daysIn (y : Int) m = monthDays y m := by
  have hl := isLeap_nat y
  have : m = 1 ∨ m = 2 ∨ m = 3 ∨ m = 4 ∨ m = 5 ∨ m = 6 ∨ m = 7 ∨ m = 8 ∨ m = 9 ∨ m = 10 ∨ m = 11 ∨
    m = 12 := by omega
  rcases this with rfl | rfl | rfl | rfl | rfl | rfl | rfl | rfl | rfl | rfl | rfl | rfl <;>
    first
    | rfl
    | (simp only [daysIn, monthDays, if_true]
       by_cases h : LeapYear y
       · rw [if_pos (hl.mpr h), if_pos h]
       · rw [if_neg (fun g => h (hl.mp g)), if_neg h])

theorem dateExists_nat {y m d : Nat} (hy : y ≤ 9999) : dateExists (y : Int) m d = true ↔ IsDate y m d := by
  unfold dateExists IsDate
  rw [decide_eq_true_iff]
  constructor
  · rintro ⟨_, _, h1, h2, h3, h4⟩
    exact ⟨h1, h2, h3, daysIn_nat y ⟨h1, h2⟩ ▸ h4⟩
  · rintro ⟨h1, h2, h3, h4⟩
    exact ⟨by omega, by omega, h1, h2, h3, (daysIn_nat y ⟨h1, h2⟩).symm ▸ h4⟩

theorem daysOfMonths_le (y : Nat) {m m' : Nat} (h : m ≤ m') : daysOfMonths y m ≤ daysOfMonths y m' := by
  induction h with
  | refl => exact Nat.le_refl _
  | step _ ih => rw [daysOfMonths]; omega

theorem daysOfYears_le {y y' : Nat} (h : y ≤ y') : daysOfYears y ≤ daysOfYears y' := by
  induction h with
  | refl => exact Nat.le_refl _
  | step _ ih => rw [daysOfYears]; omega

theorem monthDays_pos (y m : Nat) : 28 ≤ monthDays y m := by
  unfold monthDays; repeat' split
  all_goals omega

theorem daysOfMonths_year (y : Nat) : daysOfMonths y 12 = if LeapYear y then 366 else 365 := by
  simp only [daysOfMonths, monthDays]
  split <;> rfl

theorem daysOfYears_eq (y : Nat) :
    (daysOfYears y : Int) = 365 * y + ((y : Int) - 1) / 4 - ((y : Int) - 1) / 100 + ((y : Int) - 1) / 400 + 1 := by
  induction y with
  | zero => rfl
  | succ y ih =>
    rw [daysOfYears, daysOfMonths_year]
    split
    · rename_i h; unfold LeapYear at h; omega
    · rename_i h; unfold LeapYear at h; omega

theorem monthStart_eq (y : Nat) {m : Nat} (h : 1 ≤ m ∧ m ≤ 12) :
    monthStart (y : Int) m = daysOfMonths y (m - 1) := by
  have hl := isLeap_nat y
  have : m = 1 ∨ m = 2 ∨ m = 3 ∨ m = 4 ∨ m = 5 ∨ m = 6 ∨ m = 7 ∨ m = 8 ∨ m = 9 ∨ m = 10 ∨ m = 11 ∨
    m = 12 := by omega
  by_cases hy : LeapYear y
  · rcases this with rfl | rfl | rfl | rfl | rfl | rfl | rfl | rfl | rfl | rfl | rfl | rfl <;>
      simp [monthStart, daysOfMonths, monthDays, hy, hl.mpr hy]
  · have hn : isLeap (y : Int) = false := by
      cases hb : isLeap (y : Int) with
      | false => rfl
      | true => exact absurd (hl.mp hb) hy
    rcases this with rfl | rfl | rfl | rfl | rfl | rfl | rfl | rfl | rfl | rfl | rfl | rfl <;>
      simp [monthStart, daysOfMonths, monthDays, hy, hn]

theorem dayNumber_first (y : Nat) : dayNumber y 1 1 = daysOfYears y := rfl

theorem dayNumber_1970 : dayNumber 1970 1 1 = 719528 := by
  have := daysOfYears_eq 1970
  rw [dayNumber_first]
  omega

theorem julianDay_eq {y m d : Nat} (h : IsDate y m d) :
    julianDay (y : Int) m d = dayNumber y m d + 1721060 := by
  obtain ⟨h1, h2, h3, _⟩ := h
  have := daysOfYears_eq y
  unfold julianDay dayNumber
  rw [monthStart_eq y ⟨h1, h2⟩]
  omega

theorem unixTimestamp_eq {y m d hh mm ss ms : Nat} {off : Int} (h : IsDate y m d) :
    (OffsetDateTime.mk y m d hh mm ss ms off).unixTimestamp =
      unixSeconds y m d hh mm ss - 60 * off := by
  unfold OffsetDateTime.unixTimestamp unixSeconds
  simp only
  rw [julianDay_eq h, dayNumber_1970]
  omega

/-- The day number grows with the date. -/
theorem dayNumber_lt {y m d y' m' d' : Nat} (h : IsDate y m d) (h' : IsDate y' m' d')
    (hlt : y < y' ∨ y = y' ∧ (m < m' ∨ m = m' ∧ d < d')) :
    dayNumber y m d < dayNumber y' m' d' := by
  obtain ⟨h1, h2, h3, h4⟩ := h
  obtain ⟨g1, g2, g3, g4⟩ := h'
  have step : ∀ y m, 1 ≤ m → daysOfMonths y m = daysOfMonths y (m - 1) + monthDays y m := by
    intro y m hm
    obtain ⟨k, rfl⟩ : ∃ k, m = k + 1 := ⟨m - 1, by omega⟩
    rfl
  have hs := step y m h1
  unfold dayNumber
  rcases hlt with hlt | ⟨rfl, hlt | ⟨rfl, hlt⟩⟩
  · have e1 := daysOfYears_le (show y + 1 ≤ y' by omega)
    have e2 : daysOfYears (y + 1) = daysOfYears y + daysOfMonths y 12 := rfl
    have e3 := daysOfMonths_le y h2
    omega
  · have e1 := daysOfMonths_le y (show m ≤ m' - 1 by omega)
    omega
  · omega

/-! ### Comparison (C69) -/

theorem cmpOption_eq {a b : Option Nat} : cmpOption a b = .eq ↔ a = b := by
  cases a <;> cases b <;> simp [cmpOption]

theorem zoneCmp_eq {a b : TimeZone} : a.cmp b = .eq ↔ a = b := by
  cases a <;> cases b <;> simp [TimeZone.cmp, Ordering.then_eq_eq]

theorem cmp_eq {a b : DateTime} : a.cmp b = .eq ↔ a = b := by
  unfold DateTime.cmp
  simp only [Ordering.then_eq_eq, Nat.compare_eq_eq, cmpOption_eq, zoneCmp_eq]
  cases a; cases b
  simp

theorem cmpOption_swap (a b : Option Nat) : (cmpOption a b).swap = cmpOption b a := by
  cases a <;> cases b <;> simp [cmpOption, Nat.compare_swap]

theorem zoneCmp_swap (a b : TimeZone) : (a.cmp b).swap = b.cmp a := by
  cases a <;> cases b <;> simp [TimeZone.cmp, Ordering.swap_then, Int.compare_swap]

theorem cmp_swap (a b : DateTime) : (a.cmp b).swap = b.cmp a := by
  unfold DateTime.cmp
  simp only [Ordering.swap_then, Nat.compare_swap, cmpOption_swap, zoneCmp_swap]

/-- **C69** The comparison of times is a total order that agrees with equality: exactly one of `a <
b`, `a = b`, `a > b` holds and reversing the arguments reverses the result. -/
theorem C69_order_total (a b : DateTime) :
    (a.cmp b = .eq ↔ a = b) ∧ (a.cmp b = .lt ↔ b.cmp a = .gt) := by
  refine ⟨cmp_eq, ?_⟩
  rw [← cmp_swap a b]
  cases a.cmp b <;> simp [Ordering.swap]

/-- What is needed of the comparison of a component. -/
structure Lex {α : Type} (cmp : α → α → Ordering) : Prop where
  eq : ∀ a b, cmp a b = .eq ↔ a = b
  trans : ∀ a b c, cmp a b = .lt → cmp b c = .lt → cmp a c = .lt

theorem lex_nat : Lex (compare : Nat → Nat → Ordering) :=
  ⟨fun _ _ => Nat.compare_eq_eq, fun a b c h1 h2 => by
    rw [Nat.compare_eq_lt] at *; omega⟩

theorem lex_int : Lex (compare : Int → Int → Ordering) :=
  ⟨fun _ _ => Int.compare_eq_eq, fun a b c h1 h2 => by
    rw [Int.compare_eq_lt] at *; omega⟩

theorem lex_option : Lex cmpOption :=
  ⟨fun _ _ => cmpOption_eq, fun a b c h1 h2 => by
    cases a <;> cases b <;> cases c <;> simp_all [cmpOption, Nat.compare_eq_lt]
    omega⟩

/-- First one component, then the rest. -/
theorem lex_then {β : Type} {cmp : β → β → Ordering} (h : Lex cmp) {x y z : β} {r1 r2 r3 : Ordering}
    (hr : r1 = .lt → r2 = .lt → r3 = .lt)
    (h1 : (cmp x y).then r1 = .lt) (h2 : (cmp y z).then r2 = .lt) : (cmp x z).then r3 = .lt := by
  rw [Ordering.then_eq_lt] at *
  rcases h1 with h1 | ⟨h1, h1'⟩ <;> rcases h2 with h2 | ⟨h2, h2'⟩
  · exact .inl (h.trans _ _ _ h1 h2)
  · exact .inl (by rw [← (h.eq _ _).mp h2]; exact h1)
  · exact .inl (by rw [(h.eq _ _).mp h1]; exact h2)
  · exact .inr ⟨by rw [(h.eq _ _).mp h1]; exact h2, hr h1' h2'⟩

theorem zoneCmp_trans {a b c : TimeZone} (h1 : a.cmp b = .lt) (h2 : b.cmp c = .lt) : a.cmp c = .lt := by
  cases a <;> cases b <;> cases c <;> simp_all [TimeZone.cmp]
  exact lex_then lex_int (lex_int.trans _ _ _) h1 h2

/-- **C69** The comparison is transitive. -/
theorem C69_order_transitive (a b c : DateTime) (h1 : a.cmp b = .lt) (h2 : b.cmp c = .lt) : a.cmp c = .lt := by
  unfold DateTime.cmp at *
  exact lex_then lex_nat (lex_then lex_nat (lex_then lex_nat (lex_then lex_nat (lex_then lex_nat
    (lex_then lex_nat (lex_then lex_option zoneCmp_trans)))))) h1 h2

/-- A case: three times, of which the first two differ in the zone and the last two in the day. -/
example : DateTime.cmp ⟨2000, 1, 1, 0, 0, 0, none, .z⟩ ⟨2000, 1, 1, 0, 0, 0, none, .offset 1 0⟩ = .lt ∧
    DateTime.cmp ⟨2000, 1, 1, 0, 0, 0, none, .offset 1 0⟩ ⟨2000, 1, 2, 0, 0, 0, none, .z⟩ = .lt := by decide

theorem cmp_lt_instant {a b : DateTime} (ha : RealTime a) (hb : RealTime b) (hz : a.tz = .z)
    (hz' : b.tz = .z) (hm : a.millisecond.isSome = b.millisecond.isSome) (h : a.cmp b = .lt) :
    instant a < instant b := by
  have hms : a.millisecond.getD 0 ≤ 999 ∧ b.millisecond.getD 0 ≤ 999 := by
    constructor
    · cases h : a.millisecond with
      | none => simp
      | some v => exact ha.milli v h
    · cases h : b.millisecond with
      | none => simp
      | some v => exact hb.milli v h
  have hcm : cmpOption a.millisecond b.millisecond = .lt →
      a.millisecond.getD 0 < b.millisecond.getD 0 := by
    cases h1 : a.millisecond <;> cases h2 : b.millisecond <;>
      simp [h1, h2, cmpOption, Nat.compare_eq_lt] at hm ⊢
  unfold DateTime.cmp at h
  simp only [Ordering.then_eq_lt, Nat.compare_eq_lt, Nat.compare_eq_eq] at h
  have key : (a.year < b.year ∨ a.year = b.year ∧ (a.month < b.month ∨ a.month = b.month ∧
      a.day < b.day)) ∨ (a.year = b.year ∧ a.month = b.month ∧ a.day = b.day) ∧
      (a.hour < b.hour ∨ a.hour = b.hour ∧ (a.minute < b.minute ∨ a.minute = b.minute ∧
        (a.second < b.second ∨ a.second = b.second ∧ a.millisecond.getD 0 < b.millisecond.getD 0))) := by
    rcases h with h | ⟨e1, h | ⟨e2, h | ⟨e3, h | ⟨e4, h | ⟨e5, h | ⟨e6, h | ⟨_, h⟩⟩⟩⟩⟩⟩⟩
    · exact .inl (.inl h)
    · exact .inl (.inr ⟨e1, .inl h⟩)
    · exact .inl (.inr ⟨e1, .inr ⟨e2, h⟩⟩)
    · exact .inr ⟨⟨e1, e2, e3⟩, .inl h⟩
    · exact .inr ⟨⟨e1, e2, e3⟩, .inr ⟨e4, .inl h⟩⟩
    · exact .inr ⟨⟨e1, e2, e3⟩, .inr ⟨e4, .inr ⟨e5, .inl h⟩⟩⟩
    · exact .inr ⟨⟨e1, e2, e3⟩, .inr ⟨e4, .inr ⟨e5, .inr ⟨e6, hcm h⟩⟩⟩⟩
    · rw [hz, hz'] at h
      exact absurd h (by decide)
  have := ha.hour; have := ha.minute; have := ha.second
  have := hb.hour; have := hb.minute; have := hb.second
  unfold instant unixSeconds
  rcases key with key | ⟨⟨e1, e2, e3⟩, key⟩
  · have := dayNumber_lt ha.date hb.date key
    omega
  · rw [e1, e2, e3]
    omega

/-- **C69** (partial) On times in UTC with full years, that exist in the calendar, and that both
have or both lack milliseconds, the comparison is the chronological order. Missing: the other
times, where it is not (`C69_order_deviations`). -/
theorem C69_chronological_partial (a b : DateTime) (ha : RealTime a) (hb : RealTime b)
    (hz : a.tz = .z) (hz' : b.tz = .z) (hm : a.millisecond.isSome = b.millisecond.isSome) :
    (a.cmp b = .lt ↔ instant a < instant b) ∧ (a.cmp b = .eq ↔ instant a = instant b) ∧
    (a.cmp b = .gt ↔ instant b < instant a) := by
  have h1 := cmp_lt_instant ha hb hz hz' hm
  have h2 := cmp_lt_instant hb ha hz' hz hm.symm
  have h3 : a.cmp b = .eq → instant a = instant b := fun h => by rw [cmp_eq.mp h]
  rw [← cmp_swap a b] at h2
  cases hc : a.cmp b with
  | lt => have := h1 hc; simp; omega
  | eq => have := h3 hc; simp; omega
  | gt => have := h2 (by rw [hc]; rfl); simp; omega

/-- A case: the last second of a year and the first of the next one. -/
example : RealTime ⟨1999, 12, 31, 23, 59, 59, none, .z⟩ ∧ RealTime ⟨2000, 1, 1, 0, 0, 0, none, .z⟩ ∧
    instant ⟨2000, 1, 1, 0, 0, 0, none, .z⟩ - instant ⟨1999, 12, 31, 23, 59, 59, none, .z⟩ = 1000 := by
  refine ⟨⟨by decide, by simp [IsDate, monthDays], by decide, by decide, by decide, fun v h => by cases h⟩,
    ⟨by decide, by simp [IsDate, monthDays], by decide, by decide, by decide, fun v h => by cases h⟩, ?_⟩
  simp only [instant, unixSeconds, dayNumber]
  have h1 := daysOfYears_eq 1999
  have h2 := daysOfYears_eq 2000
  have h3 : daysOfMonths 1999 11 = 334 := by decide
  have h4 : daysOfMonths 2000 0 = 0 := rfl
  simp
  omega

/-- **C69** Deviations: a time without milliseconds is before the same time with `.0`; a UTCTime of
1999 is after one of 2020, the years being compared on two digits; offsets are not taken into
account: 12:00 at `+0100` is after 11:30 at `Z`, although it is the instant 11:00. -/
theorem C69_order_deviations :
    DateTime.cmp ⟨2000, 1, 1, 0, 0, 0, none, .z⟩ ⟨2000, 1, 1, 0, 0, 0, some 0, .z⟩ = .lt ∧
    instant ⟨2000, 1, 1, 0, 0, 0, none, .z⟩ = instant ⟨2000, 1, 1, 0, 0, 0, some 0, .z⟩ ∧
    (∃ a b, utcFromBytes (ascii "990101000000Z") = .ok a ∧
      utcFromBytes (ascii "200101000000Z") = .ok b ∧ a.cmp b = .gt) ∧
    (∃ a b, utcFromBytes (ascii "200101120000+0100") = .ok a ∧
      utcFromBytes (ascii "200101113000Z") = .ok b ∧ a.cmp b = .gt) :=
  ⟨by decide, rfl, ⟨_, _, rfl, rfl, by decide⟩, ⟨_, _, rfl, rfl, by decide⟩⟩

/-! ### Conversion to calendar dates (C70) -/

theorem asI32_small {n : Nat} (h : n < 2 ^ 31) : asI32 n = n := by
  unfold asI32
  rw [Nat.mod_eq_of_lt (by omega), if_pos (by omega)]

theorem zoneOffset_eq {H : Nat} {tz : TimeZone} {off : Int}
    (hp : ∀ h m, tz = .offset h m → 0 ≤ m) :
    zoneOffset H tz = some off ↔
      (∀ h m, tz = .offset h m → h.natAbs ≤ H ∧ m ≤ 59) ∧ off = zoneMinutes tz := by
  cases tz with
  | undefined => simp [zoneOffset, zoneMinutes]; exact eq_comm
  | z => simp [zoneOffset, zoneMinutes]; exact eq_comm
  | offset h m =>
    have := hp h m rfl
    unfold zoneOffset zoneMinutes offsetFromHm
    simp only [TimeZone.offset.injEq]
    constructor
    · intro e
      split at e
      · rename_i hc
        injection e with e
        refine ⟨fun h' m' ⟨h1, h2⟩ => ?_, ?_⟩
        · subst h1 h2; omega
        · split at e <;> split <;> omega
      · exact absurd e (by simp)
    · rintro ⟨h1, rfl⟩
      have := h1 h m ⟨rfl, rfl⟩
      rw [if_pos (by omega)]
      congr 1
      split <;> split <;> omega

/-- **C70** `to_datetime` (`utc_datetime`) succeeds exactly on the times that exist in the calendar
and whose offset is at most `H` hours and 59 minutes, where `H` is the limit of the `time` crate. It
returns the same components and the offset. The hypotheses hold of all parsed times.
Missing: `UtcTime::timestamp` (`C70_timestamp_deviation`) and years from 2^32 - 9999
(`C70_year_wrap_deviation`). -/
theorem C70_to_datetime_partial (H : Nat) (t : DateTime) (d : OffsetDateTime) (hy : t.year ≤ 9999)
    (hp : ∀ h m, t.tz = .offset h m → 0 ≤ m) :
    toDatetime H t = .ok d ↔
      (RealTime t ∧ ∀ h m, t.tz = .offset h m → h.natAbs ≤ H ∧ m ≤ 59) ∧
      d = ⟨t.year, t.month, t.day, t.hour, t.minute, t.second, t.millisecond.getD 0,
        zoneMinutes t.tz⟩ := by
  have hi : asI32 t.year = t.year := asI32_small (by omega)
  have hms : t.millisecond.getD 0 ≤ 999 ↔ ∀ v, t.millisecond = some v → v ≤ 999 := by
    cases t.millisecond <;> simp
  unfold toDatetime
  rw [hi]
  constructor
  · intro h
    split at h
    · rename_i hc
      obtain ⟨h1, h2, h3, h4, h5⟩ := hc
      have h1 := (dateExists_nat hy).mp h1
      have h5 := hms.mp h5
      split at h
      · rename_i off ho
        obtain ⟨g1, g2⟩ := (zoneOffset_eq hp).mp ho
        injection h with h
        exact ⟨⟨⟨hy, h1, h2, h3, h4, h5⟩, g1⟩, by rw [← h, g2]⟩
      · exact absurd h (by simp)
    · exact absurd h (by simp)
  · rintro ⟨⟨⟨_, h1, h2, h3, h4, h5⟩, h6⟩, rfl⟩
    rw [if_pos ⟨(dateExists_nat hy).mpr h1, h2, h3, h4, hms.mpr h5⟩, (zoneOffset_eq hp).mpr ⟨h6, rfl⟩]

/-- A case: a time with an offset. -/
example : toDatetime 25 ⟨2020, 2, 29, 12, 30, 0, none, .offset 1 30⟩ = .ok ⟨2020, 2, 29, 12, 30, 0, 0, 90⟩ := by
  decide +kernel

/-- **C70** Deviation: of the years beyond 9999, which only a value built by hand has, those that are
refused are not all: the 9999 greatest `u32` are taken for years before year 0. -/
theorem C70_year_wrap_deviation (H : Nat) (t : DateTime) (hy : 9999 < t.year) (h32 : t.year < 2 ^ 32) :
    (∀ d, toDatetime H t = .ok d → 2 ^ 32 - 9999 ≤ t.year ∧ d.year = t.year - 2 ^ 32) ∧
    (2 ^ 32 - 9999 ≤ t.year → toDatetime H { t with
        month := 1, day := 1, hour := 0, minute := 0, second := 0, millisecond := none, tz := .z } =
      .ok ⟨t.year - 2 ^ 32, 1, 1, 0, 0, 0, 0, 0⟩) := by
  have e32 : (2 : Nat) ^ 32 = 4294967296 := by decide
  have i32 : (2 : Int) ^ 32 = 4294967296 := by decide
  have e31 : (2 : Nat) ^ 31 = 2147483648 := by decide
  have hw : asI32 t.year = if t.year < 2 ^ 31 then (t.year : Int) else t.year - 2 ^ 32 := by
    unfold asI32
    rw [Nat.mod_eq_of_lt h32]
  constructor
  · intro d h
    unfold toDatetime at h
    split at h
    · rename_i hc
      have hd := hc.1
      simp only [dateExists, decide_eq_true_eq] at hd
      split at h
      · injection h with h
        subst h
        simp only
        rw [hw] at hd ⊢
        split at hd
        · omega
        · rename_i hn
          rw [if_neg hn]
          omega
      · exact absurd h (by simp)
    · exact absurd h (by simp)
  · intro h
    have hw : asI32 t.year = t.year - 2 ^ 32 := by rw [hw, if_neg (by omega)]
    have hd : dateExists ((t.year : Int) - 2 ^ 32) 1 1 = true := by
      simp only [dateExists, decide_eq_true_eq]
      refine ⟨by omega, by omega, by omega, by omega, by omega, ?_⟩
      show 1 ≤ 31
      omega
    unfold toDatetime
    simp only
    rw [hw, if_pos ⟨hd, by omega, by omega, by omega, by simp⟩]
    rfl

example : toDatetime 23 ⟨4294967295, 12, 31, 0, 0, 0, none, .z⟩ = .ok ⟨-1, 12, 31, 0, 0, 0, 0, 0⟩ ∧
    toDatetime 23 ⟨10000, 12, 31, 0, 0, 0, none, .z⟩ = .error .invalidDateTime := by decide +kernel

/-- A parsed time meets the hypotheses of `C70_to_datetime_partial`. -/
theorem parsed_zone {text : Bytes} {t : DateTime} (h : UtcText text t ∨ GenText text t) :
    t.year ≤ 9999 ∧ ∀ h m, t.tz = .offset h m → 0 ≤ m := by
  have hz : ∀ zone, ZoneText zone t.tz → ∀ h m, t.tz = .offset h m → 0 ≤ m := by
    intro zone hz h m e
    rw [e] at hz
    generalize e2 : TimeZone.offset h m = tz at hz
    cases hz with
    | z => cases e2
    | plus _ _ => injection e2 with _ e2; omega
    | minus _ _ => injection e2 with _ e2; omega
  rcases h with h | h
  · refine ⟨by have := h.year; omega, ?_⟩
    rcases h.text with ⟨_, _, e⟩ | ⟨zone, _, hz'⟩
    · intro h m e'; rw [e] at e'; cases e'
    · exact hz zone hz'
  · refine ⟨by have := h.year; omega, ?_⟩
    rcases h.text with ⟨_, _, _, e⟩ | ⟨frac, zone, _, _, hz' | ⟨_, e⟩⟩
    · intro h m e'; rw [e] at e'; cases e'
    · exact hz zone hz'
    · intro h m e'; rw [e] at e'; cases e'

example : toDatetime 23 ⟨2000, 2, 29, 12, 30, 0, some 7, .offset (-5) 30⟩ =
    .ok ⟨2000, 2, 29, 12, 30, 0, 7, -330⟩ ∧
    toDatetime 23 ⟨1999, 2, 29, 12, 30, 0, none, .z⟩ = .error .invalidDateTime := by decide +kernel

/-- **C70** The timestamp of a time is the number of seconds since 1970-01-01 00:00 UTC. -/
theorem C70_unix_timestamp (H : Nat) (t : DateTime) (d : OffsetDateTime) (hy : t.year ≤ 9999)
    (hp : ∀ h m, t.tz = .offset h m → 0 ≤ m) (h : toDatetime H t = .ok d) :
    d.unixTimestamp =
      unixSeconds t.year t.month t.day t.hour t.minute t.second - 60 * zoneMinutes t.tz := by
  obtain ⟨⟨hr, _⟩, rfl⟩ := (C70_to_datetime_partial H t d hy hp).mp h
  exact unixTimestamp_eq hr.date

/-- The epoch is 0, and a known date. -/
example : (OffsetDateTime.mk 1970 1 1 0 0 0 0 0).unixTimestamp = 0 ∧
    (OffsetDateTime.mk 2002 12 13 14 29 23 0 180).unixTimestamp = 1039778963 := by decide +kernel

/-- **C70** `utc_adjusted_datetime` of a UTCTime (two-digit year) succeeds exactly when
`utc_datetime` does, and only the year differs: 1950 to 1999 for 50 to 99, 2000 to 2049 for 0 to 49.
The error for an invalid adjusted date never happens. -/
theorem C70_adjusted_year (H : Nat) (t : DateTime) (d : OffsetDateTime) (hy : t.year ≤ 99) :
    utcAdjustedDatetime H t = .ok d ↔ ∃ d', toDatetime H t = .ok d' ∧
      d = { d' with year := if 50 ≤ t.year then 1900 + t.year else 2000 + t.year } := by
  have hi : asI32 t.year = t.year := asI32_small (by omega)
  unfold utcAdjustedDatetime
  rw [bind_eq_ok]
  refine exists_congr fun d' => and_congr_right fun h => ?_
  have hd : d'.year = t.year ∧ IsDate t.year d'.month d'.day := by
    unfold toDatetime at h
    split at h
    · rename_i hc
      split at h
      · injection h with h
        subst h
        refine ⟨hi, (dateExists_nat (by omega)).mp ?_⟩
        rw [hi] at hc
        exact hc.1
      · exact absurd h (by simp)
    · exact absurd h (by simp)
  obtain ⟨h1, h2, h3, h4, h5⟩ := hd
  have hadj : ∀ z : Nat, z = 1900 + t.year ∧ 50 ≤ t.year ∨ z = 2000 + t.year ∧ t.year < 50 →
      dateExists z d'.month d'.day = true := by
    intro z hz
    rw [dateExists_nat (by omega)]
    refine ⟨h2, h3, h4, ?_⟩
    have : LeapYear z ↔ LeapYear t.year := by unfold LeapYear; omega
    have e : monthDays z d'.month = monthDays t.year d'.month := by
      unfold monthDays
      simp only [this]
    rw [e]; exact h5
  by_cases hc : 50 ≤ t.year
  · have e : (if 50 ≤ d'.year then d'.year + 1900 else d'.year + 2000) = ((1900 + t.year : Nat) : Int) := by
      rw [if_pos (by omega)]; omega
    simp only [e, hadj _ (.inl ⟨rfl, hc⟩), if_true]
    rw [if_pos hc]
    constructor
    · intro h; injection h with h; rw [← h]; simp
    · intro h; rw [h]; simp
  · have e : (if 50 ≤ d'.year then d'.year + 1900 else d'.year + 2000) = ((2000 + t.year : Nat) : Int) := by
      rw [if_neg (by omega)]; omega
    simp only [e, hadj _ (.inr ⟨rfl, by omega⟩), if_true]
    rw [if_neg hc]
    constructor
    · intro h; injection h with h; rw [← h]; simp
    · intro h; rw [h]; simp

example : utcAdjustedDatetime 23 ⟨0, 2, 29, 0, 0, 0, none, .z⟩ = .ok ⟨2000, 2, 29, 0, 0, 0, 0, 0⟩ ∧
    utcAdjustedDatetime 23 ⟨50, 1, 1, 0, 0, 0, none, .z⟩ = .ok ⟨1950, 1, 1, 0, 0, 0, 0, 0⟩ := by
  decide +kernel

/-- **C70** Deviation: `UtcTime::timestamp` does not adjust the year: for every UTCTime with a
two-digit year it is the timestamp of a date of the years 0 to 99, more than 59 thousand million
seconds before 1970. -/
theorem C70_timestamp_deviation (H : Nat) (hH : H ≤ 25) (t : DateTime) (s : Int) (hy : t.year ≤ 99)
    (hp : ∀ h m, t.tz = .offset h m → 0 ≤ m) (h : utcTimestamp H t = .ok s) : s < -59000000000 := by
  obtain ⟨d, h1, h2⟩ := bind_eq_ok.mp h
  injection h2 with h2
  have h3 := C70_unix_timestamp H t d (by omega) hp h1
  obtain ⟨⟨hr, hz⟩, _⟩ := (C70_to_datetime_partial H t d (by omega) hp).mp h1
  rw [← h2, h3]
  have hz' : -1559 ≤ zoneMinutes t.tz := by
    cases htz : t.tz with
    | undefined => simp [zoneMinutes]
    | z => simp [zoneMinutes]
    | offset h m =>
      have := hz h m htz
      have := hp h m htz
      unfold zoneMinutes
      simp only
      split <;> omega
  have hd := dayNumber_lt hr.date (show IsDate 100 1 1 by unfold IsDate monthDays; simp) (.inl (by omega))
  have h100 : dayNumber 100 1 1 = 36525 := by
    have := daysOfYears_eq 100
    rw [dayNumber_first]
    omega
  have := hr.hour; have := hr.minute; have := hr.second
  unfold unixSeconds
  rw [dayNumber_1970]
  omega

example : utcTimestamp 23 ⟨99, 1, 1, 0, 0, 0, none, .z⟩ = .ok (-59042995200) := by decide +kernel

end Asn1

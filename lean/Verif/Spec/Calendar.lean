import Verif.Model.Calendar
/-!
# The calendar
-/
namespace Asn1.Spec

/-- The Gregorian rule. -/
def LeapYear (y : Nat) : Prop := y % 4 = 0 ∧ (y % 100 ≠ 0 ∨ y % 400 = 0)

instance (y : Nat) : Decidable (LeapYear y) := inferInstanceAs (Decidable (_ ∧ _))

/-- The number of days of month `m` of year `y`: thirty days hath September... -/
def monthDays (y m : Nat) : Nat :=
  match m with
  | 2 => if LeapYear y then 29 else 28
  | 4 | 6 | 9 | 11 => 30
  | _ => 31

/-- The date exists. -/
def IsDate (y m d : Nat) : Prop := 1 ≤ m ∧ m ≤ 12 ∧ 1 ≤ d ∧ d ≤ monthDays y m

/-- The number of days of the months `1..m` of year `y`. -/
def daysOfMonths (y : Nat) : Nat → Nat
  | 0 => 0
  | m + 1 => daysOfMonths y m + monthDays y (m + 1)

/-- The number of days of the years before `y`. -/
def daysOfYears : Nat → Nat
  | 0 => 0
  | y + 1 => daysOfYears y + daysOfMonths y 12

/-- The number of days from 0000-01-01 to a date. -/
def dayNumber (y m d : Nat) : Nat := daysOfYears y + daysOfMonths y (m - 1) + (d - 1)

/-- Seconds from 1970-01-01 00:00 UTC to a date and a time, both UTC. -/
def unixSeconds (y m d hh mm ss : Nat) : Int :=
  ((dayNumber y m d : Int) - dayNumber 1970 1 1) * 86400 + hh * 3600 + mm * 60 + ss

/-- Milliseconds from 1970-01-01 00:00 UTC. -/
def instant (t : DateTime) : Int :=
  unixSeconds t.year t.month t.day t.hour t.minute t.second * 1000 + t.millisecond.getD 0

/-- A date that exists and a time in range. -/
structure RealTime (t : DateTime) : Prop where
  year : t.year ≤ 9999
  date : IsDate t.year t.month t.day
  hour : t.hour ≤ 23
  minute : t.minute ≤ 59
  second : t.second ≤ 59
  milli : ∀ v, t.millisecond = some v → v ≤ 999

/-- The offset of a time zone in minutes: the sign is the sign of the hours. -/
def zoneMinutes : TimeZone → Int
  | .offset h m => if h < 0 then -(60 * (-h) + m) else 60 * h + m
  | _ => 0

end Asn1.Spec

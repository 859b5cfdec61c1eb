import Verif.Model.Time
/-!
# Comparison of times and conversion to calendar dates

`src/datetime.rs`, `src/asn1_types/utctime.rs`, `src/asn1_types/generalizedtime.rs` with the feature
`datetime`. The functions of the `time` crate (version 0.3, without the feature `large-dates`) that
they call are modelled here from its documentation: they are not part of /repo.
-/
namespace Asn1

/-! ### Comparison -/

/-- `Ord for Option<u16>`: `None` is the least element. -/
def cmpOption : Option Nat → Option Nat → Ordering
  | none, none => .eq
  | none, some _ => .lt
  | some _, none => .gt
  | some a, some b => compare a b

/-- src/datetime.rs:9-19, derived `Ord for ASN1TimeZone`: by variant, then by fields. -/
def TimeZone.cmp : TimeZone → TimeZone → Ordering
  | .undefined, .undefined => .eq
  | .undefined, _ => .lt
  | .z, .undefined => .gt
  | .z, .z => .eq
  | .z, .offset _ _ => .lt
  | .offset a b, .offset c d => (compare a c).then (compare b d)
  | .offset _ _, _ => .gt

/-- src/datetime.rs:21-31, derived `Ord for ASN1DateTime`: the fields in order. `UtcTime` and
`GeneralizedTime` (src/asn1_types/utctime.rs:7, generalizedtime.rs:10) have the same derived order. -/
def DateTime.cmp (a b : DateTime) : Ordering :=
  (compare a.year b.year).then <| (compare a.month b.month).then <| (compare a.day b.day).then <|
  (compare a.hour b.hour).then <| (compare a.minute b.minute).then <|
  (compare a.second b.second).then <| (cmpOption a.millisecond b.millisecond).then <|
  a.tz.cmp b.tz

/-! ### The `time` crate -/

/-- `time::util::is_leap_year` -/
def isLeap (y : Int) : Bool := y % 4 == 0 && (y % 100 != 0 || y % 400 == 0)

/-- `time::util::days_in_year_month`; 0 if there is no such month. -/
def daysIn (y : Int) (m : Nat) : Nat :=
  if m = 2 then (if isLeap y then 29 else 28)
  else if m = 4 ∨ m = 6 ∨ m = 9 ∨ m = 11 then 30
  else if 1 ≤ m ∧ m ≤ 12 then 31
  else 0

/-- `time::OffsetDateTime`: its local components. The offset is in minutes. -/
structure OffsetDateTime where
  year : Int
  month : Nat
  day : Nat
  hour : Nat
  minute : Nat
  second : Nat
  milli : Nat
  offset : Int
deriving DecidableEq, Repr

/-- `Month::try_from` and `Date::from_calendar_date`: whether the date exists. -/
def dateExists (y : Int) (m d : Nat) : Bool :=
  decide (-9999 ≤ y ∧ y ≤ 9999 ∧ 1 ≤ m ∧ m ≤ 12 ∧ 1 ≤ d ∧ d ≤ daysIn y m)

/-- `UtcOffset::from_hms(h, m, 0)`, in minutes: the minutes take the sign of the hours. The greatest
number of hours depends on the version of `time` (23, then 25): it is the parameter `H`. -/
def offsetFromHm (H : Nat) (h m : Int) : Option Int :=
  if h.natAbs ≤ H ∧ m.natAbs ≤ 59 then
    some (if 0 < h ∧ m < 0 ∨ h < 0 ∧ 0 < m then h * 60 - m else h * 60 + m)
  else none

/-- `Month` to days in the months before, in `time::Date::ordinal`. -/
def monthStart (y : Int) (m : Nat) : Nat :=
  (match m with
    | 1 => 0 | 2 => 31 | 3 => 59 | 4 => 90 | 5 => 120 | 6 => 151
    | 7 => 181 | 8 => 212 | 9 => 243 | 10 => 273 | 11 => 304 | _ => 334) +
  if 2 < m ∧ isLeap y then 1 else 0

/-- `Date::to_julian_day` -/
def julianDay (y : Int) (m d : Nat) : Int :=
  ((monthStart y m + d : Nat) : Int) + 365 * (y - 1) + (y - 1) / 4 - (y - 1) / 100 +
    (y - 1) / 400 + 1721425

/-- `OffsetDateTime::unix_timestamp` -/
def OffsetDateTime.unixTimestamp (d : OffsetDateTime) : Int :=
  (julianDay d.year d.month d.day - 2440588) * 86400 + d.hour * 3600 + d.minute * 60 + d.second -
    d.offset * 60

/-! ### Conversions -/

/-- `u32 as i32` -/
def asI32 (n : Nat) : Int := if n % 2 ^ 32 < 2 ^ 31 then (n % 2 ^ 32 : Nat) else (n % 2 ^ 32 : Nat) - 2 ^ 32

/-- src/datetime.rs:73-76: the offset. -/
def zoneOffset (H : Nat) : TimeZone → Option Int
  | .offset h m => offsetFromHm H h m
  | _ => some 0

/-- src/datetime.rs:57-85 `ASN1DateTime::to_datetime`, also `UtcTime::utc_datetime`
(src/asn1_types/utctime.rs:98-104) and `GeneralizedTime::utc_datetime`
(src/asn1_types/generalizedtime.rs:166-171). All errors are `InvalidDateTime`: the order of the tests
is not visible. -/
def toDatetime (H : Nat) (t : DateTime) : Except Error OffsetDateTime :=
  if dateExists (asI32 t.year) t.month t.day ∧ t.hour ≤ 23 ∧ t.minute ≤ 59 ∧ t.second ≤ 59 ∧
      t.millisecond.getD 0 ≤ 999 then
    match zoneOffset H t.tz with
    | some off => .ok ⟨asI32 t.year, t.month, t.day, t.hour, t.minute, t.second,
        t.millisecond.getD 0, off⟩
    | none => .error .invalidDateTime
  else .error .invalidDateTime

/-- src/asn1_types/utctime.rs:106-122 `UtcTime::utc_adjusted_datetime`. `replace_date` keeps the
time and the offset. -/
def utcAdjustedDatetime (H : Nat) (t : DateTime) : Except Error OffsetDateTime := do
  let dt ← toDatetime H t
  let year := if 50 ≤ dt.year then dt.year + 1900 else dt.year + 2000
  if dateExists year dt.month dt.day then .ok { dt with year := year }
  else .error (.invalidValue tagUtcTime "Invalid adjusted date")

/-- src/asn1_types/utctime.rs:124-130 `UtcTime::timestamp`. -/
def utcTimestamp (H : Nat) (t : DateTime) : Except Error Int := do
  let dt ← toDatetime H t
  .ok dt.unixTimestamp

end Asn1

import Verif.Model.Time
/-!
# The texts of times

What UTCTime and GeneralizedTime contents look like, written as texts; independent of the decoders.
-/
namespace Asn1.Spec

/-- The bytes of an ASCII text. -/
def ascii (s : String) : Bytes := s.toList.map fun c => UInt8.ofNat c.toNat

/-- One decimal digit. -/
def digit (d : Nat) : UInt8 := UInt8.ofNat (48 + d)

/-- Two decimal digits. -/
def two (n : Nat) : Bytes := [digit (n / 10), digit (n % 10)]

/-- Four decimal digits. -/
def four (n : Nat) : Bytes := two (n / 100) ++ two (n % 100)

/-- A text of decimal digits, with the number they denote. -/
inductive DigitText : Bytes → Nat → Prop
  | nil : DigitText [] 0
  | snoc {t : Bytes} {n d : Nat} : DigitText t n → d < 10 → DigitText (t ++ [digit d]) (10 * n + d)

/-- Time zones: `Z`, `+hhmm` and `-hhmm`. The components of an offset are any two digits; the sign
is the sign of the hours. -/
inductive ZoneText : Bytes → TimeZone → Prop
  | z : ZoneText (ascii "Z") .z
  | plus {h m : Nat} : h < 100 → m < 100 → ZoneText (ascii "+" ++ two h ++ two m) (.offset h m)
  | minus {h m : Nat} : h < 100 → m < 100 →
      ZoneText (ascii "-" ++ two h ++ two m) (.offset (-(h : Int)) m)

/-- The ranges tested by the decoders. -/
structure InRange (t : DateTime) : Prop where
  month : t.month ≤ 12
  day : t.day ≤ 31
  hour : t.hour ≤ 23
  minute : t.minute ≤ 59
  second : t.second ≤ 59

/-- `MMDDhhmm` -/
def monthToMinute (t : DateTime) : Bytes := two t.month ++ two t.day ++ two t.hour ++ two t.minute

/-- `YYMMDDhhmm`, then either `Z` (no seconds) or `ss` and a time zone. -/
structure UtcText (text : Bytes) (t : DateTime) : Prop where
  year : t.year < 100
  range : InRange t
  noMillis : t.millisecond = none
  text : (text = two t.year ++ monthToMinute t ++ ascii "Z" ∧ t.second = 0 ∧ t.tz = .z) ∨
    ∃ zone, text = two t.year ++ monthToMinute t ++ two t.second ++ zone ∧ ZoneText zone t.tz

/-- The number of milliseconds written by `k` digits of value `n`. -/
def scaled (k n : Nat) : Nat := if k = 1 then n * 100 else if k = 2 then n * 10 else n

/-- Fractions of a second in front of `zone`: none; or a dot or a comma and at most three digits
(at least one if `zone` is empty), or four digits if `zone` is empty. -/
inductive FractionText (zone : Bytes) : Bytes → Option Nat → Prop
  | none : FractionText zone [] none
  | some {sep : UInt8} {ds : Bytes} {n : Nat} : sep ∈ ascii ".," → DigitText ds n →
      ds.length ≤ 4 → (ds.length = 4 → zone = []) → (ds = [] → zone ≠ []) →
      FractionText zone (sep :: ds) (some (scaled ds.length n))

/-- `YYYYMMDDhhmm`, then either `Z` (no seconds) or `ss`, a fraction and perhaps a time zone. -/
structure GenText (text : Bytes) (t : DateTime) : Prop where
  year : t.year < 10000
  range : InRange t
  text : (text = four t.year ++ monthToMinute t ++ ascii "Z" ∧ t.second = 0 ∧
      t.millisecond = none ∧ t.tz = .z) ∨
    ∃ frac zone, text = four t.year ++ monthToMinute t ++ two t.second ++ frac ++ zone ∧
      FractionText zone frac t.millisecond ∧
      (ZoneText zone t.tz ∨ zone = [] ∧ t.tz = .undefined)

/-- The components fit the text `YYMMDDhhmmssZ`. -/
def TwoDigits (t : DateTime) : Prop :=
  t.year < 100 ∧ t.month < 100 ∧ t.day < 100 ∧ t.hour < 100 ∧ t.minute < 100 ∧ t.second < 100

/-- The components fit the text `YYYYMMDDhhmmss`. -/
def FourDigits (t : DateTime) : Prop :=
  t.year < 10000 ∧ t.month < 100 ∧ t.day < 100 ∧ t.hour < 100 ∧ t.minute < 100 ∧ t.second < 100

/-- The UTCTime values that the crate writes and reads back unchanged. -/
def UtcValue (t : DateTime) : Prop :=
  t.year < 100 ∧ InRange t ∧ t.millisecond = none ∧ t.tz = .z

/-- A number of milliseconds that is written with three digits, or zero. -/
def GoodMillis : Option Nat → Prop
  | none => True
  | some v => v = 0 ∨ 100 ≤ v ∧ v ≤ 999

/-- The GeneralizedTime values that the crate writes and reads back unchanged. -/
def GenValue (t : DateTime) : Prop :=
  t.year < 10000 ∧ InRange t ∧ GoodMillis t.millisecond ∧ t.tz = .z

end Asn1.Spec

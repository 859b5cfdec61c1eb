import Verif.Model.Time
/-!
# The texts of times for people

`Display` of `ASN1DateTime` (src/datetime.rs), `UtcTime` and `GeneralizedTime`
(src/asn1_types/{utctime,generalizedtime}.rs). The texts are ASCII: they are lists of bytes here.
-/
namespace Asn1

/-- `{:0n}` of core::fmt for an unsigned number: `n` characters at least. -/
def padded (n v : Nat) : Bytes := (padPieces n v).flatten

/-- `{:0n}` of core::fmt for a signed number: the sign comes first and counts in the width. -/
def paddedInt (n : Nat) (v : Int) : Bytes :=
  if v < 0 then 0x2d :: padded (n - 1) v.natAbs else padded n v.natAbs

/-- The common part of the format strings, `{:04}-{:02}-{:02} {:02}:{:02}:{:02}`:
src/asn1_types/utctime.rs:199, 206 and generalizedtime.rs:261, 266, 273. -/
def dateTimeText (t : DateTime) : Bytes :=
  padded 4 t.year ++ [0x2d] ++ padded 2 t.month ++ [0x2d] ++ padded 2 t.day ++ [0x20] ++
    padded 2 t.hour ++ [0x3a] ++ padded 2 t.minute ++ [0x3a] ++ padded 2 t.second

/-- src/asn1_types/utctime.rs:203 and generalizedtime.rs:270: `-hh` of an `i8`, which panics on
overflow (`none`) in a debug build. Only a value built by hand has `hh = -128`. -/
def negI8 (h : Int) : Option Int := if h = -128 then none else some (-h)

/-- src/asn1_types/utctime.rs:203-208 and generalizedtime.rs:270-275: `{s}{:02}{:02}`. -/
def offsetText (hh mm : Int) : Option Bytes :=
  if hh > 0 then some ([0x2b] ++ paddedInt 2 hh ++ paddedInt 2 mm)
  else (negI8 hh).map fun hh => [0x2d] ++ paddedInt 2 hh ++ paddedInt 2 mm

/-- src/asn1_types/utctime.rs:193-212 `Display for UtcTime`. -/
def utcDisplay (t : DateTime) : Option Bytes :=
  match t.tz with
  | .z | .undefined => some (dateTimeText t ++ [0x5a])
  | .offset hh mm => (offsetText hh mm).map fun z => dateTimeText t ++ z

/-- src/asn1_types/generalizedtime.rs:251-279 `Display for GeneralizedTime`. -/
def genDisplay (t : DateTime) : Option Bytes :=
  match t.tz with
  | .undefined => some (dateTimeText t ++ fractional t.millisecond)
  | .z => some (dateTimeText t ++ fractional t.millisecond ++ [0x5a])
  | .offset hh mm => (offsetText hh mm).map fun z => dateTimeText t ++ fractional t.millisecond ++ z

/-- src/datetime.rs:85-98 `Display for ASN1DateTime`. -/
def dateTimeDisplay (t : DateTime) : Bytes :=
  padded 4 t.year ++ padded 2 t.month ++ padded 2 t.day ++ padded 2 t.hour ++ padded 2 t.minute ++
    padded 2 t.second ++ fractional t.millisecond ++ [0x5a]

end Asn1

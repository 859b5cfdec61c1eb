import Verif.Model.Oid
import Verif.Model.Simple
/-!
# UTCTime and GeneralizedTime

src/datetime.rs, src/asn1_types/{utctime,generalizedtime}.rs. The machine integers of a time
(`u32`, `u8`, `u16`, `i8`) are natural numbers and integers; the decoders only produce values that
fit (two decimal digits in a `u8` or an `i8`, at most four in a `u16`).
-/
namespace Asn1

/-- src/tag.rs `Tag::UtcTime`. -/
def tagUtcTime : Nat := 23
/-- src/tag.rs `Tag::GeneralizedTime`. -/
def tagGeneralizedTime : Nat := 24

/-- src/datetime.rs:9-19 `ASN1TimeZone`. -/
inductive TimeZone where
  | undefined
  | z
  | offset (hour minute : Int)
  deriving DecidableEq, Repr

/-- src/datetime.rs:21-31 `ASN1DateTime`; `UtcTime` (utctime.rs:8) and `GeneralizedTime`
(generalizedtime.rs:11) wrap it. -/
structure DateTime where
  year : Nat
  month : Nat
  day : Nat
  hour : Nat
  minute : Nat
  second : Nat
  millisecond : Option Nat
  tz : TimeZone
  deriving DecidableEq, Repr

/-- `u8::is_ascii_digit` (core library). -/
def isDigit (b : UInt8) : Bool := decide (48 ≤ b.toNat) && decide (b.toNat ≤ 57)

/-- src/datetime.rs:101-109 `decode_decimal` (no overflow: at most 99). -/
def decodeDecimal (tag : Nat) (hi lo : UInt8) : Except Error Nat :=
  if isDigit hi && isDigit lo then .ok ((hi.toNat - 48) * 10 + (lo.toNat - 48))
  else .error (.invalidValue tag "expected digit")

/-- src/asn1_types/utctime.rs:56-69 and generalizedtime.rs:140-153: the time zone. `hh as i8` does
not wrap, `hh` being at most 99. -/
def decodeZone (tag : Nat) (rem : Bytes) : Except Error TimeZone :=
  match rem with
  | [c] =>
    if c = 0x5a then .ok .z
    else .error (.invalidValue tag "malformed time string: no time zone")
  | [c, h1, h2, m1, m2] =>
    if c = 0x2b then do
      let hh ← decodeDecimal tag h1 h2
      let mm ← decodeDecimal tag m1 m2
      .ok (.offset hh mm)
    else if c = 0x2d then do
      let hh ← decodeDecimal tag h1 h2
      let mm ← decodeDecimal tag m1 m2
      .ok (.offset (-(hh : Int)) mm)
    else .error (.invalidValue tag "malformed time string: no time zone")
  | _ => .error (.invalidValue tag "malformed time string: no time zone")

/-- src/asn1_types/utctime.rs:43-49 and generalizedtime.rs:47-53: the seconds, read when two bytes
remain. -/
def decodeSeconds (tag : Nat) (rem : Bytes) : Except Error (Nat × Bytes) :=
  match rem with
  | s1 :: s2 :: rem => do
    let second ← decodeDecimal tag s1 s2
    .ok (second, rem)
  | _ => .ok (0, rem)

/-- src/asn1_types/utctime.rs:50-52 and generalizedtime.rs:54-62: the range test. -/
def badComponents (month day hour minute second : Nat) : Bool :=
  decide (month > 12) || decide (day > 31) || decide (hour > 23) || decide (minute > 59) ||
    decide (second > 59)

/-- src/asn1_types/utctime.rs:39-79 `UtcTime::from_bytes`, after `yymmddhhmm`. -/
def utcRest (year month day hour minute : Nat) (rem : Bytes) : Except Error DateTime :=
  if rem = [] then .error (.invalidValue tagUtcTime "malformed time string")
  else do
    let (second, rem) ← decodeSeconds tagUtcTime rem
    if badComponents month day hour minute second then
      .error (.invalidValue tagUtcTime "time components with invalid values")
    else if rem = [] then .error (.invalidValue tagUtcTime "malformed time string")
    else do
      let tz ← decodeZone tagUtcTime rem
      .ok ⟨year, month, day, hour, minute, second, none, tz⟩

/-- src/asn1_types/utctime.rs:15-96 `UtcTime::from_bytes`. -/
def utcFromBytes (bytes : Bytes) : Except Error DateTime :=
  match bytes with
  | y1 :: y2 :: mo1 :: mo2 :: d1 :: d2 :: h1 :: h2 :: mi1 :: mi2 :: rem => do
    let year ← decodeDecimal tagUtcTime y1 y2
    let month ← decodeDecimal tagUtcTime mo1 mo2
    let day ← decodeDecimal tagUtcTime d1 d2
    let hour ← decodeDecimal tagUtcTime h1 h2
    let minute ← decodeDecimal tagUtcTime mi1 mi2
    utcRest year month day hour minute rem
  | _ => .error (.invalidValue tagUtcTime "malformed time string (not yymmddhhmm)")

/-- src/asn1_types/generalizedtime.rs:82-114: the loop over the fraction of a second. The first
argument is the number of values of `idx` left in `0..=4`; the result is `fsecond`, `digits` and
`rem`. -/
def fracLoop : Nat → Nat → Bytes → Nat → Except Error (Nat × Nat × Bytes)
  | 0, _, rem, fsecond => .ok (fsecond, 0, rem)
  | n + 1, idx, rem, fsecond =>
    match rem with
    | [] =>
      if idx = 0 then
        .error (.invalidValue tagGeneralizedTime "malformed time string (dot or comma but no digits)")
      else .ok (fsecond, idx, [])
    | c :: rest =>
      if idx = 4 then
        .error (.invalidValue tagGeneralizedTime "malformed time string (invalid milliseconds)")
      else if isDigit c then fracLoop n (idx + 1) rest (fsecond * 10 + (c.toNat - 48))
      else if c = 0x5a || c = 0x2b || c = 0x2d then .ok (fsecond, idx, c :: rest)
      else
        .error (.invalidValue tagGeneralizedTime
          "malformed time string (invalid milliseconds/timezone)")

/-- src/asn1_types/generalizedtime.rs:77-125: the fraction of a second, after `.` or `,`. -/
def decodeFraction (rem : Bytes) : Except Error (Option Nat × Bytes) :=
  match rem with
  | c :: rem' =>
    if c = 0x2e || c = 0x2c then do
      let (fsecond, digits, rem) ← fracLoop 5 0 rem' 0
      .ok (some (if digits = 1 then fsecond * 100 else if digits = 2 then fsecond * 10
        else fsecond), rem)
    else .ok (none, rem)
  | [] => .ok (none, [])

/-- src/asn1_types/generalizedtime.rs:76-163 `GeneralizedTime::from_bytes`, after the seconds. -/
def genRest (year month day hour minute second : Nat) (rem : Bytes) : Except Error DateTime :=
  if rem = [] then .ok ⟨year, month, day, hour, minute, second, none, .undefined⟩
  else do
    let (millisecond, rem) ← decodeFraction rem
    if rem = [] then .ok ⟨year, month, day, hour, minute, second, millisecond, .undefined⟩
    else do
      let tz ← decodeZone tagGeneralizedTime rem
      .ok ⟨year, month, day, hour, minute, second, millisecond, tz⟩

/-- src/asn1_types/generalizedtime.rs:43-75 `GeneralizedTime::from_bytes`, after
`yyyymmddhhmm`. -/
def genTime (year month day hour minute : Nat) (rem : Bytes) : Except Error DateTime :=
  if rem = [] then .error (.invalidValue tagGeneralizedTime "malformed time string")
  else do
    let (second, rem) ← decodeSeconds tagGeneralizedTime rem
    if badComponents month day hour minute second then
      .error (.invalidValue tagGeneralizedTime "time components with invalid values")
    else genRest year month day hour minute second rem

/-- src/asn1_types/generalizedtime.rs:18-164 `GeneralizedTime::from_bytes`. -/
def genFromBytes (bytes : Bytes) : Except Error DateTime :=
  match bytes with
  | y1 :: y2 :: y3 :: y4 :: mo1 :: mo2 :: d1 :: d2 :: h1 :: h2 :: mi1 :: mi2 :: rem => do
    let yearHi ← decodeDecimal tagGeneralizedTime y1 y2
    let yearLo ← decodeDecimal tagGeneralizedTime y3 y4
    let month ← decodeDecimal tagGeneralizedTime mo1 mo2
    let day ← decodeDecimal tagGeneralizedTime d1 d2
    let hour ← decodeDecimal tagGeneralizedTime h1 h2
    let minute ← decodeDecimal tagGeneralizedTime mi1 mi2
    genTime (yearHi * 100 + yearLo) month day hour minute rem
  | _ => .error (.invalidValue tagGeneralizedTime "malformed time string (not yymmddhhmm)")

/-- src/asn1_types/utctime.rs:148-150 `is_visible` (the same in generalizedtime.rs:189-191). -/
def isVisible (b : UInt8) : Bool := decide (0x20 ≤ b.toNat) && decide (b.toNat ≤ 0x7f)

/-- src/asn1_types/utctime.rs:159-161: `from_bytes(..).map_err(|e| nom_err_input(&data, e.into()))`
(the same in generalizedtime.rs). -/
def timeOf (rem data : Input) (r : Except Error DateTime) : PRes DateTime :=
  match r with
  | .ok t => .ok (rem, t)
  | .error e => nomErr data (.ofError e)

/-- src/asn1_types/utctime.rs:138-162 `BerParser for UtcTime`. -/
def utcBerContent (h : Header) (input : Input) : PRes DateTime :=
  if h.constructed then nomErr input .unsupported
  else if !input.data.all isVisible then nomErr input .stringInvalidCharset
  else do
    let (rem, data) ← input.takeSplit input.len
    timeOf rem data (utcFromBytes data.data)

/-- src/asn1_types/utctime.rs:168-190 `DerParser for UtcTime`. -/
def utcDerContent (h : Header) (input : Input) : PRes DateTime := do
  h.assertPrimitive input
  if !input.data.all isVisible then nomErr input .stringInvalidCharset
  else do
    let (rem, data) ← input.takeSplit input.len
    timeOf rem data (utcFromBytes data.data)

/-- `BerParser for UtcTime`. -/
def utcBer : Parser DateTime := ⟨tagIs tagUtcTime, utcBerContent⟩
/-- `DerParser for UtcTime`. -/
def utcDer : Parser DateTime := ⟨tagIs tagUtcTime, utcDerContent⟩

/-- src/asn1_types/utctime.rs:214-218 `check_constraints`. -/
def utcCheck (_ : Any) : Except SErr Unit := .ok ()

/-- src/asn1_types/generalizedtime.rs:179-203 `BerParser for GeneralizedTime`. -/
def genBerContent (h : Header) (input : Input) : PRes DateTime :=
  if h.constructed then nomErr input .unsupported
  else if !input.data.all isVisible then nomErr input .stringInvalidCharset
  else do
    let (rem, data) ← input.takeSplit input.len
    timeOf rem data (genFromBytes data.data)

/-- src/asn1_types/generalizedtime.rs:209-248 `DerParser for GeneralizedTime`. -/
def genDerContent (h : Header) (input : Input) : PRes DateTime := do
  h.assertPrimitive input
  if !input.data.all isVisible then nomErr input .stringInvalidCharset
  else do
    let (rem, data) ← input.takeSplit input.len
    if data.data.getLast? ≠ some 0x5a then nomErr data (.derConstraintFailed .missingTimeZone)
    else if data.data.contains 0x2c then nomErr data (.derConstraintFailed .missingSeconds)
    else timeOf rem data (genFromBytes data.data)

/-- `BerParser for GeneralizedTime`. -/
def genBer : Parser DateTime := ⟨tagIs tagGeneralizedTime, genBerContent⟩
/-- `DerParser for GeneralizedTime`. -/
def genDer : Parser DateTime := ⟨tagIs tagGeneralizedTime, genDerContent⟩

/-- src/asn1_types/generalizedtime.rs:281-295 `check_constraints`. -/
def genCheck (a : Any) : Except SErr Unit :=
  if a.data.data.getLast? ≠ some 0x5a then
    .error (.error (.derConstraintFailed .missingTimeZone))
  else if a.data.data.contains 0x2c then .error (.error (.derConstraintFailed .missingSeconds))
  else .ok ()

/-- `{:0n}` of core::fmt: the pieces written, the padding zeros one by one, then the digits. -/
def padPieces (n v : Nat) : List Bytes :=
  List.replicate (n - (decimal v).length) [0x30] ++ [decimal v]

/-- `write!` on a writer: the pieces one after the other, up to the first error. -/
def writePieces : List Bytes → Wr Unit
  | [] => pure ()
  | p :: ps => do
    Wr.writeAll p
    writePieces ps

/-- src/asn1_types/utctime.rs:243-247: the format string. -/
def utcPieces (t : DateTime) : List Bytes :=
  padPieces 2 t.year ++ padPieces 2 t.month ++ padPieces 2 t.day ++ padPieces 2 t.hour ++
    padPieces 2 t.minute ++ padPieces 2 t.second ++ [[0x5a]]

/-- src/asn1_types/utctime.rs:230-257 `ToBer`/`ToDer` for `UtcTime`. -/
def utcToBer : ToBer DateTime where
  encoder := .primitive tagUtcTime
  contentLen _ := .definite 13
  tagInfo _ := (.universal, false, tagUtcTime)
  writeContent t := do
    writePieces (utcPieces t)
    pure 13

/-- src/asn1_types/generalizedtime.rs:326-330, also src/datetime.rs:87-90: `format!(".{v}")`. -/
def fractional : Option Nat → Bytes
  | none => []
  | some v => 0x2e :: decimal v

/-- src/asn1_types/generalizedtime.rs:331-341: the format string. -/
def genPieces (t : DateTime) : List Bytes :=
  padPieces 4 t.year ++ padPieces 2 t.month ++ padPieces 2 t.day ++ padPieces 2 t.hour ++
    padPieces 2 t.minute ++ padPieces 2 t.second ++ [fractional t.millisecond, [0x5a]]

/-- src/asn1_types/generalizedtime.rs:310-323: the announced length. -/
def genLen (t : DateTime) : Nat :=
  15 + match t.millisecond with
    | none => 0
    | some v => 1 + (decimal v).length

/-- src/asn1_types/generalizedtime.rs:307-351 `ToBer`/`ToDer` for `GeneralizedTime`. -/
def genToBer : ToBer DateTime where
  encoder := .primitive tagGeneralizedTime
  contentLen t := .definite (genLen t)
  tagInfo _ := (.universal, false, tagGeneralizedTime)
  writeContent t := do
    writePieces (genPieces t)
    pure (15 + (fractional t.millisecond).length)

end Asn1

import Verif.Model.Derive
/-!
# The feature `debug`: src/debug.rs

Logging itself is not modelled. What the wrappers check and compute is: `debug_assert!`, subtractions
and slices that may panic.
-/
namespace Asn1
variable {α : Type}

/-- src/debug.rs:162-210 `trace_input` with the feature `debug` (debug assertions and overflow checks
on): `debug_assert!(rem.start() >= start)` and `rem.start() - start`. -/
def traceInput (f : Input → PRes α) (input : Input) : PRes α :=
  match f input with
  | .ok (rem, v) => if rem.start < input.start then .error .panic else .ok (rem, v)
  | .error e => .error e

/-- src/debug.rs:116-143 `trace` with the feature `debug`: `input.len() - _rem.len()`. -/
def traceBytes (f : Bytes → Except SErr (Bytes × α)) (input : Bytes) : Except SErr (Bytes × α) :=
  match f input with
  | .ok (rem, v) => if input.length < rem.length then .error .panic else .ok (rem, v)
  | .error e => .error e

/-- src/debug.rs:69 `CHARS`. -/
def hexChars : List Char := "0123456789abcdef".toList

/-- src/debug.rs:73-77: the loop of `log_error_hex_dump`; an index out of bounds is `none`. -/
def hexLoop : Bytes → List Char → Option (List Char)
  | [], s => some s
  | b :: bs, s => do
    let hi ← hexChars[(b >>> 4).toNat]?
    let lo ← hexChars[(b &&& 0xf).toNat]?
    hexLoop bs (s ++ [hi, lo, ' '])

/-- src/debug.rs:66-83 `log_error_hex_dump`: the line logged, and whether the line `... <continued>`
follows. -/
def hexDump (bytes : Bytes) (maxLen : Nat) : Option (List Char × Bool) :=
  (hexLoop (bytes.take (min bytes.length maxLen)) []).map fun s =>
    (s.dropLast, decide (bytes.length > maxLen))

/-- src/header.rs:331-333 and 351-363 `Header::parse_ber` and `Header::parse_der`, traced. -/
def Rules.headerDebug (m : Rules) : Input → PRes Header := traceInput m.header

/-- src/from_ber.rs:98-116 `BerParser::parse_ber`, traced. -/
def Parser.parseBerDebug (p : Parser α) : Input → PRes α := traceInput fun input => do
  let (rem, header) ← Rules.ber.headerDebug input
  if !p.acceptTag header.tag then nomErr input (.unexpectedTag none header.tag)
  else do
    let (rem, data) ← berContent header rem MAX_RECURSION
    let (_, obj) ← traceInput (p.content header) data
    pure (rem, obj)

/-- src/from_der.rs:140-162 `DerParser::parse_der`, traced. -/
def Parser.parseDerDebug (p : Parser α) : Input → PRes α := traceInput fun input => do
  let (rem, header) ← Rules.der.headerDebug input
  let length ← definiteInner header.length input
  if !p.acceptTag header.tag then nomErr input (.unexpectedTag none header.tag)
  else do
    let (rem, data) ← takeS length rem
    let (_, obj) ← traceInput (p.content header) data
    pure (rem, obj)

/-- src/from_ber.rs:144-160 `BerParser::parse_ber_as_input`, traced. -/
def Parser.parseBerAsInputDebug (p : Parser α) : Input → PRes (Header × Input) :=
  traceInput fun input => do
    let (rem, header) ← Rules.ber.headerDebug input
    if !p.acceptTag header.tag then nomErr input (.unexpectedTag none header.tag)
    else do
      let (rem, data) ← berContent header rem MAX_RECURSION
      pure (rem, (header, data))

/-- src/from_der.rs:200-216 `DerParser::parse_der_as_input`, traced. -/
def Parser.parseDerAsInputDebug (p : Parser α) : Input → PRes (Header × Input) :=
  traceInput fun input => do
    let (rem, header) ← Rules.der.headerDebug input
    if !p.acceptTag header.tag then nomErr input (.unexpectedTag none header.tag)
    else do
      let (rem, data) ← derContent header rem
      pure (rem, (header, data))

/-- src/asn1_types/optional.rs:40-62 and 83-104 `parse_ber` and `parse_der` of `Option<T>`, traced. -/
def optionParseDebug (m : Rules) (p : Parser α) : Input → PRes (Option α) :=
  traceInput (optionParse m.headerDebug p)

end Asn1

import Verif.Model.Float
import Verif.Model.Simple
import Verif.Model.Oid
import Verif.Model.Time
import Verif.Model.Text
/-!
# REAL

src/asn1_types/real.rs, src/asn1_types/real/{f32,f64}.rs.

Overflow of machine arithmetic is a panic, as in debug builds.
-/
namespace Asn1

/-- src/asn1_types/real.rs:14-30 `Real`. -/
inductive Real where
  | binary (mantissa : F64) (base : Nat) (exponent : Int) (encBase : Nat)
  | infinity
  | nan
  | negInfinity
  | zero
  deriving DecidableEq, Repr

/-- The functions of Rust's standard library on decimal texts and powers of ten: `str::parse::<f64>`,
`Display for f64`, `f64::powi`. They are parameters: the theorems hold whatever they do. -/
structure FloatLib where
  parse : Bytes → Option F64
  display : F64 → Bytes
  powi : Nat → Int → F64

/-- src/tag.rs `Tag::RealType`. -/
def tagReal : Nat := 9

/-! ### Numbers -/

/-- src/asn1_types/real.rs:46-51: the loop of `Real::new`. It ends after less than 400 turns
(`C74_real_new`); `none` stands for no end. -/
def realNewLoop : Nat → F64 → Int → Option (F64 × Int)
  | 0, _, _ => none
  | fuel + 1, f, e =>
    if f.hasFract then realNewLoop fuel (f.mul (.fin false 5 1)) (e - 1) else some (f, e)

/-- src/asn1_types/real.rs:79-102 `normalize_base10`, the loop. -/
def normalizeLoop : Nat → F64 → Int → Option (F64 × Int)
  | 0, _, _ => none
  | fuel + 1, m, e =>
    if m.gtEpsilon && m.tensMultiple then normalizeLoop fuel m.div10 (e + 1) else some (m, e)

/-- src/asn1_types/real.rs:34-60 `Real::new`. -/
def Real.new (f : F64) : Option Real :=
  match f with
  | .inf s => some (if s then .negInfinity else .infinity)
  | .nan => some .nan
  | .fin _ n _ =>
    if n = 0 then some .zero
    else
      match realNewLoop 400 f 0 with
      | none => none
      | some (m, e) =>
        match normalizeLoop 400 m e with
        | none => none
        | some (m, e) => some (.binary m 10 e 10)

/-- src/asn1_types/real.rs:62-77 `with_enc_base`. -/
def Real.withEncBase (r : Real) (encBase : Nat) : Real :=
  match r with
  | .binary m b e _ => .binary m b e encBase
  | r => r

/-- src/asn1_types/real.rs:106-113 `Real::binary`. -/
def Real.ofBinary (mantissa : F64) (base : Nat) (exponent : Int) : Real := .binary mantissa base exponent 2

/-- src/asn1_types/real.rs:117-126 `is_infinite`, `is_finite`. -/
def Real.isInfinite : Real → Bool
  | .infinity | .negInfinity => true
  | _ => false

/-- src/asn1_types/real.rs:124-126 `is_finite`. -/
def Real.isFinite : Real → Bool
  | .zero | .binary .. => true
  | _ => false

/-- src/asn1_types/real.rs:131-148 `Real::f64`. `powi` of base 2 is exact, see `F64.pow2`; of other
bases it is a parameter. -/
def Real.f64 (lib : FloatLib) : Real → F64
  | .binary m b e _ => m.mul (if b = 2 then F64.pow2 e else lib.powi b e)
  | .zero => .fin false 0 0
  | .nan => .nan
  | .infinity => .inf false
  | .negInfinity => .inf true

/-! ### Decoding -/

/-- `x << 8 | b` on an `i32`/`i64` of `N` bytes: the high bits are lost. -/
def shlOr (N : Nat) (x : Int) (b : UInt8) : Int :=
  asSigned N (x * 256 % (2 ^ (8 * N) : Nat)).toNat + b.toNat

/-- src/asn1_types/real.rs:215-223: the number of exponent bytes. As in the code, the case 4 of a value
below 4 is never taken. -/
def realExpLen (first : UInt8) (rem : Bytes) (input : Input) : Except PErr (Nat × Bytes) :=
  if first &&& 3 = 4 then
    match rem with
    | [] => nomErr input (.incomplete (.size 1))
    | b :: rem => .ok (b.toNat, rem)
  else .ok ((first &&& 3).toNat + 1, rem)

/-- src/asn1_types/real.rs:231-243: the exponent. -/
def realExponent (tag : Nat) (eo : Bytes) (input : Input) : Except PErr Int :=
  match eo with
  | [] => .error .panic
  | b :: _ =>
    if eo.length > 4 then nomErr input (.invalidValue tag "Exponent too large (REAL)")
    else .ok (eo.foldl (shlOr 4) (if b &&& 0x80 ≠ 0 then -1 else 0))

/-- Multiplication of `i32`: overflow is a panic. -/
def mulI32 (a b : Int) : Except PErr Int :=
  if -(2 ^ 31) ≤ a * b ∧ a * b < 2 ^ 31 then .ok (a * b) else .error .panic

/-- src/asn1_types/real.rs:245-265: encoding base, and exponent for base 2. -/
def realBase (tag : Nat) (first : UInt8) (e : Int) (input : Input) : Except PErr (Nat × Int) :=
  if (first >>> 4) &&& 3 = 0 then .ok (2, e)
  else if (first >>> 4) &&& 3 = 1 then (mulI32 e 3).map (8, ·)
  else if (first >>> 4) &&& 3 = 2 then (mulI32 e 4).map (16, ·)
  else nomErr input (.invalidValue tag "Illegal REAL encoding base")

/-- src/asn1_types/real.rs:266-277: the mantissa with its sign; `-p` overflows for `i64::MIN`. -/
def realMantissa (tag : Nat) (first : UInt8) (rem : Bytes) (input : Input) : Except PErr Int :=
  if rem.length > 8 then nomErr input (.invalidValue tag "Mantissa too large (REAL)")
  else
    let p := rem.foldl (shlOr 8) 0
    if first &&& 0x40 ≠ 0 then
      if p = -(2 ^ 63) then .error .panic else .ok (-p)
    else .ok p

/-- src/asn1_types/real.rs:278-287: the scale factor. -/
def realScale (first : UInt8) (p : Int) : F64 :=
  if (first >>> 2) &&& 3 = 0 then F64.ofInt p
  else (F64.ofInt p).mul (F64.pow2 ((first >>> 2) &&& 3).toNat)

/-- src/asn1_types/real.rs:212-293: binary encoding. -/
def decodeRealBinary (tag : Nat) (first : UInt8) (rem : Bytes) (input : Input) : Except PErr Real := do
  let (n, rem) ← realExpLen first rem input
  if n ≥ rem.length then nomErr input (.invalidValue tag "Invalid float value(exponent)")
  else do
    let e ← realExponent tag (rem.take n) input
    let (encBase, e) ← realBase tag first e input
    let p ← realMantissa tag first (rem.drop n) input
    pure (.binary (realScale first p) 2 e encBase)

/-- src/asn1_types/real.rs:294-309: special values. -/
def decodeRealSpecial (h : Header) (first : UInt8) (input : Input) : Except PErr Real :=
  if h.length ≠ .definite 1 then nomErr input .invalidLength
  else if first = 0x40 then .ok .infinity
  else if first = 0x41 then .ok .negInfinity
  else if first = 0x42 then .ok .nan
  else nomErr input (.invalidValue h.tag "Invalid float special value")

/-- `u32::from_str`, the digits. -/
def parseDigits32 : Bytes → Nat → Option Nat
  | [], acc => some acc
  | b :: rest, acc =>
    if 48 ≤ b.toNat ∧ b.toNat ≤ 57 then
      if acc * 10 + (b.toNat - 48) < 2 ^ 32 then parseDigits32 rest (acc * 10 + (b.toNat - 48))
      else none
    else none

/-- `u32::from_str`: a leading `+` is accepted. -/
def parseU32 (s : Bytes) : Option Nat :=
  match s with
  | [] => none
  | b :: rest => if b = 43 then (if rest = [] then none else parseDigits32 rest 0) else parseDigits32 s 0

/-- `Real::new` inside the decoder: an endless loop would be one here too. -/
def realOfF64 (f : F64) : Except PErr Real :=
  match Real.new f with
  | some r => .ok r
  | none => .error .diverge

/-- src/asn1_types/real.rs:310-331: decimal encoding. -/
def decodeRealDecimal (lib : FloatLib) (tag : Nat) (first : UInt8) (rem : Bytes) (input : Input) :
    Except PErr Real :=
  match fromUtf8 rem with
  | none => nomErr input .stringInvalidCharset
  | some _ =>
    if first &&& 3 = 1 then
      match parseU32 rem with
      | none => nomErr input (.invalidValue tag "Invalid float string encoding")
      | some v => realOfF64 (F64.ofInt v)
    else if first &&& 3 = 2 ∨ first &&& 3 = 3 then
      match lib.parse rem with
      | none => nomErr input (.invalidValue tag "Invalid float string encoding")
      | some v => realOfF64 v
    else nomErr input (.invalidValue tag "Invalid NR (0)")

/-- src/asn1_types/real.rs:204-332 `decode_real`. -/
def decodeReal (lib : FloatLib) (h : Header) (input : Input) : Except PErr Real :=
  match input.data with
  | [] => .ok .zero
  | first :: rem =>
    if first &&& 0x80 ≠ 0 then decodeRealBinary h.tag first rem input
    else if first &&& 0x40 ≠ 0 then decodeRealSpecial h first input
    else decodeRealDecimal lib h.tag first rem input

/-- src/asn1_types/real.rs:160-187 `BerParser` and `DerParser` (the same) for `Real`. -/
def realP (lib : FloatLib) : Parser Real where
  acceptTag := tagIs tagReal
  content h input := do
    h.assertPrimitive input
    let r ← decodeReal lib h input
    let rem ← input.atEnd
    pure (rem, r)

/-- src/asn1_types/real.rs:189-196 `check_constraints` (the same for `f32` and `f64`). -/
def realCheck (a : Any) : Except SErr Unit := do
  assertPrimitiveS a.header
  assertDefiniteS a.header.length

/-- src/asn1_types/real/f64.rs:10-34 `BerParser`/`DerParser` for `f64`. -/
def f64P (lib : FloatLib) : Parser F64 := (realP lib).map (Real.f64 lib)

/-! ### Encoding -/

/-- Arithmetic on `i32`: overflow is a panic. -/
def chkI32 (x : Int) : Except SerErr Int :=
  if -(2 ^ 31) ≤ x ∧ x < 2 ^ 31 then .ok x else .error .panic

/-- src/asn1_types/real.rs:515-522: the loop of `drop_floating_point`. Each turn lowers `e`, so that an
endless loop meets the overflow of `e - 1`: the number of turns left is that of the values of `e`. -/
def dropLoop (b : Nat) : Nat → F64 → Int → Except SerErr (F64 × Int)
  | 0, m, e => if m.gtEpsilon && m.hasFract then .error .panic else .ok (m, e)
  | fuel + 1, m, e =>
    if m.gtEpsilon && m.hasFract then dropLoop b fuel (m.mul (F64.ofInt b)) (e - 1) else .ok (m, e)

/-- src/asn1_types/real.rs:503-513: the change of base. As in the code, the mantissa is multiplied by
`2^(e / 3)` and not by `2^(e % 3)`. -/
def dropScale (m : F64) (b : Nat) (e : Int) : Except SerErr (F64 × Int) :=
  let es : Int := if e > 0 then 1 else -1
  if b = 8 then do
    let a ← chkI32 e.natAbs
    pure (m.mul (F64.pow2 (a / 3 * es)), a / 3 * es)
  else if b = 16 then do
    let a ← chkI32 e.natAbs
    pure (m.mul (F64.pow2 (a / 4 * es)), a / 4 * es)
  else .ok (m, e)

/-- src/asn1_types/real.rs:501-524 `drop_floating_point`: negative, mantissa, exponent. -/
def dropFloatingPoint (m : F64) (b : Nat) (e : Int) : Except SerErr (Bool × Nat × Int) := do
  let (m', e) ← dropScale m.abs b e
  let (m', e) ← dropLoop b (e + 2 ^ 31).toNat m' e
  pure (!m.isSignPositive, m'.toU64, e)

/-- src/asn1_types/real.rs:396-414: `while m & (2^s - 1) == 0 { m >>= s; e += 1 }`, at most 64 turns
since `m` is not zero. -/
def normalizeBits (s : Nat) : Nat → Nat → Int → Except SerErr (Nat × Int)
  | 0, m, e => .ok (m, e)
  | fuel + 1, m, e =>
    if m % 2 ^ s = 0 then do
      let e ← chkI32 (e + 1)
      normalizeBits s fuel (m / 2 ^ s) e
    else .ok (m, e)

/-- src/asn1_types/real.rs:419-423: `while m & 0x1 == 0 && sf < 4 { m >>= 1; sf += 1 }`. -/
def scaleBits : Nat → Nat → Nat → Nat × Nat
  | 0, m, sf => (m, sf)
  | fuel + 1, m, sf => if m % 2 = 0 then scaleBits fuel (m / 2) (sf + 1) else (m, sf)

/-- src/asn1_types/real.rs:426-433: number of exponent bytes; `e.abs()` overflows for `i32::MIN`. -/
def expLen (e : Int) : Except SerErr Nat := do
  let a ← chkI32 e.natAbs
  pure (if a ≤ 0xff then 1 else if a ≤ 0xffff then 2 else if a ≤ 0xffffff then 3 else 4)

/-- src/asn1_types/real.rs:395-416: shift for the encoding base, and its bits of the first byte. -/
def encBaseBits (encBase : Nat) : Nat × UInt8 :=
  if encBase = 2 then (1, 0x00) else if encBase = 8 then (3, 0x10) else (4, 0x20)

/-- src/asn1_types/real.rs:385-434: the first byte. -/
def realFirst (neg : Bool) (baseBits : UInt8) (sf lenE : Nat) : UInt8 :=
  (0x80 : UInt8) ||| (if neg then (0x40 : UInt8) else 0) ||| baseBits ||| (UInt8.ofNat sf <<< 2) |||
    (UInt8.ofNat (lenE - 1) &&& 3)

/-- src/asn1_types/real.rs:452-460: leading zero bytes are dropped. -/
def dropZeros64 : Bytes → Bytes
  | [] => []
  | b :: rest => if b = 0 then dropZeros64 rest else b :: rest

/-- src/asn1_types/real.rs:385-463: the chunks written for a binary value. -/
def realBinaryPieces (mantissa : F64) (encBase : Nat) (exponent : Int) : Except SerErr (List Bytes) := do
  let (neg, m, e) ← dropFloatingPoint mantissa encBase exponent
  if m = 0 then .error .panic
  else do
    let (m, e) ← normalizeBits (encBaseBits encBase).1 64 m e
    let lenE ← expLen e
    pure ([[realFirst neg (encBaseBits encBase).2 (scaleBits 4 m 0).2 lenE]] ++
      (if lenE = 4 then [[4]] else []) ++ [(toBEInt 4 e).drop (4 - lenE)] ++
      [dropZeros64 (toBE 8 (scaleBits 4 m 0).1)])

/-- `{exponent}`: `Display for i32`. -/
def showI32 (e : Int) : Bytes := if e < 0 then 45 :: decimal e.natAbs else decimal e.natAbs

/-- src/asn1_types/real.rs:375-381: `format!("\x03{mantissa}E{sign}{exponent}")`. -/
def realDecimalText (lib : FloatLib) (mantissa : F64) (exponent : Int) : Bytes :=
  [3] ++ lib.display mantissa ++ [69] ++ (if exponent = 0 then [43] else []) ++ showI32 exponent

/-- src/asn1_types/real.rs:354-466 `ber_write_content`. -/
def realWrite (lib : FloatLib) : Real → Wr Nat
  | .zero => pure 0
  | .infinity => do Wr.writeAll [0x40]; pure 1
  | .negInfinity => do Wr.writeAll [0x41]; pure 1
  | .nan => do Wr.writeAll [0x42]; pure 1
  | .binary m base e encBase =>
    if base = 10 then do
      Wr.writeAll (realDecimalText lib m e)
      pure (realDecimalText lib m e).length
    else if base ≠ 2 then Wr.fail (.asn1 (.invalidValue tagReal "Invalid base for REAL"))
    else
      match realBinaryPieces m encBase e with
      | .error err => Wr.fail err
      | .ok ps => do
        writePieces ps
        pure ps.flatten.length

/-- src/asn1_types/real.rs:342-352 `ber_content_len`: the number of bytes that would be written. (When
that panics, so does `ber_content_len`; here the panic comes with the writing of the content.) -/
def realContentLen (lib : FloatLib) : Real → Length
  | .zero => .definite 0
  | .infinity | .negInfinity | .nan => .definite 1
  | r@(.binary ..) =>
    match (realWrite lib r).exec.2 with
    | .ok n => .definite n
    | .error _ => .definite 0

/-- src/asn1_types/real.rs:339-474 `ToBer`/`ToDer` for `Real`. -/
def realToBer (lib : FloatLib) : ToBer Real where
  encoder := .primitive tagReal
  contentLen := realContentLen lib
  tagInfo _ := (.universal, false, tagReal)
  writeContent := realWrite lib

/-- src/asn1_types/real/f64.rs:50-76 `ToBer`/`ToDer` for `f64`: those of `Real::new`. (An endless
`Real::new` would be one here; it ends, `C74_real_new`.) -/
def f64ToBer (lib : FloatLib) : ToBer F64 where
  encoder := .primitive tagReal
  contentLen f := (match Real.new f with
    | some r => realContentLen lib r
    | none => .definite 0)
  tagInfo _ := (.universal, false, tagReal)
  writeContent f := (match Real.new f with
    | some r => realWrite lib r
    | none => Wr.fail .panic)

end Asn1

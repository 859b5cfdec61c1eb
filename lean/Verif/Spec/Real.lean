import Verif.Model.Real
import Verif.Spec.Integer
import Verif.Spec.CharStrings
/-!
# REAL: numbers, and the binary encoding of X.690 8.5
-/
namespace Asn1.Spec

/-- `a * 2^x = b * 2^y`. -/
def SameNumber (a : Nat) (x : Int) (b : Nat) (y : Int) : Prop :=
  a * 2 ^ (x - min x y).toNat = b * 2 ^ (y - min x y).toNat

/-- The numbers of IEEE 754 binary64, each with one representation: infinities and NaN; zero; the
numbers `±n * 2^e` with an odd `n` of at most 53 bits, not below `2^-1074` in precision and less than
`2^1024`. -/
def F64Valid : F64 → Prop
  | .fin _ n e => (n = 0 ∧ e = 0) ∨ (n % 2 = 1 ∧ n < 2 ^ 53 ∧ -1074 ≤ e ∧ e + n.log2 < 1024)
  | _ => True

/-- The value of a REAL of base 2 is `±n * 2^e`. -/
def RealIs (r : Real) (neg : Bool) (n : Nat) (e : Int) : Prop :=
  ∃ num exp x encBase, r = .binary (.fin neg num exp) 2 x encBase ∧ SameNumber num (exp + x) n e

/-- Two REALs of base 2 have the same value. -/
def SameReal (r r' : Real) : Prop := ∀ neg n e, RealIs r neg n e ↔ RealIs r' neg n e

/-- The fields of a binary encoding: sign, base (as in the first octet), scale factor, exponent octets
(their number is in the two low bits of the first octet), and the octets of the number. -/
def BinaryFields (content : Bytes) (neg : Bool) (b F : Nat) (exp mant : Bytes) : Prop :=
  ∃ first : UInt8, content = first :: (exp ++ mant) ∧
    first.toNat = 128 + (if neg then 64 else 0) + 16 * b + 4 * F + (exp.length - 1) ∧
    b < 4 ∧ F < 4 ∧ 1 ≤ exp.length ∧ exp.length ≤ 4 ∧ mant ≠ []

/-- The base is `2^k`: 2, 8 or 16. -/
def BaseLog (b k : Nat) : Prop := b = 0 ∧ k = 1 ∨ b = 1 ∧ k = 3 ∨ b = 2 ∧ k = 4

/-- X.690 8.5.7: binary encoding of `±N * 2^F * (2^k)^E`, with the exponent `E` in one, two or three
octets of two's complement, and the number `N` in `len` octets. -/
def BinaryForm (content : Bytes) (neg : Bool) (N F k : Nat) (E : Int) (len : Nat) : Prop :=
  ∃ b exp mant, BinaryFields content neg b F exp mant ∧ BaseLog b k ∧ exp.length ≤ 3 ∧
    E = twos exp ∧ N = beNat mant ∧ len = mant.length

/-- X.690 8.5.7.4 d: the low bits of the first octet are 11; the second octet is the number of exponent
octets. -/
def LongForm (content : Bytes) (neg : Bool) (N F k : Nat) (E : Int) (len : Nat) : Prop :=
  ∃ (b : Nat) (first y : UInt8) (exp mant : Bytes), content = first :: y :: (exp ++ mant) ∧
    first.toNat = 128 + (if neg then 64 else 0) + 16 * b + 4 * F + 3 ∧ BaseLog b k ∧ F < 4 ∧
    y.toNat = exp.length ∧ 1 ≤ exp.length ∧ mant ≠ [] ∧ E = twos exp ∧ N = beNat mant ∧ len = mant.length

/-- `n` read as a signed number of 64 bits. -/
def signed64 (n : Nat) : Int := if n < 2 ^ 63 then n else (n : Int) - (2 ^ 64 : Nat)

/-- X.690 11.3.1: the binary encodings of DER have base 2, an odd number `N` with no leading zero octet,
no scale factor, and a minimal exponent. -/
def DerBinary (content : Bytes) (neg : Bool) (N : Nat) (E : Int) : Prop :=
  ∃ exp mant, BinaryFields content neg 0 0 exp mant ∧ exp.length ≤ 3 ∧ MinimalInt exp ∧ E = twos exp ∧
    N = beNat mant ∧ N % 2 = 1 ∧ mant.head? ≠ some 0

/-- A sequence of decimal digits and its value. -/
def DigitsOf (s : Bytes) (v : Nat) : Prop :=
  s ≠ [] ∧ (∀ b ∈ s, 48 ≤ b.toNat ∧ b.toNat ≤ 57) ∧
    v = s.foldl (fun a b => a * 10 + (b.toNat - 48)) 0

/-- The contents that are accepted as REAL, and their values. -/
inductive RealContent (lib : FloatLib) : Bytes → Real → Prop
  | zero : RealContent lib [] .zero
  | infinity : RealContent lib [0x40] .infinity
  | negInfinity : RealContent lib [0x41] .negInfinity
  | nan : RealContent lib [0x42] .nan
  /-- Binary: the exponent has up to four octets, whatever the second octet (X.690 has another form with
  more than three); the number has up to eight octets and is taken as a signed number (X.690: unsigned);
  the exponent for base 2 fits 32 bits. -/
  | binary {cs exp mant : Bytes} {neg : Bool} {b F k : Nat} (h : BinaryFields cs neg b F exp mant)
      (hb : BaseLog b k) (hl : mant.length ≤ 8) (he : InInt 4 (twos exp * k))
      (hp : ¬ (neg = true ∧ beNat mant = 2 ^ 63)) :
      RealContent lib cs (.binary ((F64.ofInt (if neg then -signed64 (beNat mant)
        else signed64 (beNat mant))).mul (F64.pow2 F)) 2 (twos exp * k) (2 ^ k))
  /-- NR1: an unsigned number of 32 bits, with an optional plus sign. The bits 3 to 6 of the first octet
  are not looked at. -/
  | nr1 {first : UInt8} {s d : Bytes} {v : Nat} {r : Real} (h1 : first.toNat < 64)
      (h2 : first.toNat % 4 = 1) (hs : s = d ∨ s = 43 :: d) (hd : DigitsOf d v) (hv : v < 2 ^ 32)
      (hr : Real.new (F64.ofInt v) = some r) : RealContent lib (first :: s) r
  /-- NR2 and NR3: what Rust's parser of floating-point numbers accepts. -/
  | nr23 {first : UInt8} {s : Bytes} {f : F64} {r : Real} (h1 : first.toNat < 64)
      (h2 : first.toNat % 4 = 2 ∨ first.toNat % 4 = 3) (hu : ∃ t, s = Text.utf8 t)
      (hf : lib.parse s = some f) (hr : Real.new f = some r) : RealContent lib (first :: s) r

/-- Number of bytes in which the encoder writes an exponent. -/
def expBytes (E : Int) : Nat :=
  if E.natAbs ≤ 0xff then 1 else if E.natAbs ≤ 0xffff then 2 else if E.natAbs ≤ 0xffffff then 3 else 4

/-- The base `2^k` of an encoding, as X.690 8.5.7.2 allows it. -/
inductive EncBase : Nat → Nat → Prop
  | two : EncBase 2 1
  | eight : EncBase 8 3
  | sixteen : EncBase 16 4

/-- The exponents that fit the number of octets in which the encoder writes them. -/
def ExpFits (E : Int) : Prop :=
  (-128 ≤ E ∧ E ≤ 127) ∨ (256 ≤ E.natAbs ∧ -32768 ≤ E ∧ E ≤ 32767) ∨
    (65536 ≤ E.natAbs ∧ -8388608 ≤ E ∧ E ≤ 8388607)

/-- The contents on which the decoder of REAL panics: a four-octet exponent whose multiple by 3 or 4
(base 8 or 16) overflows 32 bits, or the number `-2^63`. -/
def PanicContent (cs : Bytes) : Prop :=
  ∃ neg b F exp mant k, BinaryFields cs neg b F exp mant ∧ BaseLog b k ∧
    (¬ InInt 4 (twos exp * k) ∨ (neg = true ∧ mant.length ≤ 8 ∧ beNat mant = 2 ^ 63))

/-- What is assumed of Rust's parser of floating-point numbers where that is needed: its results are
numbers of the format. -/
def LibValid (lib : FloatLib) : Prop := ∀ s f, lib.parse s = some f → F64Valid f

/-- Rust's parser of floating-point numbers reads the ASCII text that the crate writes for a number back
as that number. -/
def ReadsBack (lib : FloatLib) (f : F64) : Prop :=
  ∀ m x, Real.new f = some (.binary m 10 x 10) →
    ∃ text, realDecimalText lib m x = 3 :: text ∧ (∀ b ∈ text, b.toNat < 0x80) ∧
      lib.parse text = some f

/-- The REAL values that decode to themselves: zero, infinities, NaN, and the numbers with an odd
integer mantissa, base 2, and an exponent that fits. -/
inductive RealValue : Real → Prop
  | zero : RealValue .zero
  | infinity : RealValue .infinity
  | negInfinity : RealValue .negInfinity
  | nan : RealValue .nan
  | binary {neg : Bool} {n : Nat} {E : Int} (ho : n % 2 = 1) (h53 : n < 2 ^ 53) (hE : ExpFits E) :
      RealValue (.binary (.fin neg n 0) 2 E 2)

end Asn1.Spec

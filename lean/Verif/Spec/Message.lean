import Verif.Spec.Fault
import Verif.Spec.Real
/-!
# The messages of `InvalidValue`

What is wrong with a text that is not a time, with a BIT STRING, and with the content of a REAL: the text that goes
with each fault, stated about the octets only. In the order of the octets, the first fault counts.
-/
namespace Asn1.Spec
open Asn1

/-- Decimal digits only. -/
def AllDigits (c : Bytes) : Prop := ∀ b ∈ c, 48 ≤ b.toNat ∧ b.toNat ≤ 57

/-- Month, day, hour, minute and second are in the ranges that are tested. -/
def TimeInRange (mo d h mi s : Nat) : Prop := mo ≤ 12 ∧ d ≤ 31 ∧ h ≤ 23 ∧ mi ≤ 59 ∧ s ≤ 59

/-- What is after the minutes: the seconds are read if there are two octets or more, and are 0 otherwise. -/
inductive SecondsText : Bytes → Nat → Bytes → Prop
  | absent (b : UInt8) : SecondsText [b] 0 [b]
  | present {s : Nat} {tail : Bytes} : s < 100 → SecondsText (two s ++ tail) s tail

/-- What is wrong with a time zone. -/
inductive ZoneFault : Bytes → String → Prop
  | noZone {z : Bytes} : z ≠ [] → z ≠ ascii "Z" →
      (¬ ∃ sign ds, sign ∈ ascii "+-" ∧ z = sign :: ds ∧ ds.length = 4) →
      ZoneFault z "malformed time string: no time zone"
  | digits {sign : UInt8} {ds : Bytes} : sign ∈ ascii "+-" → ds.length = 4 → ¬ AllDigits ds →
      ZoneFault (sign :: ds) "expected digit"

/-- What is wrong with a fraction of a second, after the dot or the comma. -/
inductive FractionFault : Bytes → String → Prop
  | empty : FractionFault [] "malformed time string (dot or comma but no digits)"
  | long {ds : Bytes} {c : UInt8} {rest : Bytes} : AllDigits ds → ds.length = 4 →
      FractionFault (ds ++ c :: rest) "malformed time string (invalid milliseconds)"
  | octet {ds : Bytes} {c : UInt8} {rest : Bytes} : AllDigits ds → ds.length < 4 → ¬ AllDigits [c] →
      c ∉ ascii "Z+-" → FractionFault (ds ++ c :: rest) "malformed time string (invalid milliseconds/timezone)"

/-- What is wrong with a text that should have the year in `y` digits, then `MMDDhhmm`, seconds and more; `More` is
what is wrong with the rest, after the seconds. -/
inductive TimeFault (y : Nat) (More : Bytes → String → Prop) : Bytes → String → Prop
  | short {c : Bytes} : c.length < y + 8 → TimeFault y More c "malformed time string (not yymmddhhmm)"
  | digit {head rest : Bytes} : head.length = y + 8 → ¬ AllDigits head →
      TimeFault y More (head ++ rest) "expected digit"
  | ends {head : Bytes} : head.length = y + 8 → AllDigits head → TimeFault y More head "malformed time string"
  | second {head rest : Bytes} {a b : UInt8} : head.length = y + 8 → AllDigits head → ¬ AllDigits [a, b] →
      TimeFault y More (head ++ a :: b :: rest) "expected digit"
  | range {year rest tail : Bytes} {mo d h mi s : Nat} : year.length = y → AllDigits year →
      mo < 100 → d < 100 → h < 100 → mi < 100 → SecondsText rest s tail → ¬ TimeInRange mo d h mi s →
      TimeFault y More (year ++ two mo ++ two d ++ two h ++ two mi ++ rest) "time components with invalid values"
  | rest {year rest tail : Bytes} {mo d h mi s : Nat} {msg : String} : year.length = y → AllDigits year →
      SecondsText rest s tail → TimeInRange mo d h mi s → More tail msg →
      TimeFault y More (year ++ two mo ++ two d ++ two h ++ two mi ++ rest) msg

/-- UTCTime: after the seconds comes a time zone, which has to be there. -/
inductive UtcTail : Bytes → String → Prop
  | ends : UtcTail [] "malformed time string"
  | zone {z : Bytes} {msg : String} : ZoneFault z msg → UtcTail z msg

/-- GeneralizedTime: after the seconds come a fraction and a time zone, which may both be missing. -/
inductive GenTail : Bytes → String → Prop
  | zone {z : Bytes} {msg : String} : z.head? ≠ some 46 → z.head? ≠ some 44 → ZoneFault z msg → GenTail z msg
  | fraction {sep : UInt8} {t : Bytes} {msg : String} : sep ∈ ascii ".," → FractionFault t msg → GenTail (sep :: t) msg
  | zoneAfter {sep : UInt8} {ds z : Bytes} {msg : String} : sep ∈ ascii ".," → AllDigits ds → ds.length < 4 →
      (∃ b ∈ ascii "Z+-", z.head? = some b) → ZoneFault z msg → GenTail (sep :: (ds ++ z)) msg

/-- What is wrong with a REAL. (Binary: the two low bits of the first octet are the number of octets of the exponent,
minus one; the number follows the exponent.) -/
inductive RealFault (lib : FloatLib) : Bytes → InnerError → Prop
  | short {b : UInt8} {c : Bytes} : 128 ≤ b.toNat → c.length ≤ b.toNat % 4 + 1 →
      RealFault lib (b :: c) (.invalidValue 9 "Invalid float value(exponent)")
  | base {b : UInt8} {c : Bytes} : 128 ≤ b.toNat → b.toNat % 4 + 1 < c.length → b.toNat / 16 % 4 = 3 →
      RealFault lib (b :: c) (.invalidValue 9 "Illegal REAL encoding base")
  /-- unless the decoder has panicked because of the exponent -/
  | mantissa {b : UInt8} {exp mant : Bytes} {k : Nat} : 128 ≤ b.toNat → exp.length = b.toNat % 4 + 1 →
      BaseLog (b.toNat / 16 % 4) k → InInt 4 (twos exp * k) → 8 < mant.length →
      RealFault lib (b :: (exp ++ mant)) (.invalidValue 9 "Mantissa too large (REAL)")
  | specialLength {b : UInt8} {c : Bytes} : 64 ≤ b.toNat → b.toNat < 128 → c ≠ [] →
      RealFault lib (b :: c) .invalidLength
  | special {b : UInt8} : 64 ≤ b.toNat → b.toNat < 128 → b ≠ 0x40 → b ≠ 0x41 → b ≠ 0x42 →
      RealFault lib [b] (.invalidValue 9 "Invalid float special value")
  | charset {b : UInt8} {c : Bytes} : b.toNat < 64 → (¬ ∃ s, c = Text.utf8 s) →
      RealFault lib (b :: c) .stringInvalidCharset
  | nr0 {b : UInt8} {s : Text} : b.toNat < 64 → b.toNat % 4 = 0 →
      RealFault lib (b :: s.utf8) (.invalidValue 9 "Invalid NR (0)")
  | nr1 {b : UInt8} {s : Text} : b.toNat < 64 → b.toNat % 4 = 1 →
      (¬ ∃ d v, (s.utf8 = d ∨ s.utf8 = 43 :: d) ∧ DigitsOf d v ∧ v < 2 ^ 32) →
      RealFault lib (b :: s.utf8) (.invalidValue 9 "Invalid float string encoding")
  | nr23 {b : UInt8} {s : Text} : b.toNat < 64 → b.toNat % 4 = 2 ∨ b.toNat % 4 = 3 → lib.parse s.utf8 = none →
      RealFault lib (b :: s.utf8) (.invalidValue 9 "Invalid float string encoding")

end Asn1.Spec

import Verif.Model.DumpDer
/-!
# What `dump-der` is to show

The objects of a file: the first one, and with each object those inside of it.
-/
namespace Asn1.Spec
open Asn1

/-- The input is one object (in DER) and nothing else. -/
def SoleObject (i : Input) (a : Any) : Prop := ∃ r, anyDer.parseDer i = .ok (r, a) ∧ r.data = []

/-- Reading one object after the other, `a` is read at the offset `s`. -/
inductive Listed : Input → Nat → Any → Prop
  | here {i r : Input} {a : Any} (h : anyDer.parseDer i = .ok (r, a)) : Listed i i.start a
  | later {i r : Input} {a b : Any} {s : Nat} (h : anyDer.parseDer i = .ok (r, a)) (hb : Listed r s b) : Listed i s b

/-- `b` is inside of `a`, is indented by `k` levels more, and is said to begin at offset `s`: the one object that is the
content of an object of class CONTEXT-SPECIFIC or APPLICATION, or of an OCTET STRING; the one that the bits of a BIT
STRING are, if `bits` is set; an item of a SEQUENCE or SET. -/
inductive ShownIn (bits : Bool) (a : Any) : Nat → Nat → Any → Prop
  | tagged {b : Any} (hc : a.header.cls = .contextSpecific ∨ a.header.cls = .application) (h : SoleObject a.data b) :
      ShownIn bits a 2 a.data.start b
  | octetString {b : Any} (hc : a.header.cls = .universal) (ht : a.header.tag = 4) (h : SoleObject a.data b) :
      ShownIn bits a 1 a.data.start b
  | bitString {b : Any} {v : BitString} (hb : bits = true) (hc : a.header.cls = .universal) (ht : a.header.tag = 3)
      (hv : anyInto bitBer a = .ok v) (h : SoleObject ⟨v.raw, a.data.start, a.data.stop⟩ b) :
      ShownIn bits a 1 a.data.start b
  | item {s : Nat} {b : Any} (hc : a.header.cls = .universal) (ht : a.header.tag = 16 ∨ a.header.tag = 17)
      (h : Listed a.data s b) : ShownIn bits a 1 s b

/-- From the object `a`, at level `d` and offset `s`, one gets to `b` at level `d'` and offset `s'`. -/
inductive Seen (bits : Bool) : Any → Nat → Nat → Any → Nat → Nat → Prop
  | self {a : Any} {d s : Nat} : Seen bits a d s a d s
  | inside {a b c : Any} {d s k t d' s' : Nat} (h : ShownIn bits a k t b) (hs : Seen bits b (d + k) t c d' s') :
      Seen bits a d s c d' s'

/-- The object can be shown: it is of another class than UNIVERSAL; or it is of one of these types, and has a
content of the type (for those with objects inside, see `ShownIn`). -/
def CanShow (a : Any) : Prop :=
  a.header.cls = .universal →
  match a.header.tag with
  | 1 => ∃ v, anyInto boolBer a = .ok v
  | 2 => ∃ v, anyInto integerBer a = .ok v
  | 3 => ∃ v, anyInto bitBer a = .ok v
  | 4 => (∃ b, SoleObject a.data b) ∨ ∃ v, anyInto octetBer a = .ok v
  | 5 => True
  | 6 => ∃ v, anyInto oidP a = .ok v
  | 10 => ∃ v, anyInto enumeratedBer a = .ok v
  | 11 => ∃ v, anyInto pdvP a = .ok v
  | 12 => ∃ v, anyInto (strBer utf8StringK) a = .ok v
  | 13 => ∃ v, anyInto oidP a = .ok v
  | 16 => True
  | 17 => True
  | 19 => ∃ v, anyInto (strBer printableStringK) a = .ok v
  | 22 => ∃ v, anyInto (strBer ia5StringK) a = .ok v
  | 23 => ∃ v, anyInto utcBer a = .ok v
  | 24 => ∃ v, anyInto genBer a = .ok v
  | 27 => ∃ v, anyInto (strBer generalStringK) a = .ok v
  | _ => False

/-- `b` is in the file, is shown at level `d` and is said to begin at offset `s`: the first object is at level 1 and
offset 0. -/
def InFile (bits : Bool) (bytes : Bytes) (b : Any) (d s : Nat) : Prop :=
  ∃ r a, anyDer.parseDer (Input.fromSlice bytes) = .ok (r, a) ∧ Seen bits a 1 0 b d s

/-- Reading one object after the other stops, before the end, with this error. -/
inductive StopsWith : Input → PErr → Prop
  | bad {i j : Input} {f : InnerError} (h0 : i.data ≠ []) (h : anyDer.parseDer i = .error (.error j f)) :
      StopsWith i (.error j f)
  | short {i : Input} {n : Nat} (h0 : i.data ≠ []) (h : anyDer.parseDer i = .error (.incomplete n)) :
      StopsWith i (.error i (.incomplete (.size n)))
  | later {i r : Input} {a : Any} {e : PErr} (h : anyDer.parseDer i = .ok (r, a)) (he : StopsWith r e) : StopsWith i e

/-- Octets in hexadecimal: 64 of them and the number of the others. -/
def HexOf (d : Nat) (bs : Bytes) (line : DumpLine) : Prop :=
  (bs.length ≤ 64 ∧ line = .hex d bs none) ∨ (64 < bs.length ∧ line = .hex d (bs.take 64) (some (bs.length - 64)))

/-- The lines that begin an object: its octets, if asked for, and its offset, length, level and header. -/
def Begins (o : DumpOpts) (a : Any) (d s : Nat) (line : DumpLine) : Prop :=
  (o.dumpHeader = true ∧ ∃ raw, a.header.rawHeader = some raw ∧
    ((o.dumpHexData = false ∧ line = .octets raw.data none) ∨
     (o.dumpHexData = true ∧ line = .octets raw.data (some (a.data.data.take 32, decide (32 < a.data.data.length)))))) ∨
  line = .object s a.data.data.length d a.header

/-- The lines about what is in the object `a`, at level `d`; those of the objects inside of it are not meant. -/
def Tells (a : Any) (d : Nat) (line : DumpLine) : Prop :=
  match a.header.cls with
  | .priv => line = .notSupported (d + 1) a.header.tag
  | .contextSpecific =>
    ((∃ b, SoleObject a.data b) ∧ line = .explicitTag (d + 1) false a.header.tag) ∨
    ((∀ b, ¬ SoleObject a.data b) ∧ HexOf (d + 1) a.data.data line)
  | .application =>
    ((∃ b, SoleObject a.data b) ∧ line = .explicitTag (d + 1) true a.header.tag) ∨
    ((∀ b, ¬ SoleObject a.data b) ∧ HexOf (d + 1) a.data.data line)
  | .universal =>
    match a.header.tag with
    | 1 => ∃ v, anyInto boolBer a = .ok v ∧ line = .value (d + 1) (.bool v)
    | 2 => ∃ v, anyInto integerBer a = .ok v ∧
        ((∃ n, Integer.asMachine (intBer 16) v = .ok n ∧ line = .value (d + 1) (.int n)) ∨
         ((∀ n, Integer.asMachine (intBer 16) v ≠ .ok n) ∧ HexOf (d + 1) v.data line))
    | 3 => ∃ v, anyInto bitBer a = .ok v ∧
        (((∃ b, SoleObject ⟨v.raw, a.data.start, a.data.stop⟩ b) ∧ line = .encapsulates (d + 1)) ∨
         ((∀ b, ¬ SoleObject ⟨v.raw, a.data.start, a.data.stop⟩ b) ∧
           ((v.bits.length < 64 ∧ line = .value (d + 1) (.bits v.bits.reverse)) ∨
            (64 ≤ v.bits.length ∧ HexOf (d + 1) v.raw line))))
    | 4 => ((∃ b, SoleObject a.data b) ∧ line = .encapsulates (d + 1)) ∨
        ((∀ b, ¬ SoleObject a.data b) ∧ ∃ v, anyInto octetBer a = .ok v ∧ HexOf (d + 1) v line)
    | 6 => ∃ v, anyInto oidP a = .ok v ∧ line = .value (d + 1) (.oid v)
    | 10 => ∃ v, anyInto enumeratedBer a = .ok v ∧ line = .value (d + 1) (.enumerated v)
    | 11 => ∃ v, anyInto pdvP a = .ok v ∧
        (line = .value (d + 1) (.embeddedPdv v) ∨ HexOf (d + 1) v.dataValue line)
    | 12 => ∃ v, anyInto (strBer utf8StringK) a = .ok v ∧ line = .value (d + 1) (.text 12 v)
    | 13 => ∃ v, anyInto oidP a = .ok v ∧ line = .value (d + 1) (.relativeOid v)
    | 16 => ∃ e, StopsWith a.data e ∧ line = .failed (d + 1) e
    | 17 => ∃ e, StopsWith a.data e ∧ line = .failed (d + 1) e
    | 19 => ∃ v, anyInto (strBer printableStringK) a = .ok v ∧ line = .value (d + 1) (.text 19 v)
    | 22 => ∃ v, anyInto (strBer ia5StringK) a = .ok v ∧ line = .value (d + 1) (.text 22 v)
    | 23 => ∃ v, anyInto utcBer a = .ok v ∧ line = .value (d + 1) (.utcTime v)
    | 24 => ∃ v, anyInto genBer a = .ok v ∧ line = .value (d + 1) (.generalizedTime v)
    | 27 => ∃ v, anyInto (strBer generalStringK) a = .ok v ∧ line = .value (d + 1) (.text 27 v)
    | _ => False

/-- What is printed after the first object: nothing if it is the whole file. -/
def Trails (bytes : Bytes) (line : DumpLine) : Prop :=
  ∃ r a, anyDer.parseDer (Input.fromSlice bytes) = .ok (r, a) ∧ r.data ≠ [] ∧
    (line = .extraBytes 1 r.data.length ∨ HexOf 1 r.data line)

/-- The offset that a line says an object begins at. -/
def offsetOf : DumpLine → Option Nat
  | .object s _ _ _ => some s
  | _ => none

/-- Errors go to another output than the other lines. -/
def toStderr : DumpLine → Bool
  | .failed _ _ => true
  | _ => false

/-- One after the other, there are the octets of the object, the line with its offset, and the other lines that are
about it. -/
def Together (o : DumpOpts) (b : Any) (d s : Nat) (ls : List DumpLine) : Prop :=
  ∃ pre octets about post,
    ls = pre ++ (octets ++ .object s b.data.data.length d b.header :: about) ++ post ∧
    (∀ line, line ∈ octets ↔ Begins o b d s line ∧ offsetOf line = none) ∧
    ∀ line, line ∈ about ↔ Tells b d line ∧ toStderr line = false

/-- The lines of one object: the object, its level, the offset and the lines. -/
structure Block where
  obj : Any
  level : Nat
  offset : Nat
  lines : List DumpLine

/-- These are the octets of the object, the line with its offset, and the other lines about it, each once. -/
def Block.Good (o : DumpOpts) (x : Block) : Prop :=
  ∃ octets about,
    x.lines = octets ++ .object x.offset x.obj.data.data.length x.level x.obj.header :: about ∧
    octets.Nodup ∧ about.Nodup ∧
    (∀ line, line ∈ octets ↔ Begins o x.obj x.level x.offset line ∧ offsetOf line = none) ∧
    ∀ line, line ∈ about ↔ Tells x.obj x.level line ∧ toStderr line = false

end Asn1.Spec

import Verif.Model.AnyMethods
/-!
# The program `dump-der`: examples/dump-der.rs

It prints the objects of a file in DER, with those inside of them. What is printed is a list of `DumpLine`, each of
which stands for one or several lines of text: what they say is modelled, colours, spaces and the texts of values are
not. A panic ends the program; what was printed before is not kept. Reading arguments, files and PEM (114-151) is
left out.
-/
namespace Asn1

/-- examples/dump-der.rs:9-37 `Context`, without `hex_max`, which is 64, and the width of the offsets. -/
structure DumpOpts where
  dumpHeader : Bool
  dumpHexData : Bool
  deriving DecidableEq, Repr

/-- The values that are printed, by the branches of examples/dump-der.rs:234-388. -/
inductive DumpValue where
  | bits (l : List Bool)
  | bool (b : Bool)
  | embeddedPdv (e : EmbeddedPdv)
  | enumerated (n : Nat)
  | generalizedTime (t : DateTime)
  | text (tag : Nat) (s : Text)
  | int (n : Int)
  | oid (o : Oid)
  | relativeOid (o : Oid)
  | utcTime (t : DateTime)
  deriving DecidableEq, Repr

/-- What is printed. -/
inductive DumpLine where
  /-- The octets of the header, the first ones of the content, and whether there are more (172-189). -/
  | octets (header : Bytes) (content : Option (Bytes × Bool))
  /-- The offset and the number of content octets of an object, and its header (191-192). -/
  | object (start len depth : Nat) (header : Header)
  /-- `EXPLICIT [tag]` or `EXPLICIT APPLICATION [tag]` (208-214). -/
  | explicitTag (depth : Nat) (application : Bool) (tag : Nat)
  /-- `PRIVATE: [tag] *NOT SUPPORTED*` (225-230). -/
  | notSupported (depth tag : Nat)
  | encapsulates (depth : Nat)
  | value (depth : Nat) (v : DumpValue)
  /-- Octets, and the number of those left out (93-112). -/
  | hex (depth : Nat) (shown : Bytes) (more : Option Nat)
  | failed (depth : Nat) (e : PErr)
  /-- `WARNING: n extra bytes after object` (160-161). -/
  | extraBytes (depth n : Nat)
  deriving DecidableEq, Repr

/-- examples/dump-der.rs:93-112 `print_hex_dump`. -/
def hexLines (depth : Nat) (bytes : Bytes) : DumpLine :=
  .hex depth (bytes.take (min bytes.length 64)) (if bytes.length > 64 then some (bytes.length - 64) else none)

/-- `.unwrap()` of what a method of `Any` returns. -/
def unwrapOrPanic {α : Type} (x : Except SErr α) : Except PErr α :=
  match x with
  | .ok v => .ok v
  | .error .diverge => .error .diverge
  | .error _ => .error .panic

/-- examples/dump-der.rs:172-189: the octets. -/
def dumpOctets (o : DumpOpts) (a : Any) : Except PErr (List DumpLine) :=
  if o.dumpHeader then
    match a.header.rawHeader with
    | none => .error .panic
    | some raw =>
      .ok [.octets raw.data
        (if o.dumpHexData then
          some (a.data.data.take (min a.data.len 32), decide (a.data.len > min a.data.len 32))
        else none)]
  else .ok []

/-- `Any::parse_der` and `rem.is_empty()` (examples/dump-der.rs:206-221, 242-251, 316-326): the object, if there is
one and nothing after it. -/
def dumpInner (i : Input) : Except PErr (Option Any) :=
  match anyDer.parseDer i with
  | .ok (rem, inner) => .ok (if rem.isEmpty then some inner else none)
  | .error .panic => .error .panic
  | .error .diverge => .error .diverge
  | .error _ => .ok none

/-- examples/dump-der.rs:350-361 and 364-375: the loop over the items; `shows` prints one that begins at an offset.
The fuel is the number of content octets plus one. -/
def dumpItems (shows : Nat → Any → Except PErr (List DumpLine)) (depth : Nat) :
    Nat → AnyIter → Except PErr (List DumpLine)
  | 0, _ => .error .diverge
  | fuel + 1, it =>
    match it.next anyDer.parseDer with
    | .error e => .error e
    | .ok (none, _) => .ok []
    | .ok (some (.obj itemInput item), it') => do
      let ls ← shows itemInput.start item
      let rest ← dumpItems shows depth fuel it'
      pure (ls ++ rest)
    | .ok (some (.err i e), it') => do
      let rest ← dumpItems shows depth fuel it'
      pure (.failed depth (.error i e) :: rest)

/-- One value, printed one level deeper. -/
def dumpValue {α : Type} (depth : Nat) (f : α → DumpValue) (x : Except SErr α) : Except PErr (List DumpLine) := do
  let v ← unwrapOrPanic x
  pure [.value (depth + 1) (f v)]

/-- examples/dump-der.rs:234-388: an object of class UNIVERSAL; `shows start any depth` is `print_der_any`. -/
def dumpUniversal (shows : Nat → Any → Nat → Except PErr (List DumpLine)) (a : Any) (depth : Nat) :
    Except PErr (List DumpLine) :=
  match a.header.tag with
  | 1 => dumpValue depth .bool (anyInto boolBer a)
  | 2 => do
    let i ← unwrapOrPanic (anyInto integerBer a)
    match Integer.asMachine (intBer 16) i with
    | .ok n => pure [.value (depth + 1) (.int n)]
    | .error .panic => .error .panic
    | .error .diverge => .error .diverge
    | .error _ => pure [hexLines (depth + 1) i.data]
  | 3 => do
    let b ← unwrapOrPanic (anyInto bitBer a)
    match ← dumpInner ⟨b.raw, a.data.start, a.data.stop⟩ with
    | some inner => do
      let ls ← shows a.data.start inner (depth + 1)
      pure (.encapsulates (depth + 1) :: ls)
    | none =>
      if b.bits.length < 64 then pure [.value (depth + 1) (.bits b.bits.reverse)]
      else pure [hexLines (depth + 1) b.raw]
  | 4 => do
    match ← dumpInner a.data with
    | some inner => do
      let ls ← shows a.data.start inner (depth + 1)
      pure (.encapsulates (depth + 1) :: ls)
    | none => do
      let b ← unwrapOrPanic (anyInto octetBer a)
      pure [hexLines (depth + 1) b]
  | 5 => .ok []
  | 6 => dumpValue depth .oid (anyInto oidP a)
  | 10 => dumpValue depth .enumerated (anyInto enumeratedBer a)
  | 11 => do
    let e ← unwrapOrPanic (anyInto pdvP a)
    pure [.value (depth + 1) (.embeddedPdv e), hexLines (depth + 1) e.dataValue]
  | 12 => dumpValue depth (.text 12) (anyInto (strBer utf8StringK) a)
  | 13 => dumpValue depth .relativeOid (anyInto oidP a)
  | 16 => dumpItems (fun start item => shows start item (depth + 1)) (depth + 1) (a.data.len + 1) (AnyIter.new a.data)
  | 17 => dumpItems (fun start item => shows start item (depth + 1)) (depth + 1) (a.data.len + 1) (AnyIter.new a.data)
  | 19 => dumpValue depth (.text 19) (anyInto (strBer printableStringK) a)
  | 22 => dumpValue depth (.text 22) (anyInto (strBer ia5StringK) a)
  | 23 => dumpValue depth .utcTime (anyInto utcBer a)
  | 24 => dumpValue depth .generalizedTime (anyInto genBer a)
  | 27 => dumpValue depth (.text 27) (anyInto (strBer generalStringK) a)
  | _ => .error .panic

/-- examples/dump-der.rs:194-388: what is printed after the line of the object. -/
def dumpBody (shows : Nat → Any → Nat → Except PErr (List DumpLine)) (a : Any) (depth : Nat) :
    Except PErr (List DumpLine) :=
  match a.header.cls with
  | .universal => dumpUniversal shows a depth
  | .priv => .ok [.notSupported (depth + 1) a.header.tag]
  | cls => do
    match ← dumpInner a.data with
    | some inner => do
      let ls ← shows a.data.start inner (depth + 2)
      pure (.explicitTag (depth + 1) (cls = .application) a.header.tag :: ls)
    | none => pure [hexLines (depth + 1) a.data.data]

/-- examples/dump-der.rs:171-389 `print_der_any`. The first number is the fuel. -/
def dumpAny (o : DumpOpts) : Nat → Nat → Any → Nat → Except PErr (List DumpLine)
  | 0, _, _, _ => .error .diverge
  | fuel + 1, start, a, depth => do
    let octets ← dumpOctets o a
    let body ← dumpBody (dumpAny o fuel) a depth
    pure (octets ++ .object start a.data.len depth a.header :: body)

/-- examples/dump-der.rs:153-169 `print_der`, as called at 142 and 146, with depth 1. -/
def dumpDer (o : DumpOpts) (bytes : Bytes) : Except PErr (List DumpLine) :=
  let input := Input.fromSlice bytes
  match anyDer.parseDer input with
  | .ok (rem, a) => do
    let ls ← dumpAny o (a.data.len + 1) input.start a 1
    pure (ls ++ if rem.isEmpty then [] else [.extraBytes 1 rem.len, hexLines 1 rem.data])
  | .error .panic => .error .panic
  | .error .diverge => .error .diverge
  | .error e => .ok [.failed 1 e]

end Asn1

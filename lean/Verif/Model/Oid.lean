import Verif.Model.ErrorConv
/-!
# OBJECT IDENTIFIER: src/asn1_types/oid.rs, and the macros of impl/src/lib.rs
-/
namespace Asn1

/-- src/tag.rs `Tag::Oid`. -/
def tagOid : Nat := 6
/-- src/tag.rs `Tag::RelativeOid`. -/
def tagRelativeOid : Nat := 13

/-- src/asn1_types/oid.rs:38-42 `Oid`. -/
structure Oid where
  asn1 : Bytes
  relative : Bool
  deriving DecidableEq, Repr

/-- src/asn1_types/oid.rs:16-27 `OidParseError`. -/
inductive OidParseError where
  | tooShort
  | firstComponentsTooLarge
  | parseIntError
  deriving DecidableEq, Repr

/-- src/asn1_types/oid.rs:49-63 `BerParser for Oid`; 66-76 `DerParser` is the same. -/
def oidContent (h : Header) (input : Input) : PRes Oid := do
  h.assertPrimitive input
  if input.isEmpty then nomErr input .invalidLength
  else do
    let (rem, data) ← input.takeSplit input.len
    pure (rem, ⟨data.data, false⟩)

/-- `BerParser for Oid` and `DerParser for Oid`; `accept_tag` is src/asn1_types/oid.rs:97-99. -/
def oidP : Parser Oid := ⟨fun t => tagIs tagOid t || tagIs tagRelativeOid t, oidContent⟩

/-- src/asn1_types/oid.rs:78-84 `check_constraints`. -/
def oidCheck (a : Any) : Except SErr Unit := do
  assertPrimitiveS a.header
  assertDefiniteS a.header.length

/-- src/asn1_types/oid.rs:106-123 `ToBer`/`ToDer` for `Oid`; `tag` is 89-95. -/
def oidToBer : ToBer Oid where
  encoder := .generic
  contentLen v := .definite v.asn1.length
  tagInfo v := (.universal, false, if v.relative then tagRelativeOid else tagOid)
  writeContent v := do
    Wr.writeAll v.asn1
    pure v.asn1.length

/-- `64 - id.leading_zeros()`: number of significant bits. -/
def bitLen (v : Nat) : Nat := if v = 0 then 0 else v.log2 + 1

/-- src/asn1_types/oid.rs:128-133: the octets of one sub-identifier. -/
def encodeArc (id : Nat) : Bytes :=
  let octets := max ((bitLen id + 6) / 7) 1
  (List.range octets).map fun i =>
    UInt8.ofNat ((id >>> (7 * (octets - 1 - i))) &&& 0x7f) |||
      (if i = octets - 1 then 0 else 0x80)

/-- src/asn1_types/oid.rs:126-135 `encode_relative`. -/
def encodeRelative (ids : List Nat) : Bytes := ids.flatMap encodeArc

/-- src/asn1_types/oid.rs:158-180 `Oid::from`. Arcs are `u64`; `s[0] * 40 + s[1]` cannot overflow
and is cut to a byte. -/
def Oid.from (s : List Nat) : Except OidParseError Oid :=
  match s with
  | [] => .error .tooShort
  | [a] => if a = 0 then .ok ⟨[0], false⟩ else .error .tooShort
  | a :: b :: rest =>
    if a ≥ 7 ∨ b ≥ 40 then .error .firstComponentsTooLarge
    else .ok ⟨UInt8.ofNat (a * 40 + b) :: encodeRelative rest, false⟩

/-- src/asn1_types/oid.rs:183-192 `Oid::from_relative`. -/
def Oid.fromRelative (s : List Nat) : Except OidParseError Oid :=
  if s.isEmpty then .error .tooShort else .ok ⟨encodeRelative s, true⟩

/-- src/asn1_types/oid.rs:326-331 `SubIdentifierIterator`. -/
structure SubIter where
  oid : Oid
  pos : Nat
  first : Bool
  deriving DecidableEq, Repr

/-- src/asn1_types/oid.rs:356-365: the loop over the octets of one sub-identifier; `wrap` is the
arithmetic of the number type. Returns the number and the octets read. -/
def arcLoop (wrap : Nat → Nat) : Bytes → Nat → Nat → Nat × Nat
  | [], res, n => (res, n)
  | o :: rest, res, n =>
    let res := wrap (res <<< 7) + (o &&& 0x7f).toNat
    if o >>> 7 = 0 then (res, n + 1) else arcLoop wrap rest res (n + 1)

/-- src/asn1_types/oid.rs:336-366 `next`. `pos` never exceeds the length, so that the slice and
the index cannot be out of bounds. -/
def SubIter.next (wrap : Nat → Nat) (it : SubIter) : Option Nat × SubIter :=
  let loop :=
    let r := arcLoop wrap (it.oid.asn1.drop it.pos) 0 0
    (some r.1, { it with pos := it.pos + r.2 })
  match it.oid.asn1 with
  | [] => (none, it)
  | b0 :: bs =>
    if it.pos = (b0 :: bs).length then (none, it)
    else if !it.oid.relative then
      if !it.first then (some (b0.toNat / 40), { it with first := true })
      else if it.pos = 0 then
        if b0 = 0 ∧ bs = [] then (none, { it with pos := 1 })
        else (some (b0.toNat % 40), { it with pos := 1 })
      else loop
    else loop

/-- Everything the iterator yields before `None`. -/
def SubIter.collect (wrap : Nat → Nat) : Nat → SubIter → Option (List Nat)
  | 0, _ => none
  | fuel + 1, it =>
    match it.next wrap with
    | (none, _) => some []
    | (some a, it') => (SubIter.collect wrap fuel it').map (a :: ·)

/-- src/asn1_types/oid.rs:258-265 `iter_bigint`: all sub-identifiers, with unbounded numbers. -/
def Oid.iterBigint (o : Oid) : Option (List Nat) :=
  SubIter.collect id (o.asn1.length + 2) ⟨o, 0, false⟩

/-- src/asn1_types/oid.rs:278-288: the fold computing the largest number of bits. -/
def maxBits (bytes : Bytes) : Nat :=
  (bytes.foldl (fun (s : Nat × Nat) (c : UInt8) =>
    if c >>> 7 = 0 then (max s.1 (s.2 + 7), 0) else (s.1, s.2 + 7)) (0, 0)).1

/-- src/asn1_types/oid.rs:269-299 `iter`: `none` when it returns `None`, otherwise the list of the
sub-identifiers it yields (`u64` arithmetic: `<<` drops the bits shifted out). -/
def Oid.iter (o : Oid) : Option (List Nat) :=
  let bytes := if o.relative then o.asn1 else o.asn1.drop 1
  if maxBits bytes > 64 then none
  else SubIter.collect (· % 2 ^ 64) (o.asn1.length + 2) ⟨o, 0, false⟩

/-- src/asn1_types/oid.rs:371-390 `ExactSizeIterator::len`. -/
def Oid.iterLen (o : Oid) : Nat :=
  if o.relative then (o.asn1.filter (fun b : UInt8 => b >>> 7 = 0)).length
  else
    match o.asn1 with
    | [] => 0
    | [b] => if b = 0 then 1 else 2
    | _ :: _ :: rest => 2 + (rest.filter (fun b : UInt8 => b >>> 7 = 0)).length

/-- src/asn1_types/oid.rs:318-320 `starts_with`. -/
def Oid.startsWith (o needle : Oid) : Bool :=
  decide (o.asn1.length ≥ needle.asn1.length) && needle.asn1.isPrefixOf o.asn1

/-- `Header::assert_tag` (src/header.rs:146-149) in the byte-slice API. -/
def assertTagS (h : Header) (tag : Nat) : Except SErr Unit :=
  match tagAssertEq h.tag tag with
  | .ok _ => .ok ()
  | .error e => .error (.error e)

/-- src/asn1_types/oid.rs:301-307 `from_ber_relative`. -/
def Oid.fromBerRelative (bytes : Bytes) : Except SErr (Bytes × Oid) := do
  let (rem, any) ← wrapBerParser parseBerAny bytes
  assertPrimitiveS any.header
  assertTagS any.header tagRelativeOid
  pure (rem, ⟨any.data.data, true⟩)

/-- src/asn1_types/oid.rs:309-315 `from_der_relative`. -/
def Oid.fromDerRelative (bytes : Bytes) : Except SErr (Bytes × Oid) := do
  let (rem, any) ← wrapBerParser parseDerAny bytes
  assertTagS any.header tagRelativeOid
  oidCheck any
  pure (rem, ⟨any.data.data, true⟩)

/-! ### Text -/

/-- `u64::to_string` / `BigUint::to_string`: decimal digits (ASCII), most significant first. -/
def decimal (n : Nat) : Bytes :=
  if n < 10 then [UInt8.ofNat (48 + n)] else decimal (n / 10) ++ [UInt8.ofNat (48 + n % 10)]

/-- `ints.join(".")`. -/
def joinDots : List Bytes → Bytes
  | [] => []
  | [a] => a
  | a :: rest => a ++ 46 :: joinDots rest

/-- src/asn1_types/oid.rs:228-231 `to_id_string` (feature `bigint`). -/
def Oid.toIdString (o : Oid) : Option Bytes := o.iterBigint.map fun l => joinDots (l.map decimal)

/-- `format!("{o:02x}")`: two hexadecimal digits. -/
def hexDigit (d : Nat) : UInt8 := UInt8.ofNat (if d < 10 then 48 + d else 87 + d)
/-- src/asn1_types/oid.rs:243-250: octets in hexadecimal, separated by spaces. -/
def hexString : Bytes → Bytes
  | [] => []
  | [b] => [hexDigit (b.toNat / 16), hexDigit (b.toNat % 16)]
  | b :: rest => hexDigit (b.toNat / 16) :: hexDigit (b.toNat % 16) :: 32 :: hexString rest

/-- src/asn1_types/oid.rs:233-252 `to_id_string` (without feature `bigint`). -/
def Oid.toIdStringU64 (o : Oid) : Option Bytes :=
  match o.iter with
  | some l => some (joinDots (l.map decimal))
  | none => some (hexString o.asn1)

/-- src/asn1_types/oid.rs:392-399 `Display for Oid`; `idString` is `to_id_string` of the build
(`Oid.toIdString` or `Oid.toIdStringU64`). `rel. ` comes before relative OIDs. -/
def Oid.display (idString : Oid → Option Bytes) (o : Oid) : Option Bytes :=
  (idString o).map fun t => if o.relative then [114, 101, 108, 46, 32] ++ t else t

/-- src/asn1_types/oid.rs:401-407 `Debug for Oid`: `OID(`, the displayed text, `)`. -/
def Oid.debug (idString : Oid → Option Bytes) (o : Oid) : Option Bytes :=
  (o.display idString).map fun t => [79, 73, 68, 40] ++ t ++ [41]

/-- `s.split('.')`. -/
def splitDots : Bytes → List Bytes
  | [] => [[]]
  | b :: rest =>
    if b = 46 then [] :: splitDots rest
    else
      match splitDots rest with
      | [] => [[b]]
      | w :: ws => (b :: w) :: ws

/-- `u64::from_str` (core library), the digits: stops at a bad digit or at an overflow. -/
def parseDigits : Bytes → Nat → Option Nat
  | [], acc => some acc
  | b :: rest, acc =>
    if 48 ≤ b.toNat ∧ b.toNat ≤ 57 then
      if acc * 10 + (b.toNat - 48) < 2 ^ 64 then parseDigits rest (acc * 10 + (b.toNat - 48))
      else none
    else none

/-- `u64::from_str` (core library): empty strings and a lone sign are errors, a leading `+` is
accepted. -/
def parseU64 (s : Bytes) : Option Nat :=
  match s with
  | [] => none
  | b :: rest => if b = 43 then (if rest = [] then none else parseDigits rest 0) else parseDigits s 0

/-- Collecting into a `Result`: the first error wins. -/
def collectOption {α β : Type} (f : α → Option β) : List α → Option (List β)
  | [] => some []
  | a :: rest =>
    match f a with
    | none => none
    | some b => (collectOption f rest).map (b :: ·)

/-- src/asn1_types/oid.rs:409-417 `FromStr for Oid`. -/
def Oid.fromStr (s : Bytes) : Except OidParseError Oid :=
  match collectOption parseU64 (splitDots s) with
  | none => .error .parseIntError
  | some v => Oid.from v

/-! ### The macros `oid!` and `int!` -/

/-- impl/src/lib.rs:63-70: the loop of `encode_base128`; `acc` is the vector reversed. -/
def base128Loop : Nat → Nat → Bytes → Bytes
  | 0, _, acc => acc
  | fuel + 1, val, acc =>
    if val = 0 then acc
    else base128Loop fuel (val >>> 7) ((UInt8.ofNat (val &&& 0x7f) ||| 0x80) :: acc)

/-- impl/src/lib.rs:57-71 `encode_base128` (a `u128` has fewer than 20 septets). -/
def encodeBase128 (int : Nat) : Bytes :=
  base128Loop 20 (int >>> 7) [UInt8.ofNat (int &&& 0x7f)]

/-- impl/src/lib.rs:6-45 `encode_oid!`, on the list of components (the token text: `Model/Macros`);
`none` is a compile-time error. -/
def encodeOidMacro (relative : Bool) (items : List Nat) : Option Bytes :=
  if relative then some (items.flatMap encodeBase128)
  else
    match items with
    | [] => none
    | [a] => if a = 0 then some [0] else none
    | a :: b :: rest =>
      if a > 2 ∨ b > 39 then none
      else some (UInt8.ofNat (a * 40 + b) :: rest.flatMap encodeBase128)

/-- impl/src/lib.rs:111-126 `encode_int!`: bytes of the constant content. -/
def encodeIntMacro (value : Nat) : Bytes := (toBE 8 value).dropWhile (· == 0)

end Asn1

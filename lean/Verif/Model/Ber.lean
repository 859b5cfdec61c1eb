import Verif.Model.Encoder
/-!
# Object content and generic objects: src/ber/parser.rs, src/asn1_types/any.rs
-/
namespace Asn1

/-- src/ber/parser.rs:8 `MAX_RECURSION`. -/
def MAX_RECURSION : Nat := 50

/-- Universal tag numbers used by the code (src/tag.rs:9-47). -/
def tagEndOfContent : Nat := 0

/-- src/ber/parser.rs:107-116: the loop of `ber_skip_object_content`, given the recursive call
`skip` for the objects found. The fuel is the input length plus one. -/
def skipLoop (skip : Input → Header → PRes Bool) : Nat → Input → PRes Bool
  | 0, _ => .error .diverge
  | fuel + 1, i => do
    let (i2, header2) ← parseHeader i
    let (i3, eoc) ← skip i2 header2
    if eoc then pure (i3, false) else skipLoop skip fuel i3

/-- src/ber/parser.rs:86-119 `ber_skip_object_content`. -/
def skipContent : Nat → Input → Header → PRes Bool
  | 0, i, _ => nomErr i .berMaxDepth
  | d + 1, i, hdr =>
    match hdr.length with
    | .definite l =>
      if l = 0 ∧ hdr.tag = tagEndOfContent then .ok (i, true)
      else do
        let (i, _) ← takeS l i
        pure (i, false)
    | .indefinite => do
      hdr.assertConstructed i
      skipLoop (fun i h => skipContent d i h) (i.data.length + 1) i

/-- src/ber/parser.rs:24-42 `BerMode::get_object_content`: returns (rest, content).
The assertion `len >= 2` and the slices are explicit panics. -/
def berContent (hdr : Header) (i0 : Input) (maxDepth : Nat) : PRes Input := do
  let (i, _) ← skipContent maxDepth i0 hdr
  if i.start < i0.start then .error .panic
  else
    let len := i.start - i0.start
    if hdr.length.isDefinite then i0.takeSplit len
    else if len < 2 then .error .panic
    else do
      let content ← i0.take (len - 2)
      pure (i, content)

/-- src/ber/parser.rs:48-53 `ber_get_content`. -/
def berGetContent (hdr : Header) (i : Input) : PRes Input := berContent hdr i MAX_RECURSION

/-- src/ber/parser.rs:55-72 `DerMode::get_object_content` (and 78-83 `der_get_content`). -/
def derContent (hdr : Header) (i : Input) : PRes Input :=
  match hdr.length with
  | .definite l => takeS l i
  | .indefinite => nomErr i (.derConstraintFailed .indefiniteLength)

/-- src/asn1_types/any.rs:18-23 `Any`. -/
structure Any where
  header : Header
  data : Input
  deriving DecidableEq, Repr

/-- src/asn1_types/any.rs:467-474 `parse_ber_any`. -/
def parseBerAny (input : Input) : PRes Any := do
  let (i, header) ← parseHeader input
  let (i, data) ← berContent header i MAX_RECURSION
  pure (i, ⟨header, data⟩)

/-- src/asn1_types/any.rs:476-487 `parse_der_any`. The second check of the length (480-483)
repeats the one of `Header::parse_der`. -/
def parseDerAny (input : Input) : PRes Any := do
  let (i, header) ← parseHeaderDer input
  if !header.length.isDefinite then nomErr input .indefiniteLengthUnexpected
  else do
    let (i, data) ← derContent header i
    pure (i, ⟨header, data⟩)

/-- src/asn1_types/any.rs:584-602 `ToBer for Any` (`ToDer` is the same, line 604). -/
def anyToBer : ToBer Any where
  encoder := .generic
  contentLen a := .definite a.data.len
  tagInfo a := (a.header.cls, a.header.constructed, a.header.tag)
  writeContent a := do
    Wr.writeAll a.data.data
    pure a.data.len

end Asn1

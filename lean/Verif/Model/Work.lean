import Verif.Model.Ber
/-!
# How many headers are read: counting versions of src/ber/parser.rs and src/asn1_types/any.rs

Each function returns what the function it is made from returns (Props/Work), with the number of calls of
`Header::parse_ber` it has made, those that fail included.
-/
namespace Asn1

/-- src/ber/parser.rs:107-116: `skipLoop`, counting. -/
def skipLoopCount (skip : Input → Header → PRes Bool × Nat) : Nat → Input → PRes Bool × Nat
  | 0, _ => (.error .diverge, 0)
  | fuel + 1, i =>
    match parseHeader i with
    | .error e => (.error e, 1)
    | .ok (i2, header2) =>
      match skip i2 header2 with
      | (.error e, n) => (.error e, 1 + n)
      | (.ok (i3, true), n) => (.ok (i3, false), 1 + n)
      | (.ok (i3, false), n) =>
        match skipLoopCount skip fuel i3 with
        | (x, m) => (x, 1 + n + m)

/-- src/ber/parser.rs:86-119 `ber_skip_object_content`: `skipContent`, counting. -/
def skipContentCount : Nat → Input → Header → PRes Bool × Nat
  | 0, i, _ => (nomErr i .berMaxDepth, 0)
  | d + 1, i, hdr =>
    match hdr.length with
    | .definite l =>
      if l = 0 ∧ hdr.tag = tagEndOfContent then (.ok (i, true), 0)
      else (takeS l i >>= fun x => .ok (x.1, false), 0)
    | .indefinite =>
      match hdr.assertConstructed i with
      | .error e => (.error e, 0)
      | .ok _ => skipLoopCount (fun i h => skipContentCount d i h) (i.data.length + 1) i

/-- src/ber/parser.rs:24-42 `BerMode::get_object_content`: `berContent`, counting. -/
def berContentCount (hdr : Header) (i0 : Input) (maxDepth : Nat) : PRes Input × Nat :=
  match skipContentCount maxDepth i0 hdr with
  | (.error e, n) => (.error e, n)
  | (.ok (i, _), n) =>
    (if i.start < i0.start then .error .panic
     else if hdr.length.isDefinite then i0.takeSplit (i.start - i0.start)
     else if i.start - i0.start < 2 then .error .panic
     else i0.take (i.start - i0.start - 2) >>= fun content => .ok (i, content), n)

/-- src/asn1_types/any.rs:467-474 `parse_ber_any`: `parseBerAny`, counting. -/
def parseBerAnyCount (input : Input) : PRes Any × Nat :=
  match parseHeader input with
  | .error e => (.error e, 1)
  | .ok (i, header) =>
    match berContentCount header i MAX_RECURSION with
    | (.error e, n) => (.error e, 1 + n)
    | (.ok (i, data), n) => (.ok (i, ⟨header, data⟩), 1 + n)

end Asn1

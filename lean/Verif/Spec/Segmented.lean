import Verif.Spec.Objects
import Verif.Spec.Ber
/-!
# Strings made of segments (X.690 8.6.4, 8.7.3)
-/
namespace Asn1.Spec
open Asn1

/-- An object without its position: constructed flag, tag number and content. -/
structure Obj where
  constructed : Bool
  tag : Nat
  content : Bytes
  deriving DecidableEq, Repr

/-- The object without its position. -/
def Obj.of (a : Any) : Obj := ⟨a.header.constructed, a.header.tag, a.data.data⟩

/-- The bytes `bs` are the BER objects `os`, one after the other, up to the end of `bs` or to the
first object with tag number 0. -/
inductive Objects : Bytes → List Obj → Prop
  | nil : Objects [] []
  | eoc {bs r a} (hp : parseBerAny (Input.fromSlice bs) = .ok (r, a)) (h0 : a.header.tag = 0) :
      Objects bs []
  | cons {bs r a os} (hp : parseBerAny (Input.fromSlice bs) = .ok (r, a)) (h0 : a.header.tag ≠ 0)
      (ht : Objects r.data os) : Objects bs (Obj.of a :: os)

/-- Value of a string with the given constructed flag and content: a primitive one is read by
`leaf`; a constructed one is made of objects that all have the tag number `tag`, and its value
joins those of the non-empty ones, in order. At most `d` levels, and no empty content. -/
def Segs {α : Type} (tag : Nat) (leaf : Bytes → α → Prop) (join : List α → α) :
    Nat → Bool → Bytes → α → Prop
  | 0, _, _, _ => False
  | _ + 1, false, bs, v => bs ≠ [] ∧ leaf bs v
  | d + 1, true, bs, v => bs ≠ [] ∧ ∃ os vs, Objects bs os ∧ (∀ o ∈ os, o.tag = tag) ∧
      Pointwise (fun o w => Segs tag leaf join d o.constructed o.content w)
        (os.filter (fun o => o.content ≠ [])) vs ∧ v = join vs

/-- Encodings `e` of the OCTET STRING value `v` in at most `d` levels of segments, in the words
of X.690: a primitive encoding, or a constructed one (definite or indefinite length) around
at least one encoding with fewer levels, the value being the concatenation. Any identifier
and length octets of X.690 will do. -/
def SegEnc : Nat → Bytes → Bytes → Prop
  | d, e, v =>
    (∃ id len, Ident .universal false 4 id ∧ Len false (.definite v.length) len ∧
      e = id ++ len ++ v) ∨
    match d with
    | 0 => False
    | d + 1 => ∃ kids : List (Bytes × Bytes), kids ≠ [] ∧ (∀ k ∈ kids, SegEnc d k.1 k.2) ∧
        v = (kids.map (·.2)).flatten ∧ ∃ id len, Ident .universal true 4 id ∧
        ((Len true (.definite (kids.map (·.1)).flatten.length) len ∧
            e = id ++ len ++ (kids.map (·.1)).flatten) ∨
         (Len true .indefinite len ∧ e = id ++ len ++ (kids.map (·.1)).flatten ++ [0, 0]))

end Asn1.Spec

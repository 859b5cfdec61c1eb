import Verif.Spec.Oid
import Verif.Props.OidParse
/-!
# The text of `oid!` and the array expressions of Rust
-/
namespace Asn1.Spec
open Asn1

/-- White space of ASCII. -/
def WhiteSpace (b : UInt8) : Prop := b ∈ ([9, 10, 11, 12, 13, 32] : Bytes)

/-- The text of a number below `2^128`, with white space around it. -/
def ArcText (w : Bytes) (n : Nat) : Prop :=
  (∃ p core q, w = p ++ core ++ q ∧ (∀ b ∈ p, WhiteSpace b) ∧ (∀ b ∈ q, WhiteSpace b) ∧ NumberText core n) ∧
    n < 2 ^ 128

/-- The text of an OID: numbers between dots. -/
def ArcsText (s : Bytes) (ns : List Nat) : Prop := ∃ ws, DotParts s ws ∧ Pointwise ArcText ws ns

/-- Literals of Rust for bytes: `0x` and two hexadecimal digits, or `0`. -/
inductive ByteLiteral : Bytes → UInt8 → Prop
  | hex {b h l} (hh : hexAlphabet[b.toNat / 16]? = some h) (hl : hexAlphabet[b.toNat % 16]? = some l) :
      ByteLiteral [48, 120, h, l] b
  | zero : ByteLiteral [48] 0

/-- The elements of an array expression: literals, with a comma after each but perhaps the last. -/
inductive ArrayElements : Bytes → Bytes → Prop
  | nil : ArrayElements [] []
  | last {l b} (h : ByteLiteral l b) : ArrayElements l [b]
  | cons {l b rest bs} (h : ByteLiteral l b) (ht : ArrayElements rest bs) :
      ArrayElements (l ++ [44, 32] ++ rest) (b :: bs)

/-- An array expression of Rust and the bytes it denotes. -/
def ArrayText (code bytes : Bytes) : Prop := ∃ e, code = [91] ++ e ++ [93] ∧ ArrayElements e bytes

end Asn1.Spec

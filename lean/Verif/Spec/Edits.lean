import Verif.Model.Edits
/-!
# What cuts and changes do
-/
namespace Asn1.Spec

/-- The bytes of `buf` from position `s` up to `e`. -/
def window (buf : Bytes) (s e : Nat) : Bytes := (buf.take e).drop s

/-- Where the cuts lead from the positions `s` to `e`; nothing if one goes beyond the end. -/
def positions : List Cut → Nat → Nat → Option (Nat × Nat)
  | [], s, e => some (s, e)
  | .take n :: cs, s, e => if s + n ≤ e then positions cs s (s + n) else none
  | .takeFrom n :: cs, s, e => if s + n ≤ e then positions cs (s + n) e else none

/-- A list of bits after changes of single bits; nothing if one of them does not exist. -/
def changed : List (Nat × Bool) → List Bool → Option (List Bool)
  | [], l => some l
  | (i, b) :: es, l => if i < l.length then changed es (l.set i b) else none

/-- A sequence of objects before and after a history of operations, with what each of them has returned. -/
inductive SeqHistory : List Any → List SeqEdit → List (Option Any) → List Any → Prop
  | done (as : List Any) : SeqHistory as [] [] as
  | push {as bs : List Any} {a : Any} {es : List SeqEdit} {os : List (Option Any)}
      (h : SeqHistory (as ++ [a]) es os bs) : SeqHistory as (.push a :: es) (none :: os) bs
  | pop {as bs : List Any} {a : Any} {es : List SeqEdit} {os : List (Option Any)}
      (h : SeqHistory as es os bs) : SeqHistory (as ++ [a]) (.pop :: es) (some a :: os) bs
  | popEmpty {bs : List Any} {es : List SeqEdit} {os : List (Option Any)}
      (h : SeqHistory [] es os bs) : SeqHistory [] (.pop :: es) (none :: os) bs
  | replace {l r bs : List Any} {a b : Any} {es : List SeqEdit} {os : List (Option Any)}
      (h : SeqHistory (l ++ b :: r) es os bs) :
      SeqHistory (l ++ a :: r) (.replace l.length b :: es) (none :: os) bs
  | beyond {as bs : List Any} {k : Nat} {b : Any} {es : List SeqEdit} {os : List (Option Any)}
      (hk : as.length ≤ k) (h : SeqHistory as es os bs) : SeqHistory as (.replace k b :: es) (none :: os) bs

/-- A set of objects before and after a history of operations, with what each of them has returned. -/
inductive SetHistory : (Any → Prop) → List SetEdit → List Bool → (Any → Prop) → Prop
  | done (P Q : Any → Prop) (h : ∀ x, P x ↔ Q x) : SetHistory P [] [] Q
  | inserted {P Q : Any → Prop} {a : Any} {es : List SetEdit} {bs : List Bool} (ha : ¬ P a)
      (h : SetHistory (fun x => P x ∨ x = a) es bs Q) : SetHistory P (.insert a :: es) (true :: bs) Q
  | present {P Q : Any → Prop} {a : Any} {es : List SetEdit} {bs : List Bool} (ha : P a)
      (h : SetHistory P es bs Q) : SetHistory P (.insert a :: es) (false :: bs) Q
  | removed {P Q : Any → Prop} {a : Any} {es : List SetEdit} {bs : List Bool} (ha : P a)
      (h : SetHistory (fun x => P x ∧ x ≠ a) es bs Q) : SetHistory P (.remove a :: es) (true :: bs) Q
  | absent {P Q : Any → Prop} {a : Any} {es : List SetEdit} {bs : List Bool} (ha : ¬ P a)
      (h : SetHistory P es bs Q) : SetHistory P (.remove a :: es) (false :: bs) Q

/-- The objects that occur in the operations. -/
def objectOf : SetEdit → Any
  | .insert a => a
  | .remove a => a

/-- The objects that occur in the operations on a sequence. -/
def objectsOf : SeqEdit → List Any
  | .push a => [a]
  | .pop => []
  | .replace _ a => [a]

end Asn1.Spec

import Verif.Spec.Built
import Verif.Spec.Form
import Verif.Spec.Ber
/-!
# The same objects with other length octets

X.690 8.1.3: the length octets may be in the short form or in a long form, with leading zeros; a constructed
object may have the indefinite form instead, with end-of-contents octets after its content. `LikeObject d b b'`:
the octets `b` and `b'` encode the same object, and differ only in this, at any level. The identifier octets, the
order of the objects and the contents of the primitive objects are the same.
-/
namespace Asn1.Spec
open Asn1

/-- The octets that follow the identifier octets of a constructed object with the content `cs`: the definite
form, or (`indef = true`) the indefinite form. -/
inductive Wrapped (cs : Bytes) : (indef : Bool) → Bytes → Prop
  | definite {len : Bytes} (h : Len true (.definite cs.length) len) : Wrapped cs false (len ++ cs)
  | indefinite {len : Bytes} (h : Len true .indefinite len) : Wrapped cs true (len ++ cs ++ [0, 0])

mutual

/-- The same object, with other length octets. At most `d` indefinite forms are nested. No object is taken for
end-of-contents octets (asn1-rs takes every empty object with the tag number 0 for them). -/
inductive LikeObject : Nat → Bytes → Bytes → Prop
  | primitive {d : Nat} {c : Class} {tag : Nat} {id len len' cs : Bytes} (hi : Ident c false tag id)
      (hl : Len false (.definite cs.length) len) (hl' : Len false (.definite cs.length) len')
      (he : tag ≠ 0 ∨ cs ≠ []) : LikeObject d (id ++ len ++ cs) (id ++ len' ++ cs)
  | constructed {d e : Nat} {c : Class} {tag : Nat} {id cs cs' t t' : Bytes} {k k' : Bool}
      (hi : Ident c true tag id) (hc : LikeObjects d cs cs') (ht : Wrapped cs k t) (ht' : Wrapped cs' k' t')
      (he : tag ≠ 0 ∨ cs ≠ []) (hd : d + (k || k').toNat ≤ e) : LikeObject e (id ++ t) (id ++ t')

/-- The same objects one after the other. -/
inductive LikeObjects : Nat → Bytes → Bytes → Prop
  | nil {d : Nat} : LikeObjects d [] []
  | cons {d : Nat} {a a' b b' : Bytes} (h : LikeObject d a a') (ht : LikeObjects d b b') :
      LikeObjects d (a ++ b) (a' ++ b')

end

/-! ### The types

Not among them: `Any`, the raw `Sequence` and `Set` and EMBEDDED PDV, whose values hold encoded octets;
`BmpString` and `UniversalString`, which take the encoded segments of a constructed string for characters; an
untagged OPTIONAL or DEFAULT field that may be constructed, since it is refused in the indefinite form. -/

mutual

/-- The BER parsers of the types whose values do not hold encoded octets. -/
inductive TreeType : {α : Type} → Parser α → Prop
  | uint (N : Nat) : TreeType (uintBer N)
  | int (N : Nat) : TreeType (intBer N)
  | integer : TreeType integerBer
  | boolean : TreeType booleanBer
  | bool : TreeType boolBer
  | null : TreeType nullP
  | enumerated : TreeType enumeratedBer
  | enum (ds : List Nat) : TreeType (enumP enumeratedBer ds)
  | oid : TreeType oidP
  | real (lib : FloatLib) : TreeType (realP lib)
  | f64 (lib : FloatLib) : TreeType (f64P lib)
  | f32 (lib : FloatLib) : TreeType (f32P lib)
  | utcTime : TreeType utcBer
  | generalizedTime : TreeType genBer
  | octetString : TreeType octetBer
  | bitString : TreeType bitBer
  | text {k : StrKind} {tag : Nat} {A : Char → Bool} (hk : StringType k tag A) : TreeType (strBer k)
  | string : TreeType stringBer
  | refStr : TreeType refStrBer
  | slice : TreeType sliceBer
  | vec {α : Type} {p : Parser α} (h : TreeType p) : TreeType (vecBer p)
  | sequenceOf {α : Type} {p : Parser α} (h : TreeType p) : TreeType (sequenceOfP anyBer.parseBer p)
  | setOf {α : Type} {p : Parser α} (h : TreeType p) : TreeType (setOfP anyBer.parseBer p)
  | set {α σ : Type} {p : Parser α} (S : SetImpl α σ) (h : TreeType p) : TreeType (setP S anyBer.parseBer p)
  | array {α : Type} {p : Parser α} (N : Nat) (h : TreeType p) : TreeType (arrayP N anyBer.parseBer p)
  | tuple {Ts : List Type} {fs : TupFns Ts} (h : TreeTuple fs) : TreeType (tupleP fs)
  | explicit {α : Type} {p : Parser α} (cls : Class) (tag : Nat) (h : TreeType p) :
      TreeType (explicitP cls tag p.parseBer)
  | implicit {α : Type} {p : Parser α} (cls : Class) (tag : Nat) (h : TreeType p) :
      TreeType (implicitP cls tag p)
  | struct {Ts : List Type} {fs : Fields Ts} (tag : Nat) (h : TreeFields fs) : TreeType (structP .ber tag fs)
  | choice {Ts : List Type} {vs : Variants Ts} (k : ChoiceKind) (h : TreeVariants vs) :
      TreeType (choiceP .ber k vs)
  | alias {α : Type} {p : Parser α} (h : TreeType p) : TreeType (aliasP p)

/-- The components of a tuple. -/
inductive TreeTuple : {Ts : List Type} → TupFns Ts → Prop
  | nil : TreeTuple .nil
  | cons {T : Type} {Ts : List Type} {p : Parser T} {fs : TupFns Ts} (h : TreeType p) (ht : TreeTuple fs) :
      TreeTuple (.cons p.parseBer fs)

/-- The fields of a struct. -/
inductive TreeFields : {Ts : List Type} → Fields Ts → Prop
  | nil : TreeFields .nil
  | required {T : Type} {Ts : List Type} {p : Parser T} {fs : Fields Ts} (tag : FieldTag) (h : TreeType p)
      (ht : TreeFields fs) : TreeFields (.cons (.required tag p) fs)
  | optional {T : Type} {Ts : List Type} {p : Parser T} {fs : Fields Ts} (tag : FieldTag) (h : TreeType p)
      (hu : tag = .untagged → ∃ e, PrimitiveOnly .ber p e) (ht : TreeFields fs) :
      TreeFields (.cons (.optional tag p) fs)
  | default {T : Type} {Ts : List Type} {p : Parser T} {fs : Fields Ts} (tag : FieldTag) (x : T)
      (h : TreeType p) (hu : tag = .untagged → ∃ e, PrimitiveOnly .ber p e) (ht : TreeFields fs) :
      TreeFields (.cons (.default tag p x) fs)

/-- The variants of a CHOICE. -/
inductive TreeVariants : {Ts : List Type} → Variants Ts → Prop
  | nil : TreeVariants .nil
  | cons {T : Type} {Ts : List Type} {p : Parser T} {vs : Variants Ts} (tag : Nat) (h : TreeType p)
      (ht : TreeVariants vs) : TreeVariants (.cons tag p vs)

end

/-! ### `from_ber` -/

mutual

/-- `TryFrom<Any>` of the types whose values do not hold encoded octets; their `from_ber` is `fromBerWith` of it.
OPTIONAL fields may be of any of these types, tagged or not. -/
inductive TreeFrom : {α : Type} → (Any → Except SErr α) → Prop
  | simple {α : Type} {p : Parser α} (h : TreeType p) : TreeFrom (tryFromAny p)
  /-- `Vec<T>` and `SequenceOf<T>` (16), `SetOf<T>` (17) -/
  | vec {α : Type} {f : Any → Except SErr α} (tag : Nat) (h : TreeFrom f) : TreeFrom (seqTryFrom tag (fromBerWith f))
  | set {α σ : Type} {f : Any → Except SErr α} (S : SetImpl α σ) (h : TreeFrom f) :
      TreeFrom (setTryFrom S (fromBerWith f))
  | explicit {α : Type} {f : Any → Except SErr α} (cls : Class) (tag : Nat) (h : TreeFrom f) :
      TreeFrom (explicitTryFrom cls tag (fromBerWith f))
  | implicit {α : Type} {f : Any → Except SErr α} (cls : Class) (tag innerTag : Nat) (h : TreeFrom f) :
      TreeFrom (implicitTryFrom cls tag innerTag f)
  | struct {Ts : List Type} {fs : SliceFields Ts} (tag : Nat) (h : TreeSlices fs) : TreeFrom (structTryFrom tag fs)
  | alias {α : Type} {f : Any → Except SErr α} (h : TreeFrom f) : TreeFrom (aliasTryFrom f)

/-- The fields of a struct. -/
inductive TreeSlices : {Ts : List Type} → SliceFields Ts → Prop
  | nil : TreeSlices .nil
  | required {T : Type} {Ts : List Type} {f : Any → Except SErr T} {n : Nat} {acc : Nat → Bool} {fs : SliceFields Ts}
      (tag : FieldTag) (h : TreeFrom f) (ht : TreeSlices fs) :
      TreeSlices (.cons (.required tag ⟨fromBerWith f, f, n, acc⟩) fs)
  | optional {T : Type} {Ts : List Type} {f : Any → Except SErr T} {n : Nat} {acc : Nat → Bool} {fs : SliceFields Ts}
      (tag : FieldTag) (h : TreeFrom f) (ht : TreeSlices fs) :
      TreeSlices (.cons (.optional tag ⟨fromBerWith f, f, n, acc⟩) fs)
  | default {T : Type} {Ts : List Type} {f : Any → Except SErr T} {n : Nat} {acc : Nat → Bool} {fs : SliceFields Ts}
      (tag : FieldTag) (x : T) (h : TreeFrom f) (ht : TreeSlices fs) :
      TreeSlices (.cons (.default tag ⟨fromBerWith f, f, n, acc⟩ x) fs)

end

end Asn1.Spec

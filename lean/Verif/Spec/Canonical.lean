import Verif.Spec.DerTree
/-!
# The canonical form of what a decoder has read

`Canon t pd rep Ok F`: a type built from the universal types with the type constructors of the crate, nested in
any way, with the encoder `t` and the DER parser `pd`; `rep` gives a decoded value to the encoder. `F w id cs`
says that an object with the class, the constructed flag and the tag number `id` and with the content `cs` is
written in the canonical way for a value of the shape of `w`. It speaks of the headers, of what follows what, and
of the form of times, of two string types and of REAL; it says nothing else of the contents of primitive objects. `Ok w`
are the conditions on a value and on each of its parts: fewer than `2^24` content bytes (C18), no struct with an
IMPLICIT field as in C54, and for some universal types that the value can be encoded at all (`CanonLeaf`).
-/
namespace Asn1.Spec
open Asn1

/-- `bs` is one object: shortest identifier octets (X.690 8.1.2), shortest length octets of the definite form
(10.1), and a content as `F` demands for this identifier. -/
def OneObject (F : Class × Bool × Nat → Bytes → Prop) (bs : Bytes) : Prop :=
  ∃ c p tag id len cs, tag < 2 ^ 32 ∧ X690Ident c p tag id ∧ DerLen cs.length len ∧
    bs = id ++ len ++ cs ∧ F (c, p, tag) cs

/-- One object after the other, one for each value of the list, and nothing else. -/
def OneEach {β : Type} (F : β → Class × Bool × Nat → Bytes → Prop) : List β → Bytes → Prop
  | [], bs => bs = []
  | w :: ws, bs => ∃ b rest, bs = b ++ rest ∧ OneObject (F w) b ∧ OneEach F ws rest

/-- The same, and each of the objects is decoded as the value of the list at its place. -/
def OneForEach {β : Type} (pd : Parser β) (F : β → Class × Bool × Nat → Bytes → Prop) : List β → Bytes → Prop
  | [], bs => bs = []
  | w :: ws, bs => ∃ b rest, bs = b ++ rest ∧ OneObject (F w) b ∧
      (∃ i r, i.data = b ∧ pd.parseDer i = .ok (r, w)) ∧ OneForEach pd F ws rest

/-- EXPLICIT tagging: the content is one complete object, and nothing else. -/
def Explicitly (cls : Class) (n : Nat) (F : Class × Bool × Nat → Bytes → Prop) :
    Class × Bool × Nat → Bytes → Prop :=
  fun id cs => id = (cls, true, n) ∧ OneObject F cs

/-- IMPLICIT tagging: the class and the number are replaced, the constructed flag is not. -/
def Implicitly (cls : Class) (n : Nat) (F : Class × Bool × Nat → Bytes → Prop) :
    Class × Bool × Nat → Bytes → Prop :=
  fun id cs => id.1 = cls ∧ id.2.2 = n ∧ ∃ c g, F (c, id.2.1, g) cs

/-- A field of a struct with its tag. -/
def FieldForm (tag : FieldTag) (F : Class × Bool × Nat → Bytes → Prop) : Class × Bool × Nat → Bytes → Prop :=
  match tag with
  | .untagged => F
  | .explicit cls n => Explicitly cls n F
  | .implicit cls n => Implicitly cls n F

/-- A variant of a CHOICE with its tag. -/
def VariantForm (k : ChoiceKind) (n : Nat) (F : Class × Bool × Nat → Bytes → Prop) :
    Class × Bool × Nat → Bytes → Prop :=
  match k with
  | .untagged => F
  | .explicit => Explicitly .contextSpecific n F
  | .implicit => Implicitly .contextSpecific n F

/-- The canonical contents of a REAL (X.690 8.5.9, 11.3.1): none for zero, one octet for the infinities and NaN, and
the binary form of DER for the other numbers, here of at most 53 bits. -/
def CanonReal (cs : Bytes) : Prop :=
  cs = [] ∨ cs = [0x40] ∨ cs = [0x41] ∨ cs = [0x42] ∨ ∃ neg N E, DerBinary cs neg N E ∧ N < 2 ^ 53

/-- The universal types: `Ok` are the values considered, `K` is what is demanded of the content. A UTCTime has
13 bytes, so it is of the form `YYMMDDhhmmssZ`; a GeneralizedTime has 15, so it is of the form `YYYYMMDDhhmmssZ`;
a BMPString consists of whole 16-bit units. -/
inductive CanonLeaf : {α : Type} → Codec α → (α → Prop) → (Bytes → Prop) → Prop
  | uint (N : Nat) (hN : 1 ≤ N ∧ N ≤ 16) : CanonLeaf (uintC N) (fun _ => True) fun _ => True
  | int (N : Nat) (hN : 1 ≤ N ∧ N ≤ 16) : CanonLeaf (intC N) (fun _ => True) fun _ => True
  | integer : CanonLeaf integerC (fun _ => True) fun _ => True
  | bool : CanonLeaf boolC (fun _ => True) fun _ => True
  | null : CanonLeaf nullC (fun _ => True) fun _ => True
  | enumerated : CanonLeaf enumC (fun _ => True) fun _ => True
  | octetString : CanonLeaf octetC (fun _ => True) fun _ => True
  | bitString : CanonLeaf bitC (fun _ => True) fun _ => True
  | oid : CanonLeaf oidC (fun _ => True) fun _ => True
  | utcTime : CanonLeaf utcC (fun _ => True) fun cs => cs.length = 13
  | generalizedTime : CanonLeaf genC (fun t => t.millisecond = none) fun cs => cs.length = 15
  | text {k : StrKind} {tag : Nat} {A : Char → Bool} (hk : StringType k tag A) :
      CanonLeaf (strC k) (fun _ => True) fun _ => True
  | refStr : CanonLeaf refStrC (fun _ => True) fun _ => True
  | string : CanonLeaf stringC (fun _ => True) fun _ => True
  | bmpString : CanonLeaf bmpC (fun _ => True) fun cs => cs.length % 2 = 0
  | universalString : CanonLeaf univC (fun s => ∀ c ∈ s, c.toNat < 0x80) fun _ => True
  /-- REAL, for the values that decode to themselves (C73). -/
  | real (lib : FloatLib) : CanonLeaf (realC lib) RealValue CanonReal

mutual

/-- The canonical form of a type. -/
inductive Canon : {α β : Type} → ToBer α → Parser β → (β → α) → (β → Prop) →
    (β → Class × Bool × Nat → Bytes → Prop) → Prop
  | universal {α : Type} {c : Codec α} {Ok : α → Prop} {K : Bytes → Prop} (h : CanonLeaf c Ok K) :
      Canon c.enc c.der id (fun v => Ok v ∧ SmallContent c.enc v) fun _ id cs =>
        id = (.universal, false, c.tag) ∧ K cs
  /-- Any object, with the content as it is. -/
  | any : Canon anyToBer anyDer id (fun a => a.header.tag < 2 ^ 32 ∧ SmallContent anyToBer a) fun a id _ =>
      id = (a.header.cls, a.header.constructed, a.header.tag)
  | vec {α β : Type} {t : ToBer α} {pd : Parser β} {rep Ok F} (h : Canon t pd rep Ok F) :
      Canon (listToBer 16 t) (vecDer pd) (List.map rep)
        (fun ws => (∀ w ∈ ws, Ok w) ∧ SmallContent (listToBer 16 t) (ws.map rep)) fun ws id cs =>
        id = (.universal, true, 16) ∧ OneEach F ws cs
  | sequenceOf {α β : Type} {t : ToBer α} {pd : Parser β} {rep Ok F} (h : Canon t pd rep Ok F) :
      Canon (listToBer 16 t) (sequenceOfP anyDer.parseDer pd) (fun s => s.items.map rep)
        (fun s => (∀ w ∈ s.items, Ok w) ∧ SmallContent (listToBer 16 t) (s.items.map rep)) fun s id cs =>
        id = (.universal, true, 16) ∧ OneEach F s.items cs
  | setOf {α β : Type} {t : ToBer α} {pd : Parser β} {rep Ok F} (h : Canon t pd rep Ok F) :
      Canon (listToBer 17 t) (setOfP anyDer.parseDer pd) (fun s => s.items.map rep)
        (fun s => (∀ w ∈ s.items, Ok w) ∧ SmallContent (listToBer 17 t) (s.items.map rep)) fun s id cs =>
        id = (.universal, true, 17) ∧ OneEach F s.items cs
  /-- `BTreeSet` and `HashSet`, of values that the encoder takes as they are and that come back when encoded and
  decoded (C106): each member once, in the order in which the set yields them. -/
  | set {α σ : Type} {t : ToBer α} {pd : Parser α} {Ok F} (S : SetImpl α σ) (h : Canon t pd id Ok F)
      (hb : ∀ i r w, pd.parseDer i = .ok (r, w) → Ok w → InputBack t pd.parseDer w w) :
      Canon (setToBer S t) (setP S anyDer.parseDer pd) id
        (fun s => (∀ w ∈ S.toList s, Ok w) ∧ SmallContent (setToBer S t) s) fun s id cs =>
        id = (.universal, true, 17) ∧ OneForEach pd F (S.toList s) cs
  | array {α β : Type} {t : ToBer α} {pd : Parser β} {rep Ok F} (N : Nat) (h : Canon t pd rep Ok F) :
      Canon (arrayToBer N t) (arrayP N anyDer.parseDer pd)
        (fun w => ⟨w.val.map rep, by rw [List.length_map, w.property]⟩)
        (fun w => (∀ x ∈ w.val, Ok x) ∧
          SmallContent (arrayToBer N t) ⟨w.val.map rep, by rw [List.length_map, w.property]⟩) fun w id cs =>
        id = (.universal, true, 16) ∧ OneEach F w.val cs
  /-- The raw `Sequence` and `Set`, with the content as it is. -/
  | raw (tag : Nat) (htag : tag < 2 ^ 32) :
      Canon (rawToBer tag) (rawP tag) id (SmallContent (rawToBer tag)) fun _ id _ =>
        id = (.universal, true, tag)
  | explicit {α β : Type} {t : ToBer α} {pd : Parser β} {rep Ok F} (cls : Class) (tag : Nat)
      (htag : tag < 2 ^ 32) {dynTag : α → Nat} (hdyn : ∀ v, dynTag v = (t.tagInfo v).2.2)
      (h : Canon t pd rep Ok F) :
      Canon (explicitToBer cls tag dynTag t) (explicitP cls tag pd.parseDer) (fun w => ⟨rep w.inner⟩)
        (fun w => Ok w.inner ∧ SmallContent (explicitToBer cls tag dynTag t) ⟨rep w.inner⟩) fun w =>
        Explicitly cls tag (F w.inner)
  | implicit {α β : Type} {t : ToBer α} {pd : Parser β} {rep Ok F} (cls : Class) (tag : Nat)
      (htag : tag < 2 ^ 32) {dynC : α → Bool} (hdyn : ∀ v, dynC v = (t.tagInfo v).2.1)
      (h : Canon t pd rep Ok F) :
      Canon (implicitToBer cls tag dynC t) (implicitP cls tag pd) (fun w => ⟨rep w.inner⟩)
        (fun w => Ok w.inner) fun w => Implicitly cls tag (F w.inner)
  | struct {Ts Us : List Type} {es : EncFields Ts} {fd : Fields Us} {reps Oks Fs} (tag : Nat)
      (htag : tag < 2 ^ 32) (h : CanonFields es fd reps Oks Fs) :
      Canon (structToBer tag es) (structP .der tag fd) reps
        (fun ws => Oks ws ∧ overcount es (reps ws) = 0 ∧ SmallContent (structToBer tag es) (reps ws))
        fun ws id cs => id = (.universal, true, tag) ∧ Fs ws cs
  | choice {Ts Us : List Type} {es : EncVariants Ts} {vd : Variants Us} {reps Oks Fs} (k : ChoiceKind)
      (h : CanonVariants k es vd reps Oks Fs) :
      Canon (choiceToBer k es) (choiceP .der k vd) reps
        (fun y => Oks y ∧ SmallContent (choiceToBer k es) (reps y)) Fs
  | enum (ds : List Nat) (hn : ds.Nodup) (hds : ∀ d ∈ ds, d < 2 ^ 32) :
      Canon (enumToBer ds) (enumP enumeratedDer ds) id (fun _ => True) fun _ id _ =>
        id = (.universal, false, 10)
  | alias {α β : Type} {t : ToBer α} {pd : Parser β} {rep Ok F} (h : Canon t pd rep Ok F) :
      Canon (aliasToBer t) (aliasP pd) (fun w => ⟨rep w.inner⟩) (fun w => Ok w.inner) fun w => F w.inner

/-- The fields of a struct: one object for each, in their order. A field with a DEFAULT value is there, even if
it has this value, as the encoder always writes it (C54); this value is one that can be decoded. -/
inductive CanonFields : {Ts Us : List Type} → EncFields Ts → Fields Us → (Tup Us → Tup Ts) → (Tup Us → Prop) →
    (Tup Us → Bytes → Prop) → Prop
  | nil : CanonFields .nil .nil (fun _ => ()) (fun _ => True) fun _ bs => bs = []
  | required {T U : Type} {Ts Us : List Type} {t : ToBer T} {pd : Parser U} {rep Ok F}
      {es : EncFields Ts} {fd : Fields Us} {reps Oks Fs} (tag : FieldTag) (hv : FieldTag.Valid tag)
      (h : Canon t pd rep Ok F) (ht : CanonFields es fd reps Oks Fs) :
      CanonFields (.cons tag t es) (.cons (.required tag pd) fd) (fun w => (rep w.1, reps w.2))
        (fun w => (Ok w.1 ∧ (tag ≠ .untagged → ∀ n, t.totalLen (rep w.1) = .definite n → n < 2 ^ 24)) ∧ Oks w.2)
        fun w bs => ∃ b rest, bs = b ++ rest ∧ OneObject (FieldForm tag (F w.1)) b ∧ Fs w.2 rest
  | default {T U : Type} {Ts Us : List Type} {t : ToBer T} {pd : Parser U} {rep Ok F}
      {es : EncFields Ts} {fd : Fields Us} {reps Oks Fs} (tag : FieldTag) (x : U) (hv : FieldTag.Valid tag)
      (h : Canon t pd rep Ok F) (hx : ∃ i r, i.data.length < 2 ^ 64 ∧ pd.parseDer i = .ok (r, x))
      (ht : CanonFields es fd reps Oks Fs) :
      CanonFields (.cons tag t es) (.cons (.default tag pd x) fd) (fun w => (rep w.1, reps w.2))
        (fun w => (Ok w.1 ∧ (tag ≠ .untagged → ∀ n, t.totalLen (rep w.1) = .definite n → n < 2 ^ 24)) ∧ Oks w.2)
        fun w bs => ∃ b rest, bs = b ++ rest ∧ OneObject (FieldForm tag (F w.1)) b ∧ Fs w.2 rest

/-- The variants of a CHOICE. -/
inductive CanonVariants : ChoiceKind → {Ts Us : List Type} → EncVariants Ts → Variants Us →
    (HSum Us → HSum Ts) → (HSum Us → Prop) → (HSum Us → Class × Bool × Nat → Bytes → Prop) → Prop
  | nil {k : ChoiceKind} {rep Ok F} : CanonVariants k .nil .nil rep Ok F
  | cons {k : ChoiceKind} {T U : Type} {Ts Us : List Type} {t : ToBer T} {pd : Parser U} {rep Ok F}
      {es : EncVariants Ts} {vd : Variants Us} {reps Oks Fs} {n : Nat} (hn : n < 2 ^ 32)
      {dyn : T → Class × Bool × Nat} (hdyn : ∀ v, dyn v = t.tagInfo v) (h : Canon t pd rep Ok F)
      (ht : CanonVariants k es vd reps Oks Fs) :
      CanonVariants k (.cons n dyn t es) (.cons n pd vd) (Sum.map rep reps : U ⊕ HSum Us → T ⊕ HSum Ts)
        (Sum.elim Ok Oks : U ⊕ HSum Us → Prop)
        (Sum.elim (fun w => VariantForm k n (F w)) Fs : U ⊕ HSum Us → Class × Bool × Nat → Bytes → Prop)

end

end Asn1.Spec

import Verif.Spec.Twins
import Verif.Spec.Ber
import Verif.Spec.Segmented
/-!
# The octets that a type accepts, and the value they denote

`Lang m p T L`: a type built from the universal types with the type constructors of the crate, nested in any way, with
the parser `p` for BER or DER (`m`). `L w x cs`: an object whose identifier octets say `x` (class, constructed flag, tag
number) and whose content is `cs` denotes the value `w`. `T` are the tag numbers that the type accepts. Nothing here
refers to what a parser does, but for parsers of the user.
-/
namespace Asn1.Spec
open Asn1

/-- `o` is one object that says `x`, with the content `cs`. In DER: a definite length. In BER also: constructed, an
indefinite length, complete objects (at most 48 levels of indefinite lengths) and end-of-contents octets. The content is
what stands before the last two octets. -/
def Holds (m : Rules) (x : Identity) (cs o : Bytes) : Prop :=
  Written x cs o ∨ m = .ber ∧ x.2.1 = true ∧ ∃ id len items eoc two, Ident x.1 x.2.1 x.2.2 id ∧
    Len x.2.1 .indefinite len ∧ Items LaxEoc (Elem LaxEoc 48) items eoc ∧ two.length = 2 ∧
    items.flatten ++ eoc = cs ++ two ∧ o = id ++ len ++ (cs ++ two)

/-- Objects of BER one after the other, up to the end or to the first one with the tag number 0: the segments of a string.
(`Objects` in `Spec/Segmented.lean` says this in terms of the generic parser; C141 shows that it is the same.) -/
inductive LangObjects : Bytes → List Obj → Prop
  | nil : LangObjects [] []
  | eoc {x : Identity} {cs o rest : Bytes} (h : Holds .ber x cs o) (h0 : x.2.2 = 0) : LangObjects (o ++ rest) []
  | cons {x : Identity} {cs o rest : Bytes} {os : List Obj} (h : Holds .ber x cs o) (h0 : x.2.2 ≠ 0)
      (ht : LangObjects rest os) : LangObjects (o ++ rest) (⟨x.2.1, x.2.2, cs⟩ :: os)

/-- One object with a tag number as in `T`, whose identifier and content are as in `F`. -/
def LangObject (m : Rules) (T : Nat → Prop) (F : Identity → Bytes → Prop) (o : Bytes) : Prop :=
  ∃ x cs, Holds m x cs o ∧ T x.2.2 ∧ F x cs

/-- One object after the other, one for each value of the list, and nothing else. -/
def LangEach {β : Type} (m : Rules) (T : Nat → Prop) (L : β → Identity → Bytes → Prop) : List β → Bytes → Prop
  | [], bs => bs = []
  | w :: ws, bs => ∃ o rest, bs = o ++ rest ∧ LangObject m T (L w) o ∧ LangEach m T L ws rest

/-- An EXPLICIT tag: a constructed object that begins with an object; what follows may be anything. -/
def LangExplicit (m : Rules) (cls : Class) (n : Nat) (T : Nat → Prop) (F : Identity → Bytes → Prop) :
    Identity → Bytes → Prop :=
  fun x cs => x = (cls, true, n) ∧ ∃ o rest, cs = o ++ rest ∧ LangObject m T F o

/-- An IMPLICIT tag: the class is checked, and the content is that of the type. -/
def LangImplicit (cls : Class) (F : Identity → Bytes → Prop) : Identity → Bytes → Prop :=
  fun x cs => x.1 = cls ∧ F x cs

/-- A field of a struct with its tag. -/
def LangField (m : Rules) (tag : FieldTag) (T : Nat → Prop) (F : Identity → Bytes → Prop) (o : Bytes) : Prop :=
  match tag with
  | .untagged => LangObject m T F o
  | .explicit cls n => LangObject m (· = n) (LangExplicit m cls n T F) o
  | .implicit cls n => LangObject m (· = n) (LangImplicit cls F) o

/-- The same for a field that may be missing: without a tag it must have a definite length. -/
def LangPresent (m : Rules) (tag : FieldTag) (T : Nat → Prop) (F : Identity → Bytes → Prop) (o : Bytes) : Prop :=
  match tag with
  | .untagged => LangObject .der T F o
  | _ => LangField m tag T F o

/-- The field is missing: nothing is left, or identifier and length octets with another tag number come next. -/
def LangAbsent (m : Rules) (tag : FieldTag) (T : Nat → Prop) (bs : Bytes) : Prop :=
  bs = [] ∨ ∃ c p t l id len rest, Ident c p t id ∧ Len p l len ∧ bs = id ++ len ++ rest ∧
    (m = .der → l ≠ .indefinite) ∧
    match tag with
    | .untagged => ¬ T t
    | .explicit _ n => t ≠ n
    | .implicit _ n => t ≠ n

/-- The tag numbers that select a variant of a CHOICE. -/
def LangSelects (k : ChoiceKind) (n : Nat) (T : Nat → Prop) (t : Nat) : Prop :=
  match k with
  | .untagged => T t
  | _ => t = n

/-- The payload of a variant. -/
def LangPayload (m : Rules) (k : ChoiceKind) (T : Nat → Prop) (F : Identity → Bytes → Prop) : Identity → Bytes → Prop :=
  match k with
  | .explicit => fun x cs => x.2.1 = true ∧ ∃ o rest, cs = o ++ rest ∧ LangObject m T F o
  | _ => F

/-- The bits that the content of a primitive BIT STRING holds: the first octet is the number of unused bits. -/
def LangBits (cs : Bytes) (v : BitString) : Prop :=
  ∃ u bytes, cs = u :: bytes ∧ u.toNat ≤ 7 ∧ u.toNat ≤ 8 * bytes.length ∧ v = ⟨bytes, 8 * bytes.length - u.toNat⟩

/-- What the contents of the universal types denote, by the constructed flag. -/
inductive LeafLang : Rules → {α : Type} → Codec α → (α → Bool → Bytes → Prop) → Prop
  | uint (m : Rules) (N : Nat) (hN : 1 ≤ N) : LeafLang m (uintC N) fun v p cs =>
      p = false ∧ (m = .der → MinimalInt cs) ∧ InUint N (twos cs) ∧ (v : Int) = twos cs
  | int (N : Nat) (hN : 1 ≤ N) : LeafLang .der (intC N) fun v p cs =>
      p = false ∧ MinimalInt cs ∧ InInt N v ∧ v = twos cs
  /-- A negative number must not have more octets than the type. -/
  | intBer (N : Nat) (hN : 1 ≤ N) : LeafLang .ber (intC N) fun v p cs =>
      p = false ∧ InInt N v ∧ v = twos cs ∧ (v < 0 → cs.length ≤ N)
  | integer (m : Rules) : LeafLang m integerC fun v p cs => p = false ∧ (m = .der → MinimalInt cs) ∧ cs ≠ [] ∧ v = ⟨cs⟩
  | bool : LeafLang .der boolC fun v p cs => p = false ∧ cs = [if v then 0xff else 0]
  | boolBer : LeafLang .ber boolC fun v p cs => p = false ∧ ∃ b : UInt8, cs = [b] ∧ (v = true ↔ b ≠ 0)
  | null (m : Rules) : LeafLang m nullC fun _ p cs => p = false ∧ cs = []
  | enumerated (m : Rules) : LeafLang m enumC fun v p cs =>
      p = false ∧ (m = .der → MinimalInt cs) ∧ InUint 4 (twos cs) ∧ (v : Int) = twos cs
  | octetString : LeafLang .der octetC fun v p cs => p = false ∧ v = cs
  /-- Segments are joined, as are those of the other strings. -/
  | octetStringBer : LeafLang .ber octetC fun v p cs => StringBytes p cs v
  | bitString : LeafLang .der bitC fun v p cs => p = false ∧ LangBits cs v
  | bitStringBer : LeafLang .ber bitC fun v p cs => (p = false ∧ LangBits cs v) ∨ (p = true ∧
      Segs 3 LangBits (fun vs => BitString.ofBits (vs.map (·.bits)).flatten) 5 true cs v)
  | oid (m : Rules) : LeafLang m oidC fun v p cs => p = false ∧ cs ≠ [] ∧ v = ⟨cs, false⟩
  | utcTime (m : Rules) : LeafLang m utcC fun v p cs => p = false ∧ UtcText cs v
  | generalizedTime : LeafLang .der genC fun v p cs =>
      p = false ∧ GenText cs v ∧ cs.getLast? = some 0x5a ∧ 0x2c ∉ cs
  | generalizedTimeBer : LeafLang .ber genC fun v p cs => p = false ∧ GenText cs v
  | text {k : StrKind} {tag : Nat} {A : Char → Bool} (hk : StringType k tag A) : LeafLang .der (strC k) fun s p cs =>
      p = false ∧ cs = Text.utf8 s ∧ ∀ c ∈ s, A c = true
  | textBer {k : StrKind} {tag : Nat} {A : Char → Bool} (hk : StringType k tag A) : LeafLang .ber (strC k) fun s p cs =>
      StringBytes p cs (Text.utf8 s) ∧ ∀ c ∈ s, A c = true
  | refStr (m : Rules) : LeafLang m refStrC fun s p cs => p = false ∧ cs = Text.utf8 s
  | string : LeafLang .der stringC fun s p cs => p = false ∧ cs = Text.utf8 s
  | stringBer : LeafLang .ber stringC fun s p cs => StringBytes p cs (Text.utf8 s)
  | bmpString (m : Rules) : LeafLang m bmpC fun s p cs =>
      (m = .der → p = false) ∧ (p = false → cs ≠ []) ∧ BmpText cs s
  | universalString (m : Rules) : LeafLang m univC fun s p cs =>
      (m = .der → p = false) ∧ (p = false → cs ≠ []) ∧ cs = ucs4 s
  | real (m : Rules) (lib : FloatLib) : LeafLang m (realC lib) fun v p cs => p = false ∧ RealContent lib cs v

/-- The parser of a codec. -/
def Codec.parser {α : Type} (c : Codec α) : Rules → Parser α
  | .ber => c.ber
  | .der => c.der

/-- The parser of the objects in a list. -/
def anyParse : Rules → Input → PRes Any
  | .ber => anyBer.parseBer
  | .der => anyDer.parseDer

mutual

/-- The octets that denote a value of a type. -/
inductive Lang (m : Rules) : {β : Type} → Parser β → (Nat → Prop) → (β → Identity → Bytes → Prop) → Prop
  | universal {α : Type} {c : Codec α} {P} (h : LeafLang m c P) :
      Lang m (Codec.parser c m) (LeafTag c) fun w x cs => P w x.2.1 cs
  | vec {β : Type} {p : Parser β} {T L} (h : Lang m p T L) :
      Lang m (vecP (anyParse m) p) (· = 16) fun ws x cs => x.2.1 = true ∧ LangEach m T L ws cs
  | sequenceOf {β : Type} {p : Parser β} {T L} (h : Lang m p T L) :
      Lang m (sequenceOfP (anyParse m) p) (· = 16) fun s x cs => x.2.1 = true ∧ LangEach m T L s.items cs
  | setOf {β : Type} {p : Parser β} {T L} (h : Lang m p T L) :
      Lang m (setOfP (anyParse m) p) (· = 17) fun s x cs => x.2.1 = true ∧ LangEach m T L s.items cs
  /-- `BTreeSet` and `HashSet`: the set of the values of a list. -/
  | set {β σ : Type} (S : SetImpl β σ) {p : Parser β} {T L} (h : Lang m p T L) :
      Lang m (setP S (anyParse m) p) (· = 17) fun s x cs =>
        x.2.1 = true ∧ ∃ ws, s = S.ofList ws ∧ LangEach m T L ws cs
  | array {β : Type} {p : Parser β} {T L} (N : Nat) (h : Lang m p T L) :
      Lang m (arrayP N (anyParse m) p) (· = 16) fun w x cs => x.2.1 = true ∧ LangEach m T L w.val cs
  | raw (tag : Nat) : Lang m (rawP tag) (· = tag) fun w x cs => x.2.1 = true ∧ w = ⟨cs, false⟩
  | explicit {β : Type} {p : Parser β} {T L} (cls : Class) (tag : Nat) (h : Lang m p T L) :
      Lang m (explicitP cls tag (m.parse p)) (· = tag) fun w => LangExplicit m cls tag T (L w.inner)
  | implicit {β : Type} {p : Parser β} {T L} (cls : Class) (tag : Nat) (h : Lang m p T L) :
      Lang m (implicitP cls tag p) (· = tag) fun w => LangImplicit cls (L w.inner)
  | tuple {Us : List Type} {fs : TupFns Us} {Ls} (h : LangTuple m fs Ls) :
      Lang m (tupleP fs) (· = 16) fun ws _ cs => Ls ws cs
  | struct {Us : List Type} {fd : Fields Us} {Ls} (tag : Nat) (h : LangFields m fd Ls) :
      Lang m (structP m tag fd) (· = tag) fun ws x cs => x.2.1 = true ∧ Ls ws cs
  | choice {Us : List Type} {vd : Variants Us} {T L} (k : ChoiceKind) (h : LangVariants m k vd T L) :
      Lang m (choiceP m k vd) T L
  | enum (ds : List Nat) (hn : ds.Nodup) : Lang m (enumP (Codec.parser enumC m) ds) (· = 10) fun k x cs =>
      x.2.1 = false ∧ (m = .der → MinimalInt cs) ∧ InUint 4 (twos cs) ∧ ((ds[k] : Nat) : Int) = twos cs
  | alias {β : Type} {p : Parser β} {T L} (h : Lang m p T L) : Lang m (aliasP p) T fun w => L w.inner
  /-- The name given to what was read: the constructor of a struct or an enum. -/
  | named {β γ : Type} {p : Parser β} {T L} (f : β → γ) (h : Lang m p T L) :
      Lang m (p.map f) T fun w x cs => ∃ v, w = f v ∧ L v x cs
  /-- A type of the user, with what holds of it. -/
  | given {β : Type} {p : Parser β} {T L} (ht : ∀ t, p.acceptTag t = true ↔ T t)
      (hl : ∀ (h : Header) (i : Input) (w : β), (∀ n, h.length = .definite n → n = i.data.length) →
        (h.constructed = false → h.length = .definite i.data.length) →
        ((∃ r, p.content h i = .ok (r, w)) ↔ L w (h.cls, h.constructed, h.tag) i.data)) : Lang m p T L

/-- The components of a tuple, in their order; what follows may be anything. -/
inductive LangTuple (m : Rules) : {Us : List Type} → TupFns Us → (Tup Us → Bytes → Prop) → Prop
  | nil : LangTuple m .nil fun _ _ => True
  | cons {U : Type} {Us : List Type} {p : Parser U} {T L} {fs : TupFns Us} {Ls} (h : Lang m p T L)
      (ht : LangTuple m fs Ls) :
      LangTuple m (.cons (m.parse p) fs) fun w bs => ∃ o rest, bs = o ++ rest ∧ LangObject m T (L w.1) o ∧
        Ls w.2 rest

/-- The fields of a struct, in their order; what follows may be anything. -/
inductive LangFields (m : Rules) : {Us : List Type} → Fields Us → (Tup Us → Bytes → Prop) → Prop
  | nil : LangFields m .nil fun _ _ => True
  | required {U : Type} {Us : List Type} {p : Parser U} {T L} {fd : Fields Us} {Ls} (tag : FieldTag)
      (h : Lang m p T L) (ht : LangFields m fd Ls) :
      LangFields m (.cons (.required tag p) fd) fun w bs => ∃ o rest, bs = o ++ rest ∧
        LangField m tag T (L w.1) o ∧ Ls w.2 rest
  | optional {U : Type} {Us : List Type} {p : Parser U} {T L} {fd : Fields Us} {Ls} (tag : FieldTag)
      (h : Lang m p T L) (ht : LangFields m fd Ls) :
      LangFields m (.cons (.optional tag p) fd) fun w bs =>
        (∃ v o rest, w.1 = some v ∧ bs = o ++ rest ∧ LangPresent m tag T (L v) o ∧ Ls w.2 rest) ∨
        (w.1 = none ∧ LangAbsent m tag T bs ∧ Ls w.2 bs)
  | default {U : Type} {Us : List Type} {p : Parser U} {T L} {fd : Fields Us} {Ls} (tag : FieldTag) (x : U)
      (h : Lang m p T L) (ht : LangFields m fd Ls) :
      LangFields m (.cons (.default tag p x) fd) fun w bs =>
        (∃ o rest, bs = o ++ rest ∧ LangPresent m tag T (L w.1) o ∧ Ls w.2 rest) ∨
        (w.1 = x ∧ LangAbsent m tag T bs ∧ Ls w.2 bs)
  /-- A parser of the user, with what holds of it. -/
  | custom {U : Type} {Us : List Type} {f : Input → PRes U} {C : U → Bytes → Prop} {fd : Fields Us} {Ls}
      (h : ∀ i w rest, (∃ r, f i = .ok (r, w) ∧ r.data = rest) ↔ ∃ o, i.data = o ++ rest ∧ C w o)
      (ht : LangFields m fd Ls) :
      LangFields m (.cons (.custom f) fd) fun w bs => ∃ o rest, bs = o ++ rest ∧ C w.1 o ∧ Ls w.2 rest

/-- The variants of a CHOICE: the first one that the tag number selects. -/
inductive LangVariants (m : Rules) : ChoiceKind → {Us : List Type} → Variants Us → (Nat → Prop) →
    (HSum Us → Identity → Bytes → Prop) → Prop
  | nil {k : ChoiceKind} {L} : LangVariants m k .nil (fun _ => False) L
  | cons {k : ChoiceKind} {U : Type} {Us : List Type} {p : Parser U} {T L} {vd : Variants Us} {Ts Ls} (n : Nat)
      (h : Lang m p T L) (ht : LangVariants m k vd Ts Ls) :
      LangVariants m k (.cons n p vd) (fun t => LangSelects k n T t ∨ Ts t)
        (Sum.elim (fun w x cs => LangSelects k n T x.2.2 ∧ LangPayload m k T (L w) x cs)
          (fun y x cs => ¬ LangSelects k n T x.2.2 ∧ Ls y x cs) : U ⊕ HSum Us → Identity → Bytes → Prop)

end

end Asn1.Spec

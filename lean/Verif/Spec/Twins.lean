import Verif.Spec.Canonical
/-!
# Inputs that DER decoding does not tell apart

`Twins pd T A`: a type built from the universal types with the type constructors of the crate, nested in any way, with
the DER parser `pd`. `A w x cs x' cs'` says how two objects may differ from which the same value `w` is decoded: `x` and
`x'` are what the identifier octets say (class, constructed flag, tag number), `cs` and `cs'` are the contents. `T` are
the tag numbers the type accepts.
-/
namespace Asn1.Spec
open Asn1

/-- What identifier octets say. -/
abbrev Identity := Class × Bool × Nat

/-- `o` is one object that says `x`, with the content `cs`: identifier octets and length octets of the definite form,
each in any of the forms that the parser reads (C03). -/
def Written (x : Identity) (cs o : Bytes) : Prop :=
  ∃ id len, Ident x.1 x.2.1 x.2.2 id ∧ Len x.2.1 (.definite cs.length) len ∧ o = id ++ len ++ cs

/-- Two objects that differ as `A` says, apart from the form of the identifier and length octets. -/
def TwinObject (T : Nat → Prop) (A : Identity → Bytes → Identity → Bytes → Prop) (o o' : Bytes) : Prop :=
  ∃ x cs x' cs', Written x cs o ∧ Written x' cs' o' ∧ T x.2.2 ∧ T x'.2.2 ∧ A x cs x' cs'

/-- One object after the other, one for each value of the list, and nothing else, in both. -/
def TwinEach {β : Type} (T : Nat → Prop) (A : β → Identity → Bytes → Identity → Bytes → Prop) : List β → Bytes → Bytes → Prop
  | [], bs, bs' => bs = [] ∧ bs' = []
  | w :: ws, bs, bs' => ∃ o rest o' rest', bs = o ++ rest ∧ bs' = o' ++ rest' ∧ TwinObject T (A w) o o' ∧
      TwinEach T A ws rest rest'

/-- Objects one after the other, each of one of the values, and nothing else, in both: the same values, in any order and
any number of times. Two objects of the same value differ as `A` says. -/
def TwinMembers {β : Type} (T : Nat → Prop) (A : β → Identity → Bytes → Identity → Bytes → Prop) (bs bs' : Bytes) :
    Prop :=
  ∃ ws ws' : List (β × Bytes), bs = (ws.map (·.2)).flatten ∧ bs' = (ws'.map (·.2)).flatten ∧
    (∀ w, w ∈ ws.map (·.1) ↔ w ∈ ws'.map (·.1)) ∧
    ∀ w o o', (w, o) ∈ ws → (w, o') ∈ ws' → TwinObject T (A w) o o'

/-- Both begin with such an object; what follows may be anything. -/
def TwinFirst (T : Nat → Prop) (A : Identity → Bytes → Identity → Bytes → Prop) (bs bs' : Bytes) : Prop :=
  ∃ o rest o' rest', bs = o ++ rest ∧ bs' = o' ++ rest' ∧ TwinObject T A o o'

/-- A constructed object of the class `cls` in which an object lies, and anything after it. -/
def Enclosed (cls : Class) (T : Nat → Prop) (A : Identity → Bytes → Identity → Bytes → Prop) : Identity → Bytes → Identity → Bytes → Prop :=
  fun x cs x' cs' => (x.1 = cls ∧ x.2.1 = true) ∧ (x'.1 = cls ∧ x'.2.1 = true) ∧ TwinFirst T A cs cs'

/-- An object of the class `cls` with the content of another one. -/
def Renamed (cls : Class) (A : Identity → Bytes → Identity → Bytes → Prop) : Identity → Bytes → Identity → Bytes → Prop :=
  fun x cs x' cs' => x.1 = cls ∧ x'.1 = cls ∧ A x cs x' cs'

/-- A field of a struct with its tag. -/
def TwinField (tag : FieldTag) (T : Nat → Prop) (A : Identity → Bytes → Identity → Bytes → Prop) (o o' : Bytes) : Prop :=
  match tag with
  | .untagged => TwinObject T A o o'
  | .explicit cls n => TwinObject (· = n) (Enclosed cls T A) o o'
  | .implicit cls n => TwinObject (· = n) (Renamed cls A) o o'

/-- A variant of a CHOICE with its tag; the class is not looked at. -/
def TwinVariant (k : ChoiceKind) (n : Nat) (T : Nat → Prop) (A : Identity → Bytes → Identity → Bytes → Prop) :
    Identity → Bytes → Identity → Bytes → Prop :=
  match k with
  | .untagged => fun x cs x' cs' => T x.2.2 ∧ T x'.2.2 ∧ A x cs x' cs'
  | .explicit => fun x cs x' cs' => (x.2.1 = true ∧ x.2.2 = n) ∧ (x'.2.1 = true ∧ x'.2.2 = n) ∧ TwinFirst T A cs cs'
  | .implicit => fun x cs x' cs' => x.2.2 = n ∧ x'.2.2 = n ∧ A x cs x' cs'

/-- The tag numbers that a universal type accepts: its own; `Oid` accepts that of RELATIVE-OID too. -/
def LeafTag {α : Type} (c : Codec α) (t : Nat) : Prop := t = c.tag ∨ c.tag = 6 ∧ t = 13

mutual

/-- How two objects may differ from which the same value is decoded. -/
inductive Twins : {β : Type} → Parser β → (Nat → Prop) → (β → Identity → Bytes → Identity → Bytes → Prop) → Prop
  /-- The content of a universal type is determined by the value, if it is of the form that `CanonLeaf` demands: nothing
  is demanded but for times, BMPString and REAL. -/
  | universal {α : Type} {c : Codec α} {Ok : α → Prop} {K : Bytes → Prop} (h : CanonLeaf c Ok K) :
      Twins c.der (LeafTag c) fun w _ cs _ cs' => Ok w → K cs → K cs' → cs = cs'
  /-- UniversalString: the values that cannot be encoded too. -/
  | universalString : Twins univC.der (· = 28) fun _ _ cs _ cs' => cs = cs'
  | any : Twins anyDer (fun _ => True) fun _ x cs x' cs' => x = x' ∧ cs = cs'
  | vec {β : Type} {pd : Parser β} {T A} (h : Twins pd T A) :
      Twins (vecDer pd) (· = 16) fun ws x cs x' cs' => x.2.1 = true ∧ x'.2.1 = true ∧ TwinEach T A ws cs cs'
  | sequenceOf {β : Type} {pd : Parser β} {T A} (h : Twins pd T A) :
      Twins (sequenceOfP anyDer.parseDer pd) (· = 16) fun s x cs x' cs' =>
        x.2.1 = true ∧ x'.2.1 = true ∧ TwinEach T A s.items cs cs'
  | setOf {β : Type} {pd : Parser β} {T A} (h : Twins pd T A) :
      Twins (setOfP anyDer.parseDer pd) (· = 17) fun s x cs x' cs' =>
        x.2.1 = true ∧ x'.2.1 = true ∧ TwinEach T A s.items cs cs'
  /-- `BTreeSet` and `HashSet`. -/
  | set {β σ : Type} (S : SetImpl β σ) {pd : Parser β} {T A} (h : Twins pd T A) :
      Twins (setP S anyDer.parseDer pd) (· = 17) fun _ x cs x' cs' =>
        x.2.1 = true ∧ x'.2.1 = true ∧ TwinMembers T A cs cs'
  | array {β : Type} {pd : Parser β} {T A} (N : Nat) (h : Twins pd T A) :
      Twins (arrayP N anyDer.parseDer pd) (· = 16) fun w x cs x' cs' =>
        x.2.1 = true ∧ x'.2.1 = true ∧ TwinEach T A w.val cs cs'
  | raw (tag : Nat) : Twins (rawP tag) (· = tag) fun _ x cs x' cs' => x.2.1 = true ∧ x'.2.1 = true ∧ cs = cs'
  | explicit {β : Type} {pd : Parser β} {T A} (cls : Class) (tag : Nat) (h : Twins pd T A) :
      Twins (explicitP cls tag pd.parseDer) (· = tag) fun w => Enclosed cls T (A w.inner)
  | implicit {β : Type} {pd : Parser β} {T A} (cls : Class) (tag : Nat) (h : Twins pd T A) :
      Twins (implicitP cls tag pd) (· = tag) fun w => Renamed cls (A w.inner)
  | tuple {Us : List Type} {fs : TupFns Us} {As} (h : TwinTuple fs As) :
      Twins (tupleP fs) (· = 16) fun ws _ cs _ cs' => As ws cs cs'
  | struct {Us : List Type} {fd : Fields Us} {As} (tag : Nat) (h : TwinFields fd As) :
      Twins (structP .der tag fd) (· = tag) fun ws x cs x' cs' => x.2.1 = true ∧ x'.2.1 = true ∧ As ws cs cs'
  | choice {Us : List Type} {vd : Variants Us} {As} (k : ChoiceKind) (h : TwinVariants k vd As) :
      Twins (choiceP .der k vd) (fun _ => True) As
  | enum (ds : List Nat) (hn : ds.Nodup) : Twins (enumP enumeratedDer ds) (· = 10) fun _ _ cs _ cs' => cs = cs'
  | alias {β : Type} {pd : Parser β} {T A} (h : Twins pd T A) : Twins (aliasP pd) T fun w => A w.inner
  /-- Any other type (a type of the user): nothing is said of it. -/
  | other {β : Type} (pd : Parser β) : Twins pd (fun _ => True) fun _ _ _ _ _ => True

/-- The components of a tuple, in their order; what follows may be anything. -/
inductive TwinTuple : {Us : List Type} → TupFns Us → (Tup Us → Bytes → Bytes → Prop) → Prop
  | nil : TwinTuple .nil fun _ _ _ => True
  | cons {U : Type} {Us : List Type} {pd : Parser U} {T A} {fs : TupFns Us} {As} (h : Twins pd T A)
      (ht : TwinTuple fs As) :
      TwinTuple (.cons pd.parseDer fs) fun w bs bs' => ∃ o rest o' rest', bs = o ++ rest ∧ bs' = o' ++ rest' ∧
        TwinObject T (A w.1) o o' ∧ As w.2 rest rest'

/-- The fields of a struct, in their order; what follows may be anything. A field with a DEFAULT value may be missing in
one of the two, if it has this value. -/
inductive TwinFields : {Us : List Type} → Fields Us → (Tup Us → Bytes → Bytes → Prop) → Prop
  | nil : TwinFields .nil fun _ _ _ => True
  | required {U : Type} {Us : List Type} {pd : Parser U} {T A} {fd : Fields Us} {As} (tag : FieldTag)
      (h : Twins pd T A) (ht : TwinFields fd As) :
      TwinFields (.cons (.required tag pd) fd) fun w bs bs' => ∃ o rest o' rest', bs = o ++ rest ∧
        bs' = o' ++ rest' ∧ TwinField tag T (A w.1) o o' ∧ As w.2 rest rest'
  | optional {U : Type} {Us : List Type} {pd : Parser U} {T A} {fd : Fields Us} {As} (tag : FieldTag)
      (h : Twins pd T A) (ht : TwinFields fd As) :
      TwinFields (.cons (.optional tag pd) fd) fun w bs bs' => ∃ o rest o' rest', bs = o ++ rest ∧
        bs' = o' ++ rest' ∧ As w.2 rest rest' ∧
        match w.1 with
        | some v => TwinField tag T (A v) o o'
        | none => o = [] ∧ o' = []
  | default {U : Type} {Us : List Type} {pd : Parser U} {T A} {fd : Fields Us} {As} (tag : FieldTag) (x : U)
      (h : Twins pd T A) (ht : TwinFields fd As) :
      TwinFields (.cons (.default tag pd x) fd) fun w bs bs' => ∃ o rest o' rest', bs = o ++ rest ∧
        bs' = o' ++ rest' ∧ As w.2 rest rest' ∧ (TwinField tag T (A w.1) o o' ∨ w.1 = x ∧ (o = [] ∨ o' = []))
  /-- A parser of the user, with what holds of it. -/
  | custom {U : Type} {Us : List Type} {f : Input → PRes U} {C : U → Bytes → Bytes → Prop} {fd : Fields Us} {As}
      (h : ∀ i i' r r' w, f i = .ok (r, w) → f i' = .ok (r', w) →
        ∃ o o', i.data = o ++ r.data ∧ i'.data = o' ++ r'.data ∧ C w o o') (ht : TwinFields fd As) :
      TwinFields (.cons (.custom f) fd) fun w bs bs' => ∃ o rest o' rest', bs = o ++ rest ∧ bs' = o' ++ rest' ∧
        C w.1 o o' ∧ As w.2 rest rest'

/-- The variants of a CHOICE: the value tells the variant. -/
inductive TwinVariants : ChoiceKind → {Us : List Type} → Variants Us → (HSum Us → Identity → Bytes → Identity → Bytes → Prop) →
    Prop
  | nil {k : ChoiceKind} {A} : TwinVariants k .nil A
  | cons {k : ChoiceKind} {U : Type} {Us : List Type} {pd : Parser U} {T A} {vd : Variants Us} {As} (n : Nat)
      (h : Twins pd T A) (ht : TwinVariants k vd As) :
      TwinVariants k (.cons n pd vd)
        (Sum.elim (fun w => TwinVariant k n T (A w)) As : U ⊕ HSum Us → Identity → Bytes → Identity → Bytes → Prop)

end

end Asn1.Spec

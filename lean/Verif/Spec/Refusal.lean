import Verif.Spec.Fault
import Verif.Spec.Built
import Verif.Spec.Derive
import Verif.Spec.Place
/-!
# Where an error comes from

`Fails m p i loc e`: a decoder `p`, however the type is composed, meets something at `i` that it does not accept:
the first thing that is wrong is at `loc`, and the error for it is `e`. A composed type adds no errors but those
about its own header and the number of its items; every other error is that of the first part that is not accepted.
-/
namespace Asn1.Spec
open Asn1

/-- The types without parts. -/
inductive Simple : {α : Type} → Rules → Parser α → Prop
  | decoder {α : Type} {m : Rules} {k : Kind} {p : Parser α} (h : DecoderOf m k p) : Simple m p
  | real (m : Rules) (lib : FloatLib) : Simple m (realP lib)
  | f64 (m : Rules) (lib : FloatLib) : Simple m (f64P lib)
  | f32 (m : Rules) (lib : FloatLib) : Simple m (f32P lib)
  | any : Simple .ber (anyBer.map anyParts)
  | anyDer : Simple .der (anyDer.map anyParts)
  | embeddedPdv (m : Rules) : Simple m pdvP

/-- `P` decodes collections of items that `p` decodes. -/
inductive Collection : {α β : Type} → Rules → Parser α → Parser β → Prop
  | vec {α : Type} (p : Parser α) : Collection .ber p (vecBer p)
  | vecDer {α : Type} (p : Parser α) : Collection .der p (vecDer p)
  | sequenceOf {α : Type} (p : Parser α) : Collection .ber p (sequenceOfP anyBer.parseBer p)
  | sequenceOfDer {α : Type} (p : Parser α) : Collection .der p (sequenceOfP anyDer.parseDer p)
  | setOf {α : Type} (p : Parser α) : Collection .ber p (setOfP anyBer.parseBer p)
  | setOfDer {α : Type} (p : Parser α) : Collection .der p (setOfP anyDer.parseDer p)
  | set {α σ : Type} (S : SetImpl α σ) (p : Parser α) : Collection .ber p (setP S anyBer.parseBer p)
  | setDer {α σ : Type} (S : SetImpl α σ) (p : Parser α) : Collection .der p (setP S anyDer.parseDer p)
  | array {α : Type} (N : Nat) (p : Parser α) : Collection .ber p (arrayP N anyBer.parseBer p)
  | arrayDer {α : Type} (N : Nat) (p : Parser α) : Collection .der p (arrayP N anyDer.parseDer p)

/-- `f` may be missing: it has the attribute `optional` or `default`. -/
inductive MayMiss {T : Type} (tag : FieldTag) (p : Parser T) : {U : Type} → Field U → Prop
  | optional : MayMiss tag p (.optional tag p)
  | default (x : T) : MayMiss tag p (.default tag p x)

mutual

/-- What is wrong at `i`, where an object of the type should be. -/
inductive Fails (m : Rules) : {α : Type} → Parser α → Input → Input → InnerError → Prop
  /-- the header cannot be read -/
  | header {α : Type} {p : Parser α} {i loc : Input} {e : InnerError} :
      m.header i = .error (.error loc e) → Fails m p i loc e
  /-- it has another tag -/
  | tag {α : Type} {p : Parser α} {i r : Input} {h : Header} :
      m.header i = .ok (r, h) → p.acceptTag h.tag = false → Fails m p i i (.unexpectedTag none h.tag)
  /-- the end of the content is not found -/
  | content {α : Type} {p : Parser α} {i loc r : Input} {h : Header} {e : InnerError} :
      m.header i = .ok (r, h) → p.acceptTag h.tag = true → m.any i = .error (.error loc e) → Fails m p i loc e
  /-- there is an object, and it is not accepted -/
  | object {α : Type} {p : Parser α} {i loc r : Input} {a : Any} {e : InnerError} :
      m.any i = .ok (r, a) → p.acceptTag a.header.tag = true → Refuses m p a.header a.data loc e →
      Fails m p i loc e

/-- What is wrong with an object, given its header and content. -/
inductive Refuses (m : Rules) : {α : Type} → Parser α → Header → Input → Input → InnerError → Prop
  | leaf {α : Type} {p : Parser α} {h : Header} {c loc : Input} {e : InnerError} :
      Simple m p → p.content h c = .error (.error loc e) → Refuses m p h c loc e
  | rawForm {tag : Nat} {h : Header} {c : Input} :
      h.constructed = false → Refuses m (rawP tag) h c c .constructExpected
  /-- a collection must be constructed -/
  | collectionForm {α β : Type} {p : Parser α} {P : Parser β} {h : Header} {c : Input} :
      Collection m p P → h.constructed = false → Refuses m P h c c .constructExpected
  /-- the first item that is not accepted -/
  | item {α β : Type} {p : Parser α} {P : Parser β} {h : Header} {c loc : Input} {e : InnerError} :
      Collection m p P → h.constructed = true → ItemsFail m p c loc e → Refuses m P h c loc e
  /-- an array has a fixed number of items -/
  | arraySize {α : Type} {p : Parser α} {N : Nat} {h : Header} {c j : Input} {vs : List α} :
      h.constructed = true → ItemsRead m.any p c vs j → j.data = [] → vs.length ≠ N →
      Refuses m (arrayP N m.any p) h c c .invalidLength
  | tuple {Ts : List Type} {fs : TupFns Ts} {h : Header} {c loc : Input} {e : InnerError} :
      TupleFails m fs c loc e → Refuses m (tupleP fs) h c loc e
  | explicitForm {α : Type} {p : Parser α} {cls : Class} {tag : Nat} {h : Header} {c : Input} :
      h.constructed = false → Refuses m (explicitP cls tag (m.parse p)) h c c .constructExpected
  | explicitClass {α : Type} {p : Parser α} {cls : Class} {tag : Nat} {h : Header} {c : Input} :
      h.constructed = true → h.cls ≠ cls →
      Refuses m (explicitP cls tag (m.parse p)) h c c (.unexpectedClass (some cls) h.cls)
  | explicitTag {α : Type} {p : Parser α} {cls : Class} {tag : Nat} {h : Header} {c : Input} :
      h.constructed = true → h.cls = cls → h.tag ≠ tag →
      Refuses m (explicitP cls tag (m.parse p)) h c c (.unexpectedTag (some tag) h.tag)
  /-- the value in an EXPLICIT tag -/
  | explicit {α : Type} {p : Parser α} {cls : Class} {tag : Nat} {h : Header} {c loc : Input} {e : InnerError} :
      h.constructed = true → h.cls = cls → h.tag = tag → Fails m p c loc e →
      Refuses m (explicitP cls tag (m.parse p)) h c loc e
  | implicitClass {α : Type} {p : Parser α} {cls : Class} {tag : Nat} {h : Header} {c : Input} :
      h.cls ≠ cls → Refuses m (implicitP cls tag p) h c c (.unexpectedClass (some cls) h.cls)
  /-- the value under an IMPLICIT tag -/
  | implicit {α : Type} {p : Parser α} {cls : Class} {tag : Nat} {h : Header} {c loc : Input} {e : InnerError} :
      h.cls = cls → Refuses m p h c loc e → Refuses m (implicitP cls tag p) h c loc e
  | structForm {Ts : List Type} {fs : Fields Ts} {tag : Nat} {h : Header} {c : Input} :
      h.constructed = false → Refuses m (structP m tag fs) h c c .constructExpected
  /-- the first field that is not accepted -/
  | field {Ts : List Type} {fs : Fields Ts} {tag : Nat} {h : Header} {c loc : Input} {e : InnerError} :
      h.constructed = true → FieldsFail m fs c loc e → Refuses m (structP m tag fs) h c loc e
  | choiceForm {Ts : List Type} {vs : Variants Ts} {h : Header} {c : Input} :
      h.constructed = false → Refuses m (choiceP m .explicit vs) h c c .constructExpected
  /-- the variant that the tag selects -/
  | variant {Ts : List Type} {vs : Variants Ts} {k : ChoiceKind} {h : Header} {c loc : Input} {e : InnerError} :
      (k = .explicit → h.constructed = true) → VariantsFail m k vs h c loc e →
      Refuses m (choiceP m k vs) h c loc e
  | alias {α : Type} {p : Parser α} {h : Header} {c loc : Input} {e : InnerError} :
      Refuses m p h c loc e → Refuses m (aliasP p) h c loc e

/-- What is wrong with the items from `i` on. -/
inductive ItemsFail (m : Rules) : {α : Type} → Parser α → Input → Input → InnerError → Prop
  | unreadable {α : Type} {p : Parser α} {i loc : Input} {e : InnerError} :
      i.data ≠ [] → m.any i = .error (.error loc e) → ItemsFail m p i loc e
  | truncated {α : Type} {p : Parser α} {i : Input} {n : Nat} :
      i.data ≠ [] → m.any i = .error (.incomplete n) → ItemsFail m p i i (.incomplete (.size n))
  | tag {α : Type} {p : Parser α} {i r : Input} {a : Any} :
      m.any i = .ok (r, a) → p.acceptTag a.header.tag = false →
      ItemsFail m p i a.data (.unexpectedTag none a.header.tag)
  | item {α : Type} {p : Parser α} {i r loc : Input} {a : Any} {e : InnerError} :
      m.any i = .ok (r, a) → p.acceptTag a.header.tag = true → Refuses m p a.header a.data loc e →
      ItemsFail m p i loc e
  | later {α : Type} {p : Parser α} {i r x loc : Input} {a : Any} {v : α} {e : InnerError} :
      m.any i = .ok (r, a) → p.acceptTag a.header.tag = true → p.content a.header a.data = .ok (x, v) →
      ItemsFail m p r loc e → ItemsFail m p i loc e

/-- What is wrong with the components of a tuple, from `i` on. -/
inductive TupleFails (m : Rules) : {Ts : List Type} → TupFns Ts → Input → Input → InnerError → Prop
  | here {T : Type} {Ts : List Type} {p : Parser T} {fs : TupFns Ts} {i loc : Input} {e : InnerError} :
      Fails m p i loc e → TupleFails m (.cons (m.parse p) fs) i loc e
  | later {T : Type} {Ts : List Type} {p : Parser T} {fs : TupFns Ts} {i r loc : Input} {v : T} {e : InnerError} :
      m.parse p i = .ok (r, v) → TupleFails m fs r loc e → TupleFails m (.cons (m.parse p) fs) i loc e

/-- What is wrong at `i`, where the value of a field should be. -/
inductive ValueFails (m : Rules) : {T : Type} → FieldTag → Parser T → Input → Input → InnerError → Prop
  | untagged {T : Type} {p : Parser T} {i loc : Input} {e : InnerError} :
      Fails m p i loc e → ValueFails m .untagged p i loc e
  | explicit {T : Type} {p : Parser T} {cls : Class} {n : Nat} {i loc : Input} {e : InnerError} :
      Fails m (explicitP cls n (m.parse p)) i loc e → ValueFails m (.explicit cls n) p i loc e
  | implicit {T : Type} {p : Parser T} {cls : Class} {n : Nat} {i loc : Input} {e : InnerError} :
      Fails m (implicitP cls n p) i loc e → ValueFails m (.implicit cls n) p i loc e

/-- What is wrong at `i`, where a field should or may be. -/
inductive FieldFails (m : Rules) : {T : Type} → Field T → Input → Input → InnerError → Prop
  | required {T : Type} {tag : FieldTag} {p : Parser T} {i loc : Input} {e : InnerError} :
      ValueFails m tag p i loc e → FieldFails m (.required tag p) i loc e
  /-- whether the field is there cannot be seen -/
  | unreadable {T U : Type} {f : Field U} {tag : FieldTag} {p : Parser T} {i loc : Input} {e : InnerError} :
      MayMiss tag p f → i.data ≠ [] → m.header i = .error (.error loc e) → FieldFails m f i loc e
  /-- the field is there, and not accepted -/
  | announced {T U : Type} {f : Field U} {tag : FieldTag} {p : Parser T} {i r loc : Input} {h : Header}
      {e : InnerError} : MayMiss tag p f → m.header i = .ok (r, h) → Announces p tag h.tag →
      (tag = .untagged → h.length ≠ .indefinite) → ValueFails m tag p i loc e → FieldFails m f i loc e
  /-- an untagged field that may be missing cannot have an indefinite length (deviation, C35): the end marker is
  looked for in the content -/
  | indefinite {T U : Type} {f : Field U} {p : Parser T} {i r loc : Input} {h : Header} {e : InnerError} :
      MayMiss .untagged p f → m.header i = .ok (r, h) → p.acceptTag h.tag = true → h.length = .indefinite →
      optionParse m.header p i = .error (.error loc e) → FieldFails m f i loc e

/-- What is wrong with the fields of a struct, from `i` on. -/
inductive FieldsFail (m : Rules) : {Ts : List Type} → Fields Ts → Input → Input → InnerError → Prop
  | here {T : Type} {Ts : List Type} {f : Field T} {fs : Fields Ts} {i loc : Input} {e : InnerError} :
      FieldFails m f i loc e → FieldsFail m (.cons f fs) i loc e
  | later {T : Type} {Ts : List Type} {f : Field T} {fs : Fields Ts} {i r loc : Input} {v : T} {e : InnerError} :
      ReadsField m f i v r → FieldsFail m fs r loc e → FieldsFail m (.cons f fs) i loc e

/-- What is wrong with an object of a CHOICE type. -/
inductive VariantsFail (m : Rules) : ChoiceKind → {Ts : List Type} → Variants Ts → Header → Input → Input →
    InnerError → Prop
  /-- no variant has the tag (under an IMPLICIT tag) -/
  | none {k : ChoiceKind} {h : Header} {c : Input} : VariantsFail m k .nil h c c (.unexpectedTag none h.tag)
  | explicit {T : Type} {Ts : List Type} {tag : Nat} {p : Parser T} {vs : Variants Ts} {h : Header} {c loc : Input}
      {e : InnerError} : h.tag = tag → Fails m p c loc e → VariantsFail m .explicit (.cons tag p vs) h c loc e
  | implicit {T : Type} {Ts : List Type} {tag : Nat} {p : Parser T} {vs : Variants Ts} {h : Header} {c loc : Input}
      {e : InnerError} : h.tag = tag → Refuses m p h c loc e → VariantsFail m .implicit (.cons tag p vs) h c loc e
  | untagged {T : Type} {Ts : List Type} {tag : Nat} {p : Parser T} {vs : Variants Ts} {h : Header} {c loc : Input}
      {e : InnerError} : p.acceptTag h.tag = true → Refuses m p h c loc e →
      VariantsFail m .untagged (.cons tag p vs) h c loc e
  | later {k : ChoiceKind} {T : Type} {Ts : List Type} {tag : Nat} {p : Parser T} {vs : Variants Ts} {h : Header}
      {c loc : Input} {e : InnerError} : (k = .untagged → p.acceptTag h.tag = false) →
      (k ≠ .untagged → h.tag ≠ tag) → VariantsFail m k vs h c loc e → VariantsFail m k (.cons tag p vs) h c loc e

end

end Asn1.Spec

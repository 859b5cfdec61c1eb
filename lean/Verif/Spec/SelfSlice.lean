import Verif.Spec.DeriveSlice
import Verif.Spec.Codec
/-!
# Types that contain themselves: the byte-slice API

As in `Spec/Recursive.lean`, for `TryFrom<Any>` (to which `from_ber` leads) and for `FromDer`: the derived function calls
the one of a field, which calls it again. It is a function `f` with `f = F f`, where `F` is the text of the type. The first
parameter says whether the types in which the type does not occur are required to return always.
-/
namespace Asn1.Spec
open Asn1

mutual

/-- The text of `TryFrom<Any>` of a type in which the type `ρ` occurs. The flag says whether every occurrence is within
another object. -/
inductive SelfFrom (safe : Bool) (ρ : Type) : Bool → {α : Type} → ((Any → Except SErr ρ) → Any → Except SErr α) → Prop
  /-- The type itself. -/
  | self : SelfFrom safe ρ false fun f => f
  /-- A type in which it does not occur. -/
  | fixed {α : Type} (f : Any → Except SErr α) (hs : safe = true → ∀ a, NoPanicS (f a)) : SelfFrom safe ρ true fun _ => f
  /-- To know more than needed. -/
  | weaken {α : Type} {F : (Any → Except SErr ρ) → Any → Except SErr α} (h : SelfFrom safe ρ true F) :
      SelfFrom safe ρ false F
  /-- The name given to what was read: the constructor of a struct. -/
  | named {g : Bool} {α β : Type} {F : (Any → Except SErr ρ) → Any → Except SErr α} (c : α → β)
      (h : SelfFrom safe ρ g F) : SelfFrom safe ρ g fun f a => (F f a).map c
  /-- `Vec<T>` and `SequenceOf<T>` (16), `SetOf<T>` (17) -/
  | vec {g : Bool} {α : Type} {F : (Any → Except SErr ρ) → Any → Except SErr α} (tag : Nat) (h : SelfFrom safe ρ g F) :
      SelfFrom safe ρ true fun f => seqTryFrom tag (fromBerWith (F f))
  | set {g : Bool} {α σ : Type} {F : (Any → Except SErr ρ) → Any → Except SErr α} (S : SetImpl α σ)
      (h : SelfFrom safe ρ g F) : SelfFrom safe ρ true fun f => setTryFrom S (fromBerWith (F f))
  | explicit {g : Bool} {α : Type} {F : (Any → Except SErr ρ) → Any → Except SErr α} (cls : Class) (tag : Nat)
      (h : SelfFrom safe ρ g F) : SelfFrom safe ρ true fun f => explicitTryFrom cls tag (fromBerWith (F f))
  | implicit {g : Bool} {α : Type} {F : (Any → Except SErr ρ) → Any → Except SErr α} (cls : Class) (tag innerTag : Nat)
      (h : SelfFrom safe ρ g F) : SelfFrom safe ρ g fun f => implicitTryFrom cls tag innerTag (F f)
  | struct {Ts : List Type} {fs : (Any → Except SErr ρ) → SliceFields Ts} (tag : Nat) (h : SelfSlices safe ρ fs) :
      SelfFrom safe ρ true fun f => structTryFrom tag (fs f)
  | alias {g : Bool} {α : Type} {F : (Any → Except SErr ρ) → Any → Except SErr α} (h : SelfFrom safe ρ g F) :
      SelfFrom safe ρ g fun f => aliasTryFrom (F f)

/-- The fields of a struct, for `from_ber`. -/
inductive SelfSlices (safe : Bool) (ρ : Type) : {Ts : List Type} → ((Any → Except SErr ρ) → SliceFields Ts) → Prop
  | nil : SelfSlices safe ρ fun _ => .nil
  | required {g : Bool} {T : Type} {Ts : List Type} {F : (Any → Except SErr ρ) → Any → Except SErr T}
      {fs : (Any → Except SErr ρ) → SliceFields Ts} (tag : FieldTag) (n : Nat) (acc : Nat → Bool)
      (h : SelfFrom safe ρ g F) (ht : SelfSlices safe ρ fs) :
      SelfSlices safe ρ fun f => .cons (.required tag ⟨fromBerWith (F f), F f, n, acc⟩) (fs f)
  | optional {g : Bool} {T : Type} {Ts : List Type} {F : (Any → Except SErr ρ) → Any → Except SErr T}
      {fs : (Any → Except SErr ρ) → SliceFields Ts} (tag : FieldTag) (n : Nat) (acc : Nat → Bool)
      (h : SelfFrom safe ρ g F) (ht : SelfSlices safe ρ fs) :
      SelfSlices safe ρ fun f => .cons (.optional tag ⟨fromBerWith (F f), F f, n, acc⟩) (fs f)
  | default {g : Bool} {T : Type} {Ts : List Type} {F : (Any → Except SErr ρ) → Any → Except SErr T}
      {fs : (Any → Except SErr ρ) → SliceFields Ts} (tag : FieldTag) (n : Nat) (acc : Nat → Bool) (x : T)
      (h : SelfFrom safe ρ g F) (ht : SelfSlices safe ρ fs) :
      SelfSlices safe ρ fun f => .cons (.default tag ⟨fromBerWith (F f), F f, n, acc⟩ x) (fs f)

end

mutual

/-- The text of `FromDer`. An IMPLICIT tag and a derived alias call `TryFrom<Any>`, not `FromDer`: they are among the
types in which `FromDer` of the type does not occur. -/
inductive SelfFromDer (safe : Bool) (ρ : Type) : Bool → {α : Type} →
    ((Bytes → Except SErr (Bytes × ρ)) → Bytes → Except SErr (Bytes × α)) → Prop
  | self : SelfFromDer safe ρ false fun d => d
  /-- It consumes something of what it accepts. -/
  | fixed {α : Type} (d : Bytes → Except SErr (Bytes × α)) (hc : ∀ b r v, d b = .ok (r, v) → r.length < b.length)
      (hs : safe = true → ∀ b, NoPanicS (d b)) : SelfFromDer safe ρ true fun _ => d
  | weaken {α : Type} {D : (Bytes → Except SErr (Bytes × ρ)) → Bytes → Except SErr (Bytes × α)}
      (h : SelfFromDer safe ρ true D) : SelfFromDer safe ρ false D
  | named {g : Bool} {α β : Type} {D : (Bytes → Except SErr (Bytes × ρ)) → Bytes → Except SErr (Bytes × α)} (c : α → β)
      (h : SelfFromDer safe ρ g D) : SelfFromDer safe ρ g fun d b => (D d b).map fun x => (x.1, c x.2)
  | vec {g : Bool} {α : Type} {D : (Bytes → Except SErr (Bytes × ρ)) → Bytes → Except SErr (Bytes × α)} (tag : Nat)
      (h : SelfFromDer safe ρ g D) : SelfFromDer safe ρ true fun d => seqFromDer tag (D d)
  | set {g : Bool} {α σ : Type} {D : (Bytes → Except SErr (Bytes × ρ)) → Bytes → Except SErr (Bytes × α)}
      (S : SetImpl α σ) (h : SelfFromDer safe ρ g D) : SelfFromDer safe ρ true fun d => setFromDer S (D d)
  | explicit {g : Bool} {α : Type} {D : (Bytes → Except SErr (Bytes × ρ)) → Bytes → Except SErr (Bytes × α)}
      (cls : Class) (tag : Nat) (h : SelfFromDer safe ρ g D) :
      SelfFromDer safe ρ true fun d => explicitFromDer cls tag (D d)
  | struct {Ts : List Type} {fs : (Bytes → Except SErr (Bytes × ρ)) → SliceFields Ts} (tag : Nat)
      (h : SelfSlicesDer safe ρ fs) : SelfFromDer safe ρ true fun d => structFromDer tag (fs d)

/-- The fields of a struct, for `from_der`. -/
inductive SelfSlicesDer (safe : Bool) (ρ : Type) : {Ts : List Type} →
    ((Bytes → Except SErr (Bytes × ρ)) → SliceFields Ts) → Prop
  | nil : SelfSlicesDer safe ρ fun _ => .nil
  | required {g : Bool} {T : Type} {Ts : List Type} {D : (Bytes → Except SErr (Bytes × ρ)) → Bytes → Except SErr (Bytes × T)}
      {fs : (Bytes → Except SErr (Bytes × ρ)) → SliceFields Ts} (tag : FieldTag) (f : Any → Except SErr T) (n : Nat)
      (acc : Nat → Bool) (hs : safe = true → ∀ a, NoPanicS (f a)) (h : SelfFromDer safe ρ g D)
      (ht : SelfSlicesDer safe ρ fs) : SelfSlicesDer safe ρ fun d => .cons (.required tag ⟨D d, f, n, acc⟩) (fs d)
  | optional {g : Bool} {T : Type} {Ts : List Type} {D : (Bytes → Except SErr (Bytes × ρ)) → Bytes → Except SErr (Bytes × T)}
      {fs : (Bytes → Except SErr (Bytes × ρ)) → SliceFields Ts} (tag : FieldTag) (f : Any → Except SErr T) (n : Nat)
      (acc : Nat → Bool) (hs : safe = true → ∀ a, NoPanicS (f a)) (h : SelfFromDer safe ρ g D)
      (ht : SelfSlicesDer safe ρ fs) : SelfSlicesDer safe ρ fun d => .cons (.optional tag ⟨D d, f, n, acc⟩) (fs d)
  | default {g : Bool} {T : Type} {Ts : List Type} {D : (Bytes → Except SErr (Bytes × ρ)) → Bytes → Except SErr (Bytes × T)}
      {fs : (Bytes → Except SErr (Bytes × ρ)) → SliceFields Ts} (tag : FieldTag) (f : Any → Except SErr T) (n : Nat)
      (acc : Nat → Bool) (x : T) (hs : safe = true → ∀ a, NoPanicS (f a)) (h : SelfFromDer safe ρ g D)
      (ht : SelfSlicesDer safe ρ fs) : SelfSlicesDer safe ρ fun d => .cons (.default tag ⟨D d, f, n, acc⟩ x) (fs d)

end

/-- The decoders of the types of the fields return on every input. -/
inductive ReturningSlices : {Ts : List Type} → SliceFields Ts → Prop
  | nil : ReturningSlices .nil
  | required {T : Type} {Ts : List Type} {fs : SliceFields Ts} (tag : FieldTag) (ty : SliceType T)
      (h1 : ∀ b, NoPanicS (ty.from_ b)) (h2 : ∀ a, NoPanicS (ty.tryFrom a)) (ht : ReturningSlices fs) :
      ReturningSlices (.cons (.required tag ty) fs)
  | optional {T : Type} {Ts : List Type} {fs : SliceFields Ts} (tag : FieldTag) (ty : SliceType T)
      (h1 : ∀ b, NoPanicS (ty.from_ b)) (h2 : ∀ a, NoPanicS (ty.tryFrom a)) (ht : ReturningSlices fs) :
      ReturningSlices (.cons (.optional tag ty) fs)
  | default {T : Type} {Ts : List Type} {fs : SliceFields Ts} (tag : FieldTag) (ty : SliceType T) (x : T)
      (h1 : ∀ b, NoPanicS (ty.from_ b)) (h2 : ∀ a, NoPanicS (ty.tryFrom a)) (ht : ReturningSlices fs) :
      ReturningSlices (.cons (.default tag ty x) fs)

/-- `n` calls of the function by itself, one within the other; at the next one it is `base`. -/
def nestedCalls {γ : Type} (F : γ → γ) (base : γ) : Nat → γ
  | 0 => base
  | n + 1 => F (nestedCalls F base n)

end Asn1.Spec

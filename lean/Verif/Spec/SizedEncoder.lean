import Verif.Model.SizedEncoder
import Verif.Spec.EncodeWork
/-!
# Specification: the encoders of C138

`Sized u t s p`: `t` is the encoder of a type made of the universal types by the type constructors of the crate, nested
in any way, with unbounded numbers; `s` is the encoder that computes with the `usize` of `u`; `p v` is a number of bytes
that is large enough for the value `v`: the content of every universal value in it, and for each value some bytes for its
header.
-/
namespace Asn1.Spec
open Asn1

/-- Room for a header: the bytes of the tag, and 17. -/
def room (tag : Nat) : Nat := berTagLength tag + 17

/-- The content of a value of a universal type: the length that is announced, and the number of bytes that is returned
after writing. -/
def contentRoom {α : Type} (t : ToBer α) (v : α) : Nat :=
  (match t.contentLen v with
    | .definite n => n
    | .indefinite => 0) +
  (match (t.writeContent v).exec.2 with
    | .ok n => n
    | .error _ => 0)

/-- Room for the tag of a field. -/
def fieldRoom : FieldTag → Nat
  | .untagged => 0
  | .explicit _ n => room n
  | .implicit _ n => room n

mutual

/-- The types. -/
inductive Sized (u : Arith) : {α : Type} → ToBer α → SizedToBer α → (α → Nat) → Prop
  | leaf {α : Type} {t : ToBer α} {n : Nat} (h : LengthCalls t n) :
      Sized u t (.leaf u t) fun v => room (t.tagInfo v).2.2 + contentRoom t v
  /-- `Vec`, `SequenceOf` (`tag` 16) and `SetOf` (17). -/
  | list {α : Type} {t : ToBer α} {s p} (tag : Nat) (h : Sized u t s p) :
      Sized u (listToBer tag t) (.items u tag id s) fun vs => room tag + (vs.map p).sum
  | set {α σ : Type} {t : ToBer α} {s p} (S : SetImpl α σ) (h : Sized u t s p) :
      Sized u (setToBer S t) (.items u 17 S.toList s) fun v => room 17 + ((S.toList v).map p).sum
  | array {α : Type} {t : ToBer α} {s p} (N : Nat) (h : Sized u t s p) :
      Sized u (arrayToBer N t) (.items u 16 Subtype.val s) fun v => room 16 + (v.val.map p).sum
  | indef {α : Type} {t : ToBer α} {s p} (h : Sized u t s p) :
      Sized u (indefToBer t) (.indef u s) fun vs => room 16 + 2 + (vs.map p).sum
  | anySet (H : HashImpl) : Sized u (anySetToBer H) (.items u 17 (AnySet.iter H) (.leaf u anyToBer))
      fun v => room 17 + ((v.iter H).map fun a => room a.header.tag + contentRoom anyToBer a).sum
  | explicit {α : Type} {t : ToBer α} {s p} (cls : Class) (tag : Nat) (dynTag : α → Nat) (h : Sized u t s p) :
      Sized u (explicitToBer cls tag dynTag t) (.explicit u cls tag dynTag s)
        fun v => room tag + (room (dynTag v.inner) + p v.inner)
  | implicit {α : Type} {t : ToBer α} {s p} (cls : Class) (tag : Nat) (dynC : α → Bool) (h : Sized u t s p) :
      Sized u (implicitToBer cls tag dynC t) (.implicit cls tag dynC s) fun v => room tag + p v.inner
  | alias {α : Type} {t : ToBer α} {s p} (h : Sized u t s p) :
      Sized u (aliasToBer t) (.alias s) fun v => p v.inner
  | struct {Ts : List Type} {es : EncFields Ts} {ss : SizedFields Ts} {ps} (tag : Nat) (h : SizedAll u es ss ps) :
      Sized u (structToBer tag es) (.struct u tag ss) fun v => room tag + ps v
  | choice {Ts : List Type} {es : EncVariants Ts} {ss : SizedVariants Ts} {ps} (k : ChoiceKind)
      (h : SizedEach u es ss ps) : Sized u (choiceToBer k es) (.choice u k ss) ps

/-- The fields of a struct. -/
inductive SizedAll (u : Arith) : {Ts : List Type} → EncFields Ts → SizedFields Ts → (Tup Ts → Nat) → Prop
  | nil : SizedAll u .nil .nil fun _ => 0
  | cons {T : Type} {Ts : List Type} {t : ToBer T} {s p} {es : EncFields Ts} {ss ps} (tag : FieldTag)
      (h : Sized u t s p) (ht : SizedAll u es ss ps) :
      SizedAll u (.cons tag t es) (.cons tag s ss) fun v => fieldRoom tag + p v.1 + ps v.2

/-- The variants of a CHOICE. -/
inductive SizedEach (u : Arith) : {Ts : List Type} → EncVariants Ts → SizedVariants Ts → (HSum Ts → Nat) → Prop
  | nil {p : HSum [] → Nat} : SizedEach u .nil .nil p
  | cons {T : Type} {Ts : List Type} {t : ToBer T} {s p} {es : EncVariants Ts} {ss ps} (n : Nat)
      (dyn : T → Class × Bool × Nat) (h : Sized u t s p) (ht : SizedEach u es ss ps) :
      SizedEach u (.cons n dyn t es) (.cons n dyn s ss)
        (Sum.elim (fun x => room n + room (dyn x).2.2 + p x) ps : T ⊕ HSum Ts → Nat)

end

end Asn1.Spec

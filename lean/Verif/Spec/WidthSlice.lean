import Verif.Model.WidthSlice
import Verif.Spec.Width
/-!
# Targets whose `usize` has `w` bits: the byte-slice API
-/
namespace Asn1.Spec
open Asn1

/-- Two answers are the same, or the second is `InvalidLength`. -/
def SameOrRefusedS {α : Type} (f g : Except SErr α) : Prop :=
  g = f ∨ g = .error (.error .invalidLength)

mutual

/-- The second conversion (`TryFrom<Any>`) is the first one compiled for a target whose `usize` has `w` bits. `from_ber`
is made from it. Fields may be OPTIONAL or have a DEFAULT only if `o` says so. -/
inductive CompiledTry (w : Nat) (o : Bool) : {α : Type} → (Any → Except SErr α) → (Any → Except SErr α) → Prop
  | plain {α : Type} {p p' : Parser α} (h : Compiled w .ber o p p') : CompiledTry w o (tryFromAny p) (tryFromAny p')
  | any : CompiledTry w o (fun a => .ok a : Any → Except SErr Any) (fun a => .ok a)
  | list {α : Type} {f f' : Any → Except SErr α} (tag : Nat) (h : CompiledTry w o f f') :
      CompiledTry w o (seqTryFrom tag (fromBerWith f)) (seqTryFrom tag (fromBerWithW w f'))
  | set {α σ : Type} {f f' : Any → Except SErr α} (S : SetImpl α σ) (h : CompiledTry w o f f') :
      CompiledTry w o (setTryFrom S (fromBerWith f)) (setTryFrom S (fromBerWithW w f'))
  | raw (tag : Nat) : CompiledTry w o (rawTryFrom tag) (rawTryFrom tag)
  | explicit {α : Type} {f f' : Any → Except SErr α} (cls : Class) (n : Nat) (h : CompiledTry w o f f') :
      CompiledTry w o (explicitTryFrom cls n (fromBerWith f)) (explicitTryFrom cls n (fromBerWithW w f'))
  | implicit {α : Type} {f f' : Any → Except SErr α} (cls : Class) (n t : Nat) (h : CompiledTry w o f f') :
      CompiledTry w o (implicitTryFrom cls n t f) (implicitTryFrom cls n t f')
  | struct {Ts : List Type} {fs fs' : SliceFields Ts} (tag : Nat) (h : CompiledSlices w o .ber fs fs') :
      CompiledTry w o (structTryFrom tag fs) (structTryFromW w tag fs')
  | alias {α : Type} {f f' : Any → Except SErr α} (h : CompiledTry w o f f') :
      CompiledTry w o (aliasTryFrom f) (aliasTryFrom f')

/-- The same for `from_der`. -/
inductive CompiledDer (w : Nat) (o : Bool) :
    {α : Type} → (Bytes → Except SErr (Bytes × α)) → (Bytes → Except SErr (Bytes × α)) → Prop
  | plain {α : Type} {p p' : Parser α} (check : Any → Except SErr Unit) (h : Compiled w .ber o p p') :
      CompiledDer w o (fromDer p check) (fromDerW w p' check)
  | any : CompiledDer w o (wrapBerParser parseDerAny) (wrapBerParser (parseDerAnyW w))
  | list {α : Type} {g g' : Bytes → Except SErr (Bytes × α)} (tag : Nat) (h : CompiledDer w o g g') :
      CompiledDer w o (seqFromDer tag g) (seqFromDerW w tag g')
  | set {α σ : Type} {g g' : Bytes → Except SErr (Bytes × α)} (S : SetImpl α σ) (h : CompiledDer w o g g') :
      CompiledDer w o (setFromDer S g) (setFromDerW w S g')
  | raw (tag : Nat) : CompiledDer w o (rawFromDer tag) (rawFromDerW w tag)
  | explicit {α : Type} {g g' : Bytes → Except SErr (Bytes × α)} (cls : Class) (n : Nat) (h : CompiledDer w o g g') :
      CompiledDer w o (explicitFromDer cls n g) (explicitFromDerW w cls n g')
  | implicit {α : Type} {f f' : Any → Except SErr α} (cls : Class) (n t : Nat) (h : CompiledTry w o f f') :
      CompiledDer w o (implicitFromDer cls n t f) (implicitFromDerW w cls n t f')
  | struct {Ts : List Type} {fs fs' : SliceFields Ts} (tag : Nat) (h : CompiledSlices w o .der fs fs') :
      CompiledDer w o (structFromDer tag fs) (structFromDerW w tag fs')
  | alias {α : Type} {f f' : Any → Except SErr α} (tag : Nat) (h : CompiledTry w o f f') :
      CompiledDer w o (aliasFromDer tag f) (aliasFromDerW w tag f')
  | aliasAny : CompiledDer w o aliasAnyFromDer (aliasAnyFromDerW w)

/-- The same for the type of a field. -/
inductive CompiledSlice (w : Nat) (o : Bool) : Rules → {α : Type} → SliceType α → SliceType α → Prop
  | ber {α : Type} {f f' : Any → Except SErr α} {n : Nat} {acc : Nat → Bool} (h : CompiledTry w o f f') :
      CompiledSlice w o .ber ⟨fromBerWith f, f, n, acc⟩ ⟨fromBerWithW w f', f', n, acc⟩
  | der {α : Type} {f f' : Any → Except SErr α} {g g' : Bytes → Except SErr (Bytes × α)} {n : Nat} {acc : Nat → Bool}
      (h : CompiledTry w o f f') (hd : CompiledDer w o g g') : CompiledSlice w o .der ⟨g, f, n, acc⟩ ⟨g', f', n, acc⟩

/-- The same for the fields of a struct. -/
inductive CompiledSlices (w : Nat) (o : Bool) : Rules → {Ts : List Type} → SliceFields Ts → SliceFields Ts → Prop
  | nil {m : Rules} : CompiledSlices w o m .nil .nil
  | required {m : Rules} {T : Type} {Ts : List Type} {ty ty' : SliceType T} {fs fs' : SliceFields Ts} {tag}
      (h : CompiledSlice w o m ty ty') (ht : CompiledSlices w o m fs fs') :
      CompiledSlices w o m (.cons (.required tag ty) fs) (.cons (.required tag ty') fs')
  | optional {m : Rules} {T : Type} {Ts : List Type} {ty ty' : SliceType T} {fs fs' : SliceFields Ts} {tag} (ho : o = true)
      (h : CompiledSlice w o m ty ty') (ht : CompiledSlices w o m fs fs') :
      CompiledSlices w o m (.cons (.optional tag ty) fs) (.cons (.optional tag ty') fs')
  | default {m : Rules} {T : Type} {Ts : List Type} {ty ty' : SliceType T} {fs fs' : SliceFields Ts} {tag} {x : T}
      (ho : o = true) (h : CompiledSlice w o m ty ty') (ht : CompiledSlices w o m fs fs') :
      CompiledSlices w o m (.cons (.default tag ty x) fs) (.cons (.default tag ty' x) fs')

end

end Asn1.Spec

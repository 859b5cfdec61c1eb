import Verif.Spec.RecursiveValue
/-!
# Values of two types that contain each other
-/
namespace Asn1.Spec
open Asn1

mutual
/-- `#[derive(BerParserSequence, DerParserSequence, ToBerSequence, ToDerSequence)]
struct Limb { label: u32, buds: Vec<Bud> }`. -/
inductive Limb where
  | mk (label : Nat) (buds : List Bud)

/-- `#[derive(BerParserSequence, DerParserSequence, ToBerSequence, ToDerSequence)]
struct Bud { open: bool, limbs: Vec<Limb> }`. -/
inductive Bud where
  | mk (opened : Bool) (limbs : List Limb)
end

/-- The fields. -/
def Limb.fields : Limb → Tup [Nat, List Bud]
  | .mk l bs => (l, bs, ())

/-- The fields. -/
def Bud.fields : Bud → Tup [Bool, List Limb]
  | .mk o ls => (o, ls, ())

mutual
/-- All labels are values of `u32`. -/
inductive Limb.Valid : Limb → Prop
  | mk {l : Nat} {bs : List Bud} (hl : l < 2 ^ 32) (hb : ∀ b ∈ bs, Bud.Valid b) : Limb.Valid (.mk l bs)

/-- All labels are values of `u32`. -/
inductive Bud.Valid : Bud → Prop
  | mk {o : Bool} {ls : List Limb} (hl : ∀ l ∈ ls, Limb.Valid l) : Bud.Valid (.mk o ls)
end

/-- The text of the parsers of a limb. -/
def limbF (m : Rules) (q : Parser Bud) : Parser Limb :=
  (structP m 16 (.cons (.required .untagged (match m with | .ber => (uintC 4).ber | .der => (uintC 4).der))
    (.cons (.required .untagged (match m with | .ber => vecBer q | .der => vecDer q)) .nil))).map
      fun v => .mk v.1 v.2.1

/-- The text of the parsers of a bud. -/
def budF (m : Rules) (p : Parser Limb) : Parser Bud :=
  (structP m 16 (.cons (.required .untagged (match m with | .ber => boolC.ber | .der => boolC.der))
    (.cons (.required .untagged (match m with | .ber => vecBer p | .der => vecDer p)) .nil))).map
      fun v => .mk v.1 v.2.1

/-- The text of the encoder of a limb. -/
def limbE (u : ToBer Bud) : ToBer Limb :=
  named (structToBer 16 (.cons .untagged (uintToBer 4) (.cons .untagged (listToBer 16 u) .nil))) Limb.fields

/-- The text of the encoder of a bud. -/
def budE (t : ToBer Limb) : ToBer Bud :=
  named (structToBer 16 (.cons .untagged boolC.enc (.cons .untagged (listToBer 16 t) .nil))) Bud.fields

end Asn1.Spec

import Verif.Props.Recursive
/-!
# C136: a type and the type of its components that contains it

`struct A { .. Vec<B> .. }` with `struct B { .. Option<A> .. }`: the text of each parser calls the other. `B` calls itself
only through `A`. Types of which each also calls itself directly are not covered here.
-/
namespace Asn1
open Spec
variable {real : Bool} {ρ σ : Type}

/-- **C136** Two types, each of which contains the other: there is one pair of parsers whose texts are these, under
BER and under DER. -/
theorem C136_mutual {Fb Fd : Parser σ → Parser ρ} {Gb Gd : Parser ρ → Parser σ}
    (h : SelfType real ρ true (fun p => Fb (Gb p)) (fun p => Fd (Gd p))) :
    (∃ p q, (p = Fb q ∧ q = Gb p) ∧ ∀ p' q', p' = Fb q' → q' = Gb p' → p' = p ∧ q' = q) ∧
    (∃ p q, (p = Fd q ∧ q = Gd p) ∧ ∀ p' q', p' = Fd q' → q' = Gd p' → p' = p ∧ q' = q) := by
  obtain ⟨⟨pb, hb, ub⟩, pd, hd, ud⟩ := C136_one_parser h
  refine ⟨⟨pb, Gb pb, ⟨hb, rfl⟩, fun p' q' h1 h2 => ?_⟩, pd, Gd pd, ⟨hd, rfl⟩, fun p' q' h1 h2 => ?_⟩
  · subst h2
    obtain rfl := ub p' h1
    exact ⟨rfl, rfl⟩
  · subst h2
    obtain rfl := ud p' h1
    exact ⟨rfl, rfl⟩

/-- **C136** Neither of the two panics, on any input; each returns only what the consumed bytes decide; and what
`parse_der` accepts, `parse_ber` accepts with the same value and the same remainder. -/
theorem C136_mutual_returns {g : Bool} {Fb Fd : Parser σ → Parser ρ} {Gb Gd : Parser ρ → Parser σ}
    (h : SelfType false ρ true (fun p => Fb (Gb p)) (fun p => Fd (Gd p))) (hG : SelfType false ρ g Gb Gd)
    {pb pd : Parser ρ} {qb qd : Parser σ} (hpb : pb = Fb qb) (hqb : qb = Gb pb) (hpd : pd = Fd qd) (hqd : qd = Gd pd) :
    (∀ i, NoPanic (pb.parseBer i) ∧ NoPanic (pd.parseDer i) ∧ NoPanic (qb.parseBer i) ∧ NoPanic (qd.parseDer i)) ∧
    (OnlyBytes pb.parseBer ∧ OnlyBytes pd.parseDer ∧ OnlyBytes qb.parseBer ∧ OnlyBytes qd.parseDer) ∧
    Accepts pd.parseDer pb.parseBer ∧ Accepts qd.parseDer qb.parseBer := by
  subst hqb hqd
  have fp := fixed_fine h hpb hpd
  have fq := selfType_fine hG fp
  exact ⟨fun i => ⟨(fp.noPanic rfl i).1, (fp.noPanic rfl i).2, (fq.noPanic rfl i).1, (fq.noPanic rfl i).2⟩,
    ⟨onlyBytes_ber fp.strong.1.loc, onlyBytes_der fp.strong.2.loc, onlyBytes_ber fq.strong.1.loc,
      onlyBytes_der fq.strong.2.loc⟩, fp.accepts, fq.accepts⟩

/-! ### A case: `struct Stem { label: u32, shoots: Vec<Shoot> }`, `struct Shoot { next: Option<[0] IMPLICIT Stem>, leaf: bool }` -/

mutual
/-- A stem. -/
inductive Stem
  | mk (label : Nat) (shoots : List Shoot)

/-- A shoot. -/
inductive Shoot
  | mk (next : Option Stem) (leaf : Bool)
end

/-- The text of the parsers of a stem. -/
def stemF (m : Rules) (q : Parser Shoot) : Parser Stem :=
  (structP m 16 (.cons (.required .untagged (match m with | .ber => (uintC 4).ber | .der => (uintC 4).der))
    (.cons (.required .untagged (match m with | .ber => vecBer q | .der => vecDer q)) .nil))).map
      fun v : Tup [Nat, List Shoot] => Stem.mk v.1 v.2.1

/-- The text of the parsers of a shoot. -/
def shootF (m : Rules) (p : Parser Stem) : Parser Shoot :=
  (structP m 16 (.cons (.optional (.implicit .contextSpecific 0) p)
    (.cons (.required .untagged (match m with | .ber => boolC.ber | .der => boolC.der)) .nil))).map
      fun v : Tup [Option Stem, Bool] => Shoot.mk v.1 v.2.1

theorem shoot_self (real : Bool) : SelfType real Stem true (shootF .ber) (shootF .der) :=
  .named (fun v : Tup [Option Stem, Bool] => Shoot.mk v.1 v.2.1)
    (.struct 16 (.optional (.implicit .contextSpecific 0) .self (.required .untagged (.built (.universal .bool)) .nil)))

theorem stem_self (real : Bool) :
    SelfType real Stem true (fun p => stemF .ber (shootF .ber p)) (fun p => stemF .der (shootF .der p)) :=
  .named (fun v : Tup [Nat, List Shoot] => Stem.mk v.1 v.2.1)
    (.struct 16 (.required .untagged (.built (.universal (.uint 4 (by decide))))
      (.required .untagged (.vec (shoot_self real)) .nil)))

/-- The label of a stem, and of its shoots the labels of the stems on them. -/
def stemOutcome : PRes Stem → Option (Bytes × Nat × List (Option Nat × Bool))
  | .ok (r, .mk l ss) => some (r.data, l, ss.map fun | .mk (some (.mk k _)) b => (some k, b) | .mk none b => (none, b))
  | .error _ => none

/-- A stem with two shoots, the first of which has a stem on it. -/
def stemBytes : Bytes :=
  [0x30, 22, 2, 1, 7, 0x30, 17, 0x30, 10, 0xa0, 5, 2, 1, 8, 0x30, 0, 1, 1, 0xff, 0x30, 3, 1, 1, 0, 0xee]

example : ∃ pb pd qb qd, (pb = stemF .ber qb ∧ qb = shootF .ber pb) ∧ (pd = stemF .der qd ∧ qd = shootF .der pd) ∧
    stemOutcome (pd.parseDer (Input.fromSlice stemBytes)) = some ([0xee], 7, [(some 8, true), (none, false)]) ∧
    NoPanic (qb.parseBer (Input.fromSlice (stemBytes.drop 7))) := by
  obtain ⟨⟨pb, qb, ⟨h1, h2⟩, _⟩, pd, qd, ⟨h3, h4⟩, _⟩ := C136_mutual (stem_self false)
  refine ⟨pb, pd, qb, qd, ⟨h1, h2⟩, ⟨h3, h4⟩, ?_, ((C136_mutual_returns (stem_self false) (shoot_self false) h1 h2 h3 h4).1 _).2.2.1⟩
  subst h2 h4
  rw [← (C136_depth (stem_self false) h1 h3 refuse 13 (Input.fromSlice stemBytes) (by decide)).2]
  decide +kernel

end Asn1

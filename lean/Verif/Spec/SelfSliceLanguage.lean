import Verif.Spec.SelfLanguage
/-!
# The octets of trees in the byte-slice API

As `TwigLang` (`Spec/SelfLanguage.lean`), but what is looked at is less: not whether the object of a struct is constructed,
and in DER not whether that of a list is.
-/
namespace Asn1.Spec
open Asn1

mutual

/-- The content of the objects of `struct Twig { label: u32, twigs: Vec<Twig> }`: a `u32` and the list, and anything after
it. -/
inductive TwigSlice (m : Rules) : Twig → Bytes → Prop
  | mk {l : Nat} {ts : List Twig} {y : Identity} {o o' cs rest : Bytes}
      (hl : LangObject m (· = 2) (fun z bs => z.2.1 = false ∧ (m = .der → MinimalInt bs) ∧ InUint 4 (twos bs) ∧
        (l : Int) = twos bs) o)
      (hy : Holds m y cs o') (ht : y.2.2 = 16) (hc : m = .ber → y.2.1 = true) (h : TwigsSlice m ts cs) :
      TwigSlice m (.mk l ts) (o ++ (o' ++ rest))

/-- One after the other. -/
inductive TwigsSlice (m : Rules) : List Twig → Bytes → Prop
  | nil : TwigsSlice m [] []
  | cons {t : Twig} {ts : List Twig} {x : Identity} {cs o rest : Bytes} (hx : Holds m x cs o) (ht : x.2.2 = 16)
      (h : TwigSlice m t cs) (hs : TwigsSlice m ts rest) : TwigsSlice m (t :: ts) (o ++ rest)

end

end Asn1.Spec

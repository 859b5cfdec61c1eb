import Verif.Spec.Language
import Verif.Spec.RecursiveValue
/-!
# The octets of types that contain themselves

The language of such a type satisfies an equation `L = Φ L`, as its parser satisfies `p = F p` (`Spec/Recursive.lean`).
-/
namespace Asn1.Spec
open Asn1
variable {ρ : Type}

/-- If the occurrences of the type in its text have the language `L`, the text has the language `Φ L`. -/
def LangText (m : Rules) (F : Parser ρ → Parser ρ) (T : Nat → Prop)
    (Φ : (ρ → Identity → Bytes → Prop) → ρ → Identity → Bytes → Prop) : Prop :=
  ∀ p L, Lang m p T L → Lang m (F p) T (Φ L)

/-- The objects in which the type occurs within itself fewer than `n` times, one within the other. -/
def selfLang (Φ : (ρ → Identity → Bytes → Prop) → ρ → Identity → Bytes → Prop) : Nat → ρ → Identity → Bytes → Prop
  | 0 => fun _ _ _ => False
  | n + 1 => Φ (selfLang Φ n)

mutual

/-- The objects of `struct Twig { label: u32, twigs: Vec<Twig> }`: constructed, in the content a `u32` and the list, and
anything after it. -/
inductive TwigLang (m : Rules) : Twig → Identity → Bytes → Prop
  | mk {l : Nat} {ts : List Twig} {x y : Identity} {o o' cs rest : Bytes} (hx : x.2.1 = true)
      (hl : LangObject m (· = 2) (fun z bs => z.2.1 = false ∧ (m = .der → MinimalInt bs) ∧ InUint 4 (twos bs) ∧
        (l : Int) = twos bs) o)
      (hy : Holds m y cs o') (ht : y.2.2 = 16) (hc : y.2.1 = true) (h : TwigsLang m ts cs) :
      TwigLang m (.mk l ts) x (o ++ (o' ++ rest))

/-- One after the other. -/
inductive TwigsLang (m : Rules) : List Twig → Bytes → Prop
  | nil : TwigsLang m [] []
  | cons {t : Twig} {ts : List Twig} {x : Identity} {cs o rest : Bytes} (hx : Holds m x cs o) (ht : x.2.2 = 16)
      (h : TwigLang m t x cs) (hs : TwigsLang m ts rest) : TwigsLang m (t :: ts) (o ++ rest)

end

end Asn1.Spec

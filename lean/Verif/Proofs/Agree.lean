import Verif.Props.Typed
/-!
# Comparing the decoders of a type: generic lemmas for C11 and C38
-/
namespace Asn1
open Spec

variable {α : Type}

/-- DER is a subset of BER as soon as it is for the contents. -/
theorem der_subset_ber {pb pd : Parser α} (hacc : ∀ t, pd.acceptTag t = true → pb.acceptTag t = true)
    (hc : ∀ h i r v, h.length = .definite i.data.length → pd.content h i = .ok (r, v) →
      ∃ r', pb.content h i = .ok (r', v))
    {i r : Input} {v : α} (h : pd.parseDer i = .ok (r, v)) : pb.parseBer i = .ok (r, v) := by
  obtain ⟨a, x, h1, h2, h3⟩ := parseDer_ok.mp h
  obtain ⟨x', h4⟩ := hc _ _ _ _ (derAny_definite h1) h3
  exact parseBer_ok.mpr ⟨a, x', C11_der_subset_ber_any _ _ _ h1, hacc _ h2, h4⟩

/-- `from_der` and `parse_der` agree as soon as they do on the contents. -/
theorem der_apis_agree {pb pd : Parser α} {check : Any → Except SErr Unit}
    (hacc : ∀ t, pd.acceptTag t = true ↔ pb.acceptTag t = true)
    (hc : ∀ (a : Any) (v : α), a.header.length = .definite a.data.data.length →
      ((check a = .ok () ∧ ∃ x, pb.content a.header a.data = .ok (x, v)) ↔
        ∃ x, pd.content a.header a.data = .ok (x, v)))
    (bs rem : Bytes) (v : α) :
    fromDer pb check bs = .ok (rem, v) ↔
      ∃ r, pd.parseDer (Input.fromSlice bs) = .ok (r, v) ∧ r.data = rem := by
  rw [fromDer_ok]
  constructor
  · rintro ⟨r, a, x, h1, h2, h3, h4, h5⟩
    obtain ⟨y, hy⟩ := (hc a v (derAny_definite h1)).mp ⟨h3, x, h5⟩
    exact ⟨r, parseDer_ok.mpr ⟨a, y, h1, (hacc _).mpr h4, hy⟩, h2⟩
  · rintro ⟨r, h1, h2⟩
    obtain ⟨a, y, h3, h4, h5⟩ := parseDer_ok.mp h1
    obtain ⟨g1, x, g2⟩ := (hc a v (derAny_definite h3)).mpr ⟨y, h5⟩
    exact ⟨r, a, x, h3, h2, g1, (hacc _).mp h4, g2⟩

end Asn1

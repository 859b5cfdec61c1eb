import Verif.Proofs.Weight
/-!
# C114: A decoded value holds no more than was read

`Weighed pb pd w` (Spec/Weight): `w v` counts one for each item of a collection in `v`, and one for each byte of
a string, a big INTEGER, an OBJECT IDENTIFIER or an untyped content in `v`, at any depth.
-/
namespace Asn1
open Spec
variable {α : Type}

/-- **C114.** Whatever type is decoded, from whatever input: what the value holds is at most one and a half
times the number of bytes read for it. A length field, a nesting or a segmentation can not make it hold more. -/
theorem C114_decoded_size {pb pd : Parser α} {w : α → Nat} (h : Weighed pb pd w) (i : Input) :
    (∀ r v, pb.parseBer i = .ok (r, v) → 2 * w v ≤ 3 * (i.data.length - r.data.length)) ∧
    (∀ r v, pd.parseDer i = .ok (r, v) → 2 * w v ≤ 3 * (i.data.length - r.data.length)) := by
  obtain ⟨hb, hd⟩ := compact_weighed h
  constructor
  · intro r v hp
    have := frugal_ber hb i r v hp
    omega
  · intro r v hp
    have := frugal_der hd i r v hp
    omega

/-- A case: an OCTET STRING. -/
example : octetBer.parseBer (Input.fromSlice [4, 2, 7, 8]) = .ok (⟨[], 4, 4⟩, [7, 8]) := by decide +kernel

/-- Where all strings are kept as they are (no BMPString), the factor is one: an OCTET STRING, in any number of
segments, holds at most the bytes read for it, less those of the outer header. -/
theorem C114_octet_string (i r : Input) (v : Bytes) :
    (octetC.ber.parseBer i = .ok (r, v) → v.length + 2 ≤ i.data.length - r.data.length) ∧
    (octetC.der.parseDer i = .ok (r, v) → v.length + 2 ≤ i.data.length - r.data.length) := by
  constructor
  · intro h
    obtain ⟨a, x, h1, _, h2⟩ := parseBer_ok.mp h
    have := berAny_len h1
    have := octet_len h2
    omega
  · intro h
    obtain ⟨a, x, h1, _, h2⟩ := parseDer_ok.mp h
    have := derAny_len h1
    obtain ⟨_, _, h2⟩ := bind_eq_ok.mp h2
    have := octet_len h2
    omega

/-- The number of items of a `Vec<T>`, whatever `T` is and however little its values hold: each item has taken
two bytes at least. -/
theorem C114_item_count (p q : Parser α) (i r : Input) (l : List α) :
    ((vecBer p).parseBer i = .ok (r, l) → 2 * l.length + 2 ≤ i.data.length - r.data.length) ∧
    ((vecDer q).parseDer i = .ok (r, l) → 2 * l.length + 2 ≤ i.data.length - r.data.length) := by
  have key : ∀ (m : Rules) (p : Parser α) (h : Header) (j x : Input) (l : List α),
      (vecP m.any p).content h j = .ok (x, l) → 2 * l.length ≤ j.data.length := by
    intro m p h j x l hc
    obtain ⟨_, _, hc⟩ := bind_eq_ok.mp hc
    split at hc
    · injection hc with hc; injection hc with _ hc
      subst hc
      exact Nat.zero_le _
    · unfold AnyIter.tryParseCollect at hc
      obtain ⟨⟨it', l'⟩, h1, h2⟩ := bind_eq_ok.mp hc
      injection h2 with h2; injection h2 with _ h2
      subst h2
      have := forIter_weight (m := fun l => 2 * l.length) (c := 1) (fun _ _ _ => anyParse_len m)
        (f := parseCollectStep p) (by
        intro s a b s' hs
        unfold parseCollectStep at hs
        split at hs
        · cases hs
        · cases hc : p.content a.header a.data with
          | error e => rw [hc] at hs; cases hs
          | ok x =>
            rw [hc] at hs
            injection hs with hs; injection hs with _ hs
            subst hs
            simp only [List.length_append, List.length_cons, List.length_nil]
            omega) _ _ _ _ _ h1
      simp only [AnyIter.new, List.length_nil] at this
      omega
  constructor
  · intro h
    obtain ⟨a, x, h1, _, h2⟩ := parseBer_ok.mp h
    have := berAny_len h1
    unfold vecBer at h2
    rw [rulesAny_ber] at h2
    have := key _ _ _ _ _ _ h2
    omega
  · intro h
    obtain ⟨a, x, h1, _, h2⟩ := parseDer_ok.mp h
    have := derAny_len h1
    unfold vecDer at h2
    rw [rulesAny_der] at h2
    have := key _ _ _ _ _ _ h2
    omega

/-- `SEQUENCE { names SEQUENCE OF BMPString, comment [0] EXPLICIT OCTET STRING OPTIONAL }`. -/
example : Weighed
    (structP .ber 16 (.cons (.required .untagged (vecBer bmpC.ber))
      (.cons (.optional (.explicit .contextSpecific 0) octetC.ber) .nil)))
    (structP .der 16 (.cons (.required .untagged (vecDer bmpC.der))
      (.cons (.optional (.explicit .contextSpecific 0) octetC.der) .nil)))
    (fun t => itemsWeight Text.byteLen t.1 + (optionWeight List.length t.2.1 + 0)) :=
  .struct 16 (.required _ (.vec .bmpString) (.optional _ .octetString .nil))

instance : DecidableEq (Tup [List Text, Option Bytes]) :=
  inferInstanceAs (DecidableEq (List Text × Option Bytes × Unit))

/-- Two names of one character, three bytes of UTF-8 each, and two bytes of comment: two items and eight bytes,
from eighteen bytes read. -/
example : (structP .ber 16 (.cons (.required .untagged (vecBer bmpC.ber))
      (.cons (.optional (.explicit .contextSpecific 0) octetC.ber) .nil))).parseBer
      (Input.fromSlice [0x30, 16, 0x30, 8, 0x1e, 2, 0x20, 0xac, 0x1e, 2, 0x20, 0xac, 0xa0, 4, 4, 2, 1, 2, 9]) =
    .ok (⟨[9], 18, 19⟩, ([['€'], ['€']], (some [1, 2], ()))) ∧
    itemsWeight Text.byteLen [['€'], ['€']] + (optionWeight List.length (some [(1 : UInt8), 2]) + 0) = 10 := by
  decide +kernel

/-- A text can hold more bytes than were read for it: sixty in UTF-8, read from forty-two. -/
example : bmpC.ber.parseBer (Input.fromSlice ([0x1e, 40] ++ (List.replicate 20 [0x20, 0xac]).flatten)) =
    .ok (⟨[], 42, 42⟩, List.replicate 20 '€') ∧ Text.byteLen (List.replicate 20 '€') = 60 := by
  decide +kernel

end Asn1

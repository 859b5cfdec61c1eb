import Verif.Proofs.Built
import Verif.Props.RawSeq
import Verif.Props.Errors
import Verif.Spec.ToStatic
/-!
# Copies made by `to_static` (C97)

Headers, SEQUENCE and SET; then values of any type that implements `ToStatic`, including those with
`#[derive(ToStatic)]`.
-/
namespace Asn1
open Spec Wr

/-- **C97** The copy of a header has the class, flag, tag number, length and raw tag of the header, and no raw
header; it is equal to the header, hashes like it, is written like it (or fails like it), and its copy is
itself. -/
theorem C97_header (h : Header) :
    h.toStatic.cls = h.cls ∧ h.toStatic.constructed = h.constructed ∧ h.toStatic.tag = h.tag ∧
    h.toStatic.length = h.length ∧ h.toStatic.rawTag = h.rawTag ∧ h.toStatic.rawHeader = none ∧
    Header.eq h h.toStatic = true ∧ h.toStatic.hashKey = h.hashKey ∧
    headerToBer.toVec h.toStatic = headerToBer.toVec h ∧ h.toStatic.toStatic = h.toStatic := by
  refine ⟨rfl, rfl, rfl, rfl, rfl, rfl, ?_, rfl, rfl, rfl⟩
  refine (headerEq_iff _ _).mpr ⟨rfl, rfl, rfl, fun x y hx hy => ?_⟩
  have hy : h.rawTag = some y := hy
  rw [hx] at hy
  injection hy

/-- A case: a parsed header loses its reference to the input. -/
example : ((parseHeader (Input.fromSlice [0x30, 2])).map fun x => (x.2.rawHeader.isSome, x.2.toStatic.rawHeader.isSome)) =
    .ok (true, false) := by decide +kernel

/-- **C97** Every type decodes a content with the copy of its header as it does with the header: the same value,
or no value. -/
theorem C97_content {real : Bool} {pb pd : Parser α} (hb : Built real pb pd) (h : Header) (i : Input) (v : α) :
    ((∃ r, pb.content h.toStatic i = .ok (r, v)) ↔ ∃ r, pb.content h i = .ok (r, v)) ∧
    ((∃ r, pd.content h.toStatic i = .ok (r, v)) ↔ ∃ r, pd.content h i = .ok (r, v)) := by
  have hs : SameHdr h.toStatic h := ⟨rfl, rfl, rfl, rfl, rfl⟩
  have hs' : SameHdr h h.toStatic := ⟨rfl, rfl, rfl, rfl, rfl⟩
  have key : ∀ {p : Parser α}, p.Strong → ∀ {h h' : Header}, SameHdr h h' → (∃ r, p.content h i = .ok (r, v)) →
      ∃ r, p.content h' i = .ok (r, v) := by
    rintro p hp h h' hh ⟨r, hr⟩
    obtain ⟨⟨r', v'⟩, h1, _, h3⟩ := hp h h' i i hh rfl _ hr
    have h3 : v = v' := h3
    exact ⟨r', h3 ▸ h1⟩
  have hf := (fine_built hb).strong
  exact ⟨⟨key hf.1 hs, key hf.1 hs'⟩, ⟨key hf.2 hs, key hf.2 hs'⟩⟩

/-- A case: the header of the INTEGER 02 01 05, with its copy. -/
example : (uintBer 4).content (Header.toStatic ⟨.universal, false, 2, .definite 1, some [2], some ⟨[2, 1], 0, 2⟩⟩)
    ⟨[5], 2, 3⟩ = .ok (⟨[], 3, 3⟩, 5) := by decide +kernel

/-- **C97** The copy of a SEQUENCE or SET has the same content, is encoded the same, and its items are the same,
whatever their type. But the methods that return references to it (`parse_into`, `into_der_sequence_of_ref`) refuse
the copy, while they accept what was decoded. -/
theorem C97_sequence (s : RawSeq) (tag : Nat) (g : Bytes → Except SErr (Bytes × α)) :
    s.toStatic.content = s.content ∧ (rawToBer tag).toVec s.toStatic = (rawToBer tag).toVec s ∧
    s.toStatic.intoItems g = s.intoItems g ∧ s.toStatic.toStatic = s.toStatic ∧
    s.toStatic.parseInto g = .error (.error .lifetimeError) ∧
    s.toStatic.intoItemsRef g = .error (.error .lifetimeError) ∧
    (∀ (i r : Input), (rawP tag).parseBer i = .ok (r, s) →
      s.parseInto g = g s.content ∧ s.intoItemsRef g = s.intoItems g) := by
  refine ⟨rfl, rfl, rfl, rfl, rfl, rfl, fun i r h => ?_⟩
  obtain ⟨a, x, _, _, h3⟩ := parseBer_ok.mp h
  obtain ⟨_, h4, _⟩ := raw_content.mp h3
  have ho : s.owned = false := by rw [h4]
  simp [RawSeq.parseInto, RawSeq.intoItemsRef, RawSeq.intoItems, ho]

mutual
theorem shared_copy : ∀ v : Shared, SameContents v v.toStatic
  | .plain _ => .plain
  | .bytes _ => .bytes rfl
  | .text _ => .text rfl
  | .header _ => .header rfl rfl rfl rfl rfl
  | .none => .none
  | .some v => .some (shared_copy v)
  | .boxed v => .boxed (shared_copy v)
  | .vec vs => .vec (shareds_copy vs)
  | .data _ vs => .data (shareds_copy vs)
theorem shareds_copy : ∀ vs : Shareds, AllSameContents vs vs.toStatic
  | .nil => .nil
  | .cons v vs => .cons (shared_copy v) (shareds_copy vs)
end

mutual
theorem shared_free : ∀ (v : Shared) (i : Input), ¬ RefersTo i v.toStatic
  | .plain _, i => fun h => by cases h
  | .bytes _, i => fun h => by cases h
  | .text _, i => fun h => by cases h
  | .header _, i => fun h => by cases h with | header h => exact nomatch h
  | .none, i => fun h => by cases h
  | .some v, i => fun h => by cases h with | some h => exact shared_free v i h
  | .boxed v, i => fun h => by cases h with | boxed h => exact shared_free v i h
  | .vec vs, i => fun h => by cases h with | vec h => exact shareds_free vs i h
  | .data _ vs, i => fun h => by cases h with | data h => exact shareds_free vs i h
theorem shareds_free : ∀ (vs : Shareds) (i : Input), ¬ OneRefersTo i vs.toStatic
  | .nil, i => fun h => by cases h
  | .cons v vs, i => fun h => by
    cases h with
    | here h => exact shared_free v i h
    | later h => exact shareds_free vs i h
end

mutual
theorem shared_again : ∀ v : Shared, (∀ i, ¬ RefersTo i v) → v.toStatic = v
  | .plain _, _ => rfl
  | .bytes (.owned _), _ => rfl
  | .bytes (.borrowed i), h => absurd .bytes (h i)
  | .text ⟨_, none⟩, _ => rfl
  | .text ⟨_, some i⟩, h => absurd .text (h i)
  | .header ⟨_, _, _, _, _, none⟩, _ => rfl
  | .header ⟨_, _, _, _, _, some i⟩, h => absurd (.header rfl) (h i)
  | .none, _ => rfl
  | .some v, h => congrArg Shared.some (shared_again v fun i hi => h i (.some hi))
  | .boxed v, h => congrArg Shared.boxed (shared_again v fun i hi => h i (.boxed hi))
  | .vec vs, h => congrArg Shared.vec (shareds_again vs fun i hi => h i (.vec hi))
  | .data k vs, h => congrArg (Shared.data k) (shareds_again vs fun i hi => h i (.data hi))
theorem shareds_again : ∀ vs : Shareds, (∀ i, ¬ OneRefersTo i vs) → vs.toStatic = vs
  | .nil, _ => rfl
  | .cons v vs, h => by
    show Shareds.cons v.toStatic vs.toStatic = _
    rw [shared_again v fun i hi => h i (.here hi), shareds_again vs fun i hi => h i (.later hi)]
end

/-- **C97** The copy of a value of any type (machine integers, strings, headers, SEQUENCE, SET, `Option`, `Vec`, `Box`
and derived structures and enumerations of those) has the same variants, fields and items, with the same contents,
and does not refer to any octet of an input. A value that refers to no input is its own copy. -/
theorem C97_any (v : Shared) :
    SameContents v v.toStatic ∧ (∀ i, ¬ RefersTo i v.toStatic) ∧ ((∀ i, ¬ RefersTo i v) → v.toStatic = v) :=
  ⟨shared_copy v, shared_free v, shared_again v⟩

/-- A case: the second variant of an enumeration with two fields; both referred to the input. -/
example : RefersTo ⟨[7], 2, 3⟩ (.data 1 (.cons (.vec (.cons (.bytes (.borrowed ⟨[7], 2, 3⟩)) .nil))
      (.cons (.text ⟨['a'], some ⟨[97], 5, 6⟩⟩) .nil))) ∧
    (Shared.data 1 (.cons (.vec (.cons (.bytes (.borrowed ⟨[7], 2, 3⟩)) .nil))
      (.cons (.text ⟨['a'], some ⟨[97], 5, 6⟩⟩) .nil))).toStatic =
    .data 1 (.cons (.vec (.cons (.bytes (.owned [7])) .nil)) (.cons (.text ⟨['a'], none⟩) .nil)) :=
  ⟨.data (.here (.vec (.here .bytes))), rfl⟩

end Asn1

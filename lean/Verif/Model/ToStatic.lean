import Verif.Model.Sharing
/-!
# `to_static` of values made of several parts

src/tostatic.rs, src/asn1_types/{sequence,set}.rs, src/header.rs and derive/src/tostatic.rs (`#[derive(ToStatic)]`).
-/
namespace Asn1

mutual
/-- A value of a type that implements `ToStatic`. -/
inductive Shared where
  /-- `bool`, the machine integers and `String`, written as a number: src/tostatic.rs:49-51 and 77. -/
  | plain (n : Int)
  /-- `Cow<[u8]>`: src/tostatic.rs:17-22; also `Sequence` and `Set`, structures with one such field:
  src/asn1_types/sequence.rs:355-363, set.rs:350-358. -/
  | bytes (c : Cow)
  /-- `Cow<str>`: src/tostatic.rs:10-15. -/
  | text (s : StrCow)
  /-- `Header`: src/header.rs:304-321. -/
  | header (h : Header)
  /-- `None`. -/
  | none
  /-- `Some`: src/tostatic.rs:64-73. -/
  | some (v : Shared)
  /-- `Box<T>` and `&T`, which are their target here: src/tostatic.rs:53-62 and 80-89. -/
  | boxed (v : Shared)
  /-- `Vec<T>`: src/asn1_types/sequence.rs:365-375. -/
  | vec (items : Shareds)
  /-- A value of a type with `#[derive(ToStatic)]`: the number of the variant (0 for a structure) and its fields. -/
  | data (variant : Nat) (fields : Shareds)
/-- Items of a `Vec`, or fields. -/
inductive Shareds where
  | nil
  | cons (v : Shared) (rest : Shareds)
end

/-- src/tostatic.rs:17-22 `to_static for Cow<[u8]>`. -/
def Cow.toStatic (c : Cow) : Cow := .owned c.bytes

/-- src/tostatic.rs:10-15 `to_static for Cow<str>`. -/
def StrCow.toStatic (s : StrCow) : StrCow := ⟨s.text, Option.none⟩

mutual
/-- `to_static`. For a derived type (derive/src/tostatic.rs:15-32): the `to_static` of each field in turn, put back
in the same variant. -/
def Shared.toStatic : Shared → Shared
  | .plain n => .plain n
  | .bytes c => .bytes c.toStatic
  | .text s => .text s.toStatic
  | .header h => .header h.toStatic
  | .none => .none
  | .some v => .some v.toStatic
  | .boxed v => .boxed v.toStatic
  | .vec items => .vec items.toStatic
  | .data k fields => .data k fields.toStatic
/-- src/asn1_types/sequence.rs:372-374 and derive/src/tostatic.rs:17-25: each in turn. -/
def Shareds.toStatic : Shareds → Shareds
  | .nil => .nil
  | .cons v rest => .cons v.toStatic rest.toStatic
end

end Asn1

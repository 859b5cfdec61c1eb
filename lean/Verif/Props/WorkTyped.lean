import Verif.Props.Work
import Verif.Proofs.WorkLeast
import Verif.Props.Sets
/-!
# How many headers decoding a typed value reads (C115)
-/
namespace Asn1
open Spec
variable {α : Type} {real : Bool}

/-- **C115** `parse_ber` and `parse_der` of a type, given any input, read at most a number of headers for every two
bytes given (and as many more) which depends on the type only, whether they succeed or fail. (The count is that
of a version of the parser which returns what the parser returns.) -/
theorem C115_typed_work (t : Ty α) (m : Rules) (i : Input) :
    ((t.counter m).parse m i).1 = m.parse (t.parser m) i ∧
    2 * ((t.counter m).parse m i).2 ≤ (t.layers + 1) * (i.data.length + 2) :=
  ⟨plain_parse (plain_ty m t) m i, (cost_parse_len (linear_ty m t) m i).2⟩

/-- A type with nested lists, a CHOICE within a struct, and fields that may be missing. -/
def sampleTy : Ty (Tup [List (List Bytes), Option Nat, HSum [Nat, Text]]) :=
  .struct 16 (.required .untagged (.vec (.vec .octetString))
    (.optional (.explicit .contextSpecific 0) (.leaf _ _ (.uint 4 (by decide)))
      (.required .untagged (.choice .untagged
        (.cons 0 (.leaf _ _ (.uint 8 (by decide))) (.cons 1 .string .nil))) .nil)))

example : sampleTy.layers = 9 := by decide +kernel

example (i : Input) : 2 * ((sampleTy.counter .ber).parse .ber i).2 ≤ 10 * (i.data.length + 2) :=
  (C115_typed_work sampleTy .ber i).2

/-- A list of lists, the optional field and the last field, all of the lengths indefinite: twenty-six headers are read in
twenty-five bytes. -/
example :
    ((sampleTy.counter .ber).parse .ber (Input.fromSlice
      [0x30, 0x80, 0x30, 0x80, 0x30, 0x80, 4, 1, 7, 0, 0, 0, 0, 0xa0, 0x80, 2, 1, 5, 0, 0, 2, 1, 9, 0, 0])).2 = 26 := by
  decide +kernel

/-- In DER each header is read once, and once more for the optional field that is present. -/
example :
    ((sampleTy.counter .der).parse .der (Input.fromSlice
      [0x30, 0x0f, 0x30, 5, 0x30, 3, 4, 1, 7, 0xa0, 3, 2, 1, 5, 2, 1, 9])).2 = 8 := by
  decide +kernel

/-- **C115** That is a statement about every type built from the crate: each has a description (`Ty`), whose parsers
are those of the type. -/
theorem C115_every_type {pb pd : Parser α} (h : Built real pb pd) :
    ∃ t : Ty α, t.parser .ber = pb ∧ t.parser .der = pd := by
  refine Built.rec (real := real) (motive_1 := fun {α} pb pd _ => ∃ t : Ty α, t.parser .ber = pb ∧ t.parser .der = pd)
    (motive_2 := fun {Ts} fb fd _ => ∃ ts : Tys Ts, ts.fns .ber = fb ∧ ts.fns .der = fd)
    (motive_3 := fun {Ts} fb fd _ => ∃ fs : FieldTys Ts, fs.fields .ber = fb ∧ fs.fields .der = fd)
    (motive_4 := fun {Ts} vb vd _ => ∃ vs : VariantTys Ts, vs.variants .ber = vb ∧ vs.variants .der = vd)
    ?_ ?_ ?_ ?_ ?_ ?_ ?_ ?_ ?_ ?_ ?_ ?_ ?_ ?_ ?_ ?_ ?_ ?_ ?_ ?_ ?_ ?_ ?_ ?_ ?_ ?_ ?_ ?_ ?_ h
  · intro α c hc
    cases hc with
    | uint N hN => exact ⟨.leaf _ _ (.uint N hN), rfl, rfl⟩
    | int N hN => exact ⟨.leaf _ _ (.int N hN), rfl, rfl⟩
    | integer => exact ⟨.leaf _ _ .integer, rfl, rfl⟩
    | bool => exact ⟨.leaf _ _ .bool, rfl, rfl⟩
    | null => exact ⟨.leaf _ _ .null, rfl, rfl⟩
    | enumerated => exact ⟨.leaf _ _ .enumerated, rfl, rfl⟩
    | octetString => exact ⟨.octetString, rfl, rfl⟩
    | bitString => exact ⟨.bitString, rfl, rfl⟩
    | oid => exact ⟨.leaf _ _ .oid, rfl, rfl⟩
    | utcTime => exact ⟨.leaf _ _ .utcTime, rfl, rfl⟩
    | generalizedTime => exact ⟨.leaf _ _ .generalizedTime, rfl, rfl⟩
    | @text k tag A hk => exact ⟨.text k, rfl, rfl⟩
    | refStr => exact ⟨.leaf _ _ .refStr, rfl, rfl⟩
    | string => exact ⟨.string, rfl, rfl⟩
    | bmpString => exact ⟨.bmpString, rfl, rfl⟩
    | universalString => exact ⟨.universalString, rfl, rfl⟩
  · exact fun lib _ => ⟨.leaf _ _ (.real lib), rfl, rfl⟩
  · exact fun lib _ => ⟨.leaf _ _ (.f64 lib), rfl, rfl⟩
  · exact fun lib _ => ⟨.leaf _ _ (.f32 lib), rfl, rfl⟩
  · exact ⟨.leaf _ _ .boolean, rfl, rfl⟩
  · exact ⟨.leaf _ _ .slice, rfl, rfl⟩
  · exact ⟨.leaf _ _ .any, rfl, rfl⟩
  · exact ⟨.embeddedPdv, rfl, rfl⟩
  · rintro α pb pd _ ⟨t, rfl, rfl⟩; exact ⟨.vec t, rfl, rfl⟩
  · rintro α pb pd _ ⟨t, rfl, rfl⟩; exact ⟨.sequenceOf t, rfl, rfl⟩
  · rintro α pb pd _ ⟨t, rfl, rfl⟩; exact ⟨.setOf t, rfl, rfl⟩
  · rintro α σ pb pd S _ ⟨t, rfl, rfl⟩; exact ⟨.set S t, rfl, rfl⟩
  · rintro α pb pd N _ ⟨t, rfl, rfl⟩; exact ⟨.array N t, rfl, rfl⟩
  · rintro Ts fb fd _ ⟨ts, rfl, rfl⟩; exact ⟨.tuple ts, rfl, rfl⟩
  · exact fun tag => ⟨.leaf _ _ (.raw tag), rfl, rfl⟩
  · rintro α pb pd cls tag _ ⟨t, rfl, rfl⟩; exact ⟨.explicit cls tag t, rfl, rfl⟩
  · rintro α pb pd cls tag _ ⟨t, rfl, rfl⟩; exact ⟨.implicit cls tag t, rfl, rfl⟩
  · rintro Ts fb fd tag _ ⟨fs, rfl, rfl⟩; exact ⟨.struct tag fs, rfl, rfl⟩
  · rintro Ts vb vd k _ ⟨vs, rfl, rfl⟩; exact ⟨.choice k vs, rfl, rfl⟩
  · exact fun ds => ⟨.leaf _ _ (.enum ds), rfl, rfl⟩
  · rintro α pb pd _ ⟨t, rfl, rfl⟩; exact ⟨.alias t, rfl, rfl⟩
  · exact ⟨.nil, rfl, rfl⟩
  · rintro T Ts pb pd fb fd _ _ ⟨t, rfl, rfl⟩ ⟨ts, rfl, rfl⟩; exact ⟨.cons t ts, rfl, rfl⟩
  · exact ⟨.nil, rfl, rfl⟩
  · rintro T Ts pb pd fb fd tag _ _ ⟨t, rfl, rfl⟩ ⟨fs, rfl, rfl⟩; exact ⟨.required tag t fs, rfl, rfl⟩
  · rintro T Ts pb pd fb fd tag _ _ ⟨t, rfl, rfl⟩ ⟨fs, rfl, rfl⟩; exact ⟨.optional tag t fs, rfl, rfl⟩
  · rintro T Ts pb pd fb fd tag x _ _ ⟨t, rfl, rfl⟩ ⟨fs, rfl, rfl⟩; exact ⟨.default tag x t fs, rfl, rfl⟩
  · exact ⟨.nil, rfl, rfl⟩
  · rintro T Ts pb pd vb vd tag _ _ ⟨t, rfl, rfl⟩ ⟨vs, rfl, rfl⟩; exact ⟨.cons tag t vs, rfl, rfl⟩

example : Built false (vecBer (vecBer octetBer)) (vecDer (vecDer octetDer)) :=
  .vec (.vec (.universal .octetString))

/-- **C115** The bound is on what is really read: to decode a value, `parse_ber` and `parse_der` read at least one
header for each object the value consists of. -/
theorem C115_at_least (t : Ty α) (m : Rules) (i r : Input) (v : α) (h : m.parse (t.parser m) i = .ok (r, v)) :
    t.objects v ≤ ((t.counter m).parse m i).2 :=
  least_parse (least_ty m t) m i r v ((plain_parse (plain_ty m t) m i).trans h)

/-- The value of the two encodings above consists of seven objects: the struct, the two lists, the octet string,
the two of the optional field, and the last field. -/
example : sampleTy.objects ([[[7]]], some 5, .inl 9, ()) = 7 := by
  simp [Ty.objects, sampleTy, Ty.within, FieldTys.within, VariantTys.within, tagLayers]

/-- A list of two octet strings, the first one segmented: the headers of the list, of the strings and of the
segment. -/
example : (((Ty.vec .octetString).counter .ber).parse .ber
      (Input.fromSlice [0x30, 8, 0x24, 3, 4, 1, 7, 4, 1, 8])).2 = 4 ∧
    (((Ty.vec .octetString).counter .ber).parse .ber
      (Input.fromSlice [0x30, 8, 0x24, 3, 4, 1, 7, 4, 1, 8])).1 = .ok (⟨[], 10, 10⟩, [[7], [8]]) := by
  decide +kernel

/-- Headers are read twice when lengths are indefinite: those of the items of a list within a list, and the
end-of-contents markers, are read once to find the end of the object, and again for each list. -/
example : (((Ty.vec (.vec .octetString)).counter .ber).parse .ber
      (Input.fromSlice [0x30, 0x80, 0x30, 0x80, 4, 1, 7, 0, 0, 0, 0])).2 = 9 := by
  decide +kernel

end Asn1

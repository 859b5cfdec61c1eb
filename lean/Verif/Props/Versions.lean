import Verif.Proofs.StreamApi
import Verif.Spec.Versions
import Verif.Props.DeriveRead
import Verif.Props.DeriveWrite
import Verif.Props.DeriveChoice
import Verif.Props.DeriveEnum
import Verif.Props.DeriveSlice
import Verif.Props.Integer
/-!
# C131, C132: older and newer versions of a type
-/
namespace Asn1
open Spec
open Wr (Writes)

variable {m : Rules}

/-! For the examples. -/
local instance : DecidableEq (Tup []) := inferInstanceAs (DecidableEq Unit)
local instance {T : Type} {Ts : List Type} [DecidableEq T] [DecidableEq (Tup Ts)] : DecidableEq (Tup (T :: Ts)) :=
  inferInstanceAs (DecidableEq (T × Tup Ts))
local instance {Us : List Type} [h : DecidableEq (Tup Us)] : DecidableEq (Tup ([] ++ Us)) := h
local instance {T : Type} {Ts Us : List Type} [DecidableEq T] [DecidableEq (Tup (Ts ++ Us))] :
    DecidableEq (Tup (T :: Ts ++ Us)) := inferInstanceAs (DecidableEq (T × Tup (Ts ++ Us)))
local instance : DecidableEq (HSum []) := inferInstanceAs (DecidableEq Empty)
local instance {T : Type} {Ts : List Type} [DecidableEq T] [DecidableEq (HSum Ts)] :
    DecidableEq (HSum (T :: Ts)) := inferInstanceAs (DecidableEq (T ⊕ HSum Ts))
local instance {Us : List Type} [h : DecidableEq (HSum Us)] : DecidableEq (HSum ([] ++ Us)) := h
local instance {T : Type} {Ts Us : List Type} [DecidableEq T] [DecidableEq (HSum (Ts ++ Us))] :
    DecidableEq (HSum (T :: Ts ++ Us)) := inferInstanceAs (DecidableEq (T ⊕ HSum (Ts ++ Us)))

/-! ### Structs -/

theorem readsFields_then {Ts Us : List Type} {fs : Fields Ts} {gs : Fields Us} {i e : Input}
    {x : Tup (Ts ++ Us)} : ReadsFields m (fieldsThen fs gs) i x e ↔
      ∃ v w r, x = tupThen v w ∧ ReadsFields m fs i v r ∧ ReadsFields m gs r w e := by
  induction fs generalizing i with
  | nil =>
    constructor
    · intro h; exact ⟨(), x, i, rfl, .nil, h⟩
    · rintro ⟨v, w, r, rfl, h1, h2⟩
      cases h1
      exact h2
  | cons f fs ih =>
    constructor
    · intro h
      cases h with
      | cons h ht =>
        obtain ⟨v, w, r, rfl, h1, h2⟩ := ih.mp ht
        exact ⟨(_, v), w, r, rfl, .cons h h1, h2⟩
    · rintro ⟨v, w, r, rfl, h1, h2⟩
      cases h1 with
      | cons h ht => exact .cons h (ih.mpr ⟨_, w, r, rfl, ht, h2⟩)

/-- **C131** What a struct with more fields at the end accepts, the struct without them accepts as well, with
the same values of its fields and the same rest of the input. -/
theorem C131_older_reads_newer {Ts Us : List Type} (m : Rules) (tag : Nat) (fs : Fields Ts) (gs : Fields Us)
    (i r : Input) (x : Tup (Ts ++ Us)) (h : m.parse (structP m tag (fieldsThen fs gs)) i = .ok (r, x)) :
    ∃ v w, x = tupThen v w ∧ m.parse (structP m tag fs) i = .ok (r, v) := by
  obtain ⟨a, e, h1, h2, h3, h4⟩ := (C76_struct_accepts m tag _ i r x).mp h
  obtain ⟨v, w, r', rfl, h5, _⟩ := readsFields_then.mp h4
  exact ⟨v, w, rfl, (C76_struct_accepts m tag fs i r v).mpr ⟨a, r', h1, h2, h3, h5⟩⟩

/-- A case: the rest of the content is left by the older struct. -/
example : Rules.der.parse (structP .der 16 (fieldsThen (.cons (.required .untagged (uintDer 4)) .nil)
      (.cons (.required .untagged boolDer) .nil))) (Input.fromSlice [0x30, 6, 2, 1, 5, 1, 1, 0xff]) =
      .ok (⟨[], 8, 8⟩, ((5, true, ()) : Tup [Nat, Bool])) ∧
    Rules.der.parse (structP .der 16 (.cons (.required .untagged (uintDer 4)) .nil))
      (Input.fromSlice [0x30, 6, 2, 1, 5, 1, 1, 0xff]) = .ok (⟨[], 8, 8⟩, (5, ())) := by decide +kernel

theorem readsAs_definite {T : Type} {p : Parser T} {i r : Input} {v : T}
    (h : ReadsAs .der p .untagged i v r) : DefiniteAt i := by
  cases h with
  | untagged h =>
    obtain ⟨a, x, h1, _, _⟩ := (rules_parse_ok (m := .der)).mp h
    obtain ⟨r1, n, h2, h3, _⟩ := parseDerAny_ok.mp h1
    intro r' hd hh
    rw [h2] at hh
    cases hh
    rw [h3]; simp

theorem newer_reads {Ts Us : List Type} {fs : Fields Ts} {gs : Fields Us} {v : Tup Ts} {w : Tup Us}
    (h : Newer fs gs v w) {i e : Input} (hr : ReadsFields m fs i v e) (he : e.data = [])
    (hd : m = .der ∨ DefiniteFields m fs i e) : ReadsFields m gs i w e := by
  induction h generalizing i with
  | nil => exact hr
  | @same T Ts Us f fs gs x v w hn ih =>
    cases hr with
    | cons h ht =>
      refine .cons h (ih ht ?_)
      rcases hd with hd | hd
      · exact .inl hd
      · cases hd with
        | cons h' hd' ht' =>
          rw [(C76_field_reads m f _ _ _).mpr h] at h'
          cases h'
          exact .inr ht'
  | @optional T Ts Us tag p fs gs x v w hn ih =>
    cases hr with
    | cons h ht =>
      rcases hd with rfl | hd
      · refine .cons (.inl ⟨_, rfl, h, ?_⟩) (ih ht (.inl rfl))
        rintro rfl
        exact readsAs_definite h
      · cases hd with
        | cons h' hd' ht' =>
          rw [(C76_field_reads m _ _ _ _).mpr h] at h'
          cases h'
          exact .cons (.inl ⟨_, rfl, h, fun _ => hd'⟩) (ih ht (.inr ht'))
  | @default T Ts Us tag p fs gs x y v w hn ih =>
    cases hr with
    | cons h ht =>
      rcases hd with rfl | hd
      · refine .cons (.inl ⟨h, ?_⟩) (ih ht (.inl rfl))
        rintro rfl
        exact readsAs_definite h
      · cases hd with
        | cons h' hd' ht' =>
          rw [(C76_field_reads m _ _ _ _).mpr h] at h'
          cases h'
          exact .cons (.inl ⟨h, fun _ => hd'⟩) (ih ht (.inr ht'))
  | addOptional hn ih =>
    have hi := ih hr hd
    cases hr
    exact .cons (.inr ⟨rfl, rfl, .done he⟩) hi
  | addDefault hn ih =>
    have hi := ih hr hd
    cases hr
    exact .cons (.inr ⟨rfl, rfl, .done he⟩) hi

/-- **C131** What a struct reads from an object whose content ends with its fields, a newer version of the struct
reads as well: with the same values of the fields that are kept or have become optional, and without the fields
that have been added. In BER, the fields must not have the indefinite form (C35). -/
theorem C131_newer_reads_older {Ts Us : List Type} (m : Rules) (tag : Nat) (fs : Fields Ts) (gs : Fields Us)
    (v : Tup Ts) (w : Tup Us) (hn : Newer fs gs v w) (i r e : Input) (a : Any) (ha : m.any i = .ok (r, a))
    (hr : ReadsFields m fs a.data v e) (he : e.data = []) (hd : m = .der ∨ DefiniteFields m fs a.data e)
    (h : m.parse (structP m tag fs) i = .ok (r, v)) : m.parse (structP m tag gs) i = .ok (r, w) := by
  obtain ⟨a', e', h1, h2, h3, h4⟩ := (C76_struct_accepts m tag fs i r v).mp h
  rw [ha] at h1
  cases h1
  exact (C76_struct_accepts m tag gs i r w).mpr ⟨a, e, ha, h2, h3, newer_reads hn hr he hd⟩

/-- The fields of `struct S { a: u32, b: bool }` and of a newer version
`struct S { a: Option<u32>, #[default(..)] b: bool, #[tag_explicit(0)] c: Option<bool>, #[default(..)] d: &[u8] }`. -/
def olderFields : Fields [Nat, Bool] :=
  .cons (.required .untagged (uintBer 4)) (.cons (.required .untagged boolBer) .nil)
def newerFields : Fields [Option Nat, Bool, Option Bool, Bytes] :=
  .cons (.optional .untagged (uintBer 4)) (.cons (.default .untagged boolBer false)
    (.cons (.optional (.explicit .contextSpecific 0) boolBer) (.cons (.default .untagged octetBer [7]) .nil)))

theorem sample_newer (n : Nat) (b : Bool) : Newer olderFields newerFields (n, b, ()) (some n, b, none, [7], ()) :=
  .optional (.default (.addOptional (.addDefault .nil)))

set_option synthInstance.maxSize 2000 in
/-- A case: the object `30 06 02 01 05 01 01 ff`. -/
example : ∃ r a e, Rules.ber.any (Input.fromSlice [0x30, 6, 2, 1, 5, 1, 1, 0xff]) = .ok (r, a) ∧
    ReadsFields .ber olderFields a.data (5, true, ()) e ∧ e.data = [] ∧
    DefiniteFields .ber olderFields a.data e ∧
    Rules.ber.parse (structP .ber 16 olderFields) (Input.fromSlice [0x30, 6, 2, 1, 5, 1, 1, 0xff]) =
      .ok (r, (5, true, ())) ∧
    Rules.ber.parse (structP .ber 16 newerFields) (Input.fromSlice [0x30, 6, 2, 1, 5, 1, 1, 0xff]) =
      .ok (r, (some 5, true, none, [7], ())) := by
  refine ⟨⟨[], 8, 8⟩, ⟨⟨.universal, true, 16, .definite 6, some [0x30], some ⟨[0x30, 6], 0, 2⟩⟩,
    ⟨[2, 1, 5, 1, 1, 0xff], 2, 8⟩⟩, ⟨[], 8, 8⟩, by decide +kernel, fields_run_ok.mp (by decide +kernel), rfl, ?_,
    by decide +kernel, by decide +kernel⟩
  refine .cons (r := ⟨[1, 1, 0xff], 5, 8⟩) (x := 5) (by decide +kernel) ?_
    (.cons (r := ⟨[], 8, 8⟩) (x := true) (by decide +kernel) ?_ .nil)
  · intro r h hh
    rw [show parseHeader ⟨[2, 1, 5, 1, 1, 0xff], 2, 8⟩ = .ok (⟨[5, 1, 1, 0xff], 4, 8⟩,
      ⟨.universal, false, 2, .definite 1, some [2], some ⟨[2, 1], 2, 4⟩⟩) by decide +kernel] at hh
    cases hh; simp
  · intro r h hh
    rw [show parseHeader ⟨[1, 1, 0xff], 5, 8⟩ = .ok (⟨[0xff], 7, 8⟩,
      ⟨.universal, false, 1, .definite 1, some [1], some ⟨[1, 1], 5, 7⟩⟩) by decide +kernel] at hh
    cases hh; simp

/-- **C131** (deviation) In BER, a field in the indefinite form is read by the older struct and refused by the
newer one in which it has become optional. -/
theorem C131_indefinite_deviation :
    Rules.ber.parse (structP .ber 16 (.cons (.required .untagged (vecBer (uintBer 1))) .nil))
      (Input.fromSlice [0x30, 7, 0x30, 0x80, 2, 1, 5, 0, 0]) = .ok (⟨[], 9, 9⟩, ([5], ())) ∧
    (Rules.ber.parse (structP .ber 16 (.cons (.optional .untagged (vecBer (uintBer 1))) .nil))
      (Input.fromSlice [0x30, 7, 0x30, 0x80, 2, 1, 5, 0, 0])).isOk = false := by decide +kernel

/-- **C131** A field that has been added without being optional makes the newer struct refuse what ends with the
fields of the older one. -/
theorem C131_added_required {T : Type} {Ts Us : List Type} (m : Rules) (tag : Nat) (fs : Fields Ts)
    (ft : FieldTag) (p : Parser T) (gs : Fields Us) (i r e : Input) (a : Any) (v : Tup Ts)
    (ha : m.any i = .ok (r, a)) (hr : ReadsFields m fs a.data v e) (he : e.data = []) :
    (m.parse (structP m tag (fieldsThen fs (.cons (.required ft p) gs))) i).isOk = false := by
  cases hp : m.parse (structP m tag (fieldsThen fs (.cons (.required ft p) gs))) i with
  | error _ => rfl
  | ok x =>
    exfalso
    obtain ⟨r', x⟩ := x
    obtain ⟨a', e', h1, h2, h3, h4⟩ := (C76_struct_accepts m tag _ i r' x).mp hp
    rw [ha] at h1
    cases h1
    obtain ⟨v', w, r1, _, h5, h6⟩ := readsFields_then.mp h4
    have h7 : r1 = e := by
      have g1 := fields_run_ok.mpr h5
      rw [fields_run_ok.mpr hr] at g1
      cases g1; rfl
    subst h7
    have key : ∀ b r2, m.any r1 = .ok (r2, b) → False := fun b r2 hb => (rules_any_header hb).1 he
    cases h6 with
    | cons h ht =>
      cases h with
      | untagged h =>
        obtain ⟨b, _, hb, _⟩ := rules_parse_ok.mp h
        exact key _ _ hb
      | explicit hb => exact key _ _ hb
      | implicit hb => exact key _ _ hb

/-- A case: the same object, and a struct with a third field. -/
example : (Rules.ber.parse (structP .ber 16 (fieldsThen olderFields (.cons (.required .untagged octetBer) .nil)))
    (Input.fromSlice [0x30, 6, 2, 1, 5, 1, 1, 0xff])).isOk = false := by decide +kernel

/-- **C132** (partial) What an older struct writes, the newer one with more optional and default fields at the end reads:
the values of the older fields, and the others absent. (Conditions and exceptions as in C77.) -/
theorem C132_roundtrip_newer_partial {Ts Us Vs : List Type} (m : Rules) (tag : Nat) (htag : tag < 2 ^ 32)
    (es : EncFields Ts) (fs : Fields Us) (gs : Fields Vs) (v : Tup Ts) (w : Tup Us) (u : Tup Vs)
    (hf : FieldsFit es v) (h0 : overcount es v = 0)
    (h64 : ∀ n, (structToBer tag es).contentLen v = .definite n → n < 2 ^ 64)
    (hb : StructBack m es fs v w) (hn : Newer .nil gs () u) :
    InputBack (structToBer tag es) (m.parse (structP m tag (fieldsThen fs gs))) v (tupThen w u) := by
  obtain ⟨cs, h1, h2⟩ := fields_write hf
  have hl : (structToBer tag es).contentLen v = .definite cs.length := by
    show es.len v (.definite 0) = _
    rw [h2, h0]; congr 1; omega
  have hn64 := h64 _ hl
  have he : Encodes (structToBer tag es) v cs := struct_encodes htag ((h1 0).congr rfl (by omega)) hl
  refine ⟨_, he.toVec hn64, fun rest i hi => ?_⟩
  obtain ⟨a, g1, g2, g3, g4, g5, g6⟩ := rules_any_full m i _ _ _ cs rest he.tag hn64 hi
  have hr := fields_back hb hf h1 [] a.data (by rw [g6]; simp)
  have hend : (after a.data cs.length).data = [] := by rw [after_data, g6]; simp
  have hg := newer_reads hn (m := m) .nil hend (.inr .nil)
  exact (C76_struct_accepts m tag _ i _ _).mpr ⟨a, _, g1, g4, g3, readsFields_then.mpr ⟨w, u, _, rfl, hr, hg⟩⟩

/-- A case: the struct of C77, and a field `Option<u32>` after its fields. -/
example : FieldsFit sampleEnc (258, true, [1, 2, 3], ()) ∧ overcount sampleEnc (258, true, [1, 2, 3], ()) = 0 ∧
    StructBack .der sampleEnc sampleDer (258, true, [1, 2, 3], ()) (258, true, [1, 2, 3], ()) ∧
    Newer .nil (.cons (.optional .untagged (uintDer 4)) .nil) () ((none, ()) : Tup [Option Nat]) :=
  have h := universalFields_back (sample_universal (n := 258) (by decide) true (s := [1, 2, 3]) (by decide))
  ⟨h.1, by decide +kernel, h.2.2, .addOptional .nil⟩

theorem fields_then_write {Ts Us : List Type} {es : EncFields Ts} {es' : EncFields Us} {v : Tup Ts} {v' : Tup Us}
    (hf : FieldsFit es v) (h0 : overcount es v = 0) {cs' : Bytes}
    (h1 : ∀ k, Writes (es'.write v' k) cs' (k + cs'.length))
    (h2 : ∀ acc, es'.len v' (.definite acc) = .definite (acc + cs'.length)) :
    ∃ cs, (∀ k, Writes (es.write v k) cs (k + cs.length)) ∧
      (∀ k, Writes ((encThen es es').write (tupThen v v') k) (cs ++ cs') (k + (cs ++ cs').length)) ∧
      ∀ acc, (encThen es es').len (tupThen v v') (.definite acc) = .definite (acc + (cs ++ cs').length) := by
  induction hf with
  | nil => exact ⟨[], fun k => Wr.writes_pure _, fun k => h1 k, fun acc => h2 acc⟩
  | cons h htag hs ht ih =>
    have h0' : fieldOvercount _ _ _ + overcount _ _ = 0 := h0
    obtain ⟨bs, k1, k2⟩ := field_writes h htag hs
    obtain ⟨cs, k3, k4, k5⟩ := ih (by omega)
    refine ⟨bs ++ cs, fun k => ?_, fun k => ?_, fun acc => ?_⟩
    · rw [EncFields.write, show k + (bs ++ cs).length = k + bs.length + cs.length by
        rw [List.length_append]; omega]
      exact k1.bind (k3 _)
    · show Writes (EncFields.write (.cons _ _ (encThen _ _)) (_, tupThen _ _) k) _ _
      rw [EncFields.write, List.append_assoc, show k + (bs ++ (cs ++ cs')).length =
        k + bs.length + (cs ++ cs').length by simp only [List.length_append]; omega]
      exact k1.bind (k4 _)
    · show EncFields.len (.cons _ _ (encThen _ _)) (_, tupThen _ _) _ = _
      rw [EncFields.len, k2, k5]
      congr 1
      simp only [List.length_append]; omega

/-- **C132** (partial) What a newer struct writes, the older one without the last fields reads: the values of its fields.
(Conditions and exceptions as in C77; nothing is assumed about decoders of the fields added.) -/
theorem C132_roundtrip_older_partial {Ts Us Vs : List Type} (m : Rules) (tag : Nat) (htag : tag < 2 ^ 32)
    (es : EncFields Ts) (es' : EncFields Us) (fs : Fields Vs) (v : Tup Ts) (v' : Tup Us) (w : Tup Vs)
    (hf : FieldsFit es v) (hf' : FieldsFit es' v') (h0 : overcount es v = 0) (h0' : overcount es' v' = 0)
    (h64 : ∀ n, (structToBer tag (encThen es es')).contentLen (tupThen v v') = .definite n → n < 2 ^ 64)
    (hb : StructBack m es fs v w) :
    InputBack (structToBer tag (encThen es es')) (m.parse (structP m tag fs)) (tupThen v v') w := by
  obtain ⟨cs', a1, a2⟩ := fields_write hf'
  obtain ⟨cs, h1, h2, h3⟩ := fields_then_write hf h0 a1 (fun acc => by rw [a2, h0']; rfl)
  have hl : (structToBer tag (encThen es es')).contentLen (tupThen v v') = .definite (cs ++ cs').length := by
    show (encThen es es').len (tupThen v v') (.definite 0) = _
    rw [h3]; congr 1; omega
  have hn64 := h64 _ hl
  have he : Encodes (structToBer tag (encThen es es')) (tupThen v v') (cs ++ cs') :=
    struct_encodes htag ((h2 0).congr rfl (by omega)) hl
  refine ⟨_, he.toVec hn64, fun rest i hi => ?_⟩
  obtain ⟨a, g1, g2, g3, g4, g5, g6⟩ := rules_any_full m i _ _ _ (cs ++ cs') rest he.tag hn64 hi
  exact (C76_struct_accepts m tag fs i _ w).mpr ⟨a, _, g1, g4, g3, fields_back hb hf h1 cs' a.data g6⟩

/-- A case: the struct of C77 twice, read without its second half. -/
example : FieldsFit sampleEnc (258, true, [1, 2, 3], ()) ∧ overcount sampleEnc (258, true, [1, 2, 3], ()) = 0 ∧
    StructBack .ber sampleEnc sampleBer (258, true, [1, 2, 3], ()) (258, true, [1, 2, 3], ()) ∧
    (structToBer 16 (encThen sampleEnc sampleEnc)).contentLen
      (tupThen (258, true, [1, 2, 3], ()) (258, true, [1, 2, 3], ())) = .definite 28 :=
  have h := universalFields_back (sample_universal (n := 258) (by decide) true (s := [1, 2, 3]) (by decide))
  ⟨h.1, by decide +kernel, h.2.1, by decide +kernel⟩

/-! ### Structs, by the functions on bytes -/

theorem sliceReads_then {Ts Us : List Type} {fs : SliceFields Ts} {gs : SliceFields Us} {b e : Bytes}
    {x : Tup (Ts ++ Us)} : SliceReadsFields m (slicesThen fs gs) b x e ↔
      ∃ v w r, x = tupThen v w ∧ SliceReadsFields m fs b v r ∧ SliceReadsFields m gs r w e := by
  induction fs generalizing b with
  | nil =>
    constructor
    · intro h; exact ⟨(), x, b, rfl, .nil, h⟩
    · rintro ⟨v, w, r, rfl, h1, h2⟩
      cases h1
      exact h2
  | cons f fs ih =>
    constructor
    · intro h
      cases h with
      | cons h ht =>
        obtain ⟨v, w, r, rfl, h1, h2⟩ := ih.mp ht
        exact ⟨(_, v), w, r, rfl, .cons h h1, h2⟩
    · rintro ⟨v, w, r, rfl, h1, h2⟩
      cases h1 with
      | cons h ht => exact .cons h (ih.mpr ⟨_, w, r, rfl, ht, h2⟩)

/-- A field that is read is not missing. -/
theorem slice_not_missing {T : Type} {ty : SliceType T} {tag : FieldTag} {b c : Bytes} {x : T}
    (ha : tag = .untagged → ReadsAnnounced m ty) (h : SliceReadsAs m ty tag b x c) :
    ¬ SliceMissing m ty tag b := by
  have key : ∃ r h, m.header (Input.fromSlice b) = .ok (r, h) ∧ SliceAnnounces ty tag h.tag := by
    cases h with
    | untagged h => exact ha rfl _ _ _ h
    | explicit h _ htag =>
      obtain ⟨r, h1, _⟩ := h
      obtain ⟨_, r1, h2⟩ := rules_any_header h1
      exact ⟨r1, _, h2, htag⟩
    | implicit h _ htag =>
      obtain ⟨r, h1, _⟩ := h
      obtain ⟨_, r1, h2⟩ := rules_any_header h1
      exact ⟨r1, _, h2, htag⟩
  obtain ⟨r, h, h1, h2⟩ := key
  rintro (h3 | ⟨h3, h4⟩)
  · subst h3
    rw [header_nil] at h1
    cases h1
  · rw [h1] at h3
    cases h3
    exact h4 h2

/-- The universal types read what their tag announces. -/
theorem codec_announced {T : Type} (c : Codec T) :
    ReadsAnnounced .ber (berSlice c) ∧ ReadsAnnounced .der (derSlice c) := by
  constructor
  · intro b rem v h
    obtain ⟨r, a, x, h1, _, h2, _⟩ := fromBer_ok.mp h
    obtain ⟨_, r1, h3⟩ := rules_any_header (m := .ber) h1
    exact ⟨r1, _, h3, h2⟩
  · intro b rem v h
    obtain ⟨r, a, x, h1, _, _, h2, _⟩ := fromDer_ok.mp h
    obtain ⟨_, r1, h3⟩ := rules_any_header (m := .der) h1
    exact ⟨r1, _, h3, h2⟩

theorem newerSlices_reads {Ts Us : List Type} {fs : SliceFields Ts} {gs : SliceFields Us} {v : Tup Ts}
    {w : Tup Us} (h : NewerSlices m fs gs v w) {b : Bytes} (hr : SliceReadsFields m fs b v []) :
    SliceReadsFields m gs b w [] := by
  induction h generalizing b with
  | nil => exact hr
  | same hn ih =>
    cases hr with
    | cons h ht => exact .cons h (ih ht)
  | optional ha hn ih =>
    cases hr with
    | cons h ht => exact .cons (.inl ⟨_, rfl, slice_not_missing ha h, h⟩) (ih ht)
  | default ha hn ih =>
    cases hr with
    | cons h ht => exact .cons (.inl ⟨slice_not_missing ha h, h⟩) (ih ht)
  | addOptional hn ih =>
    have hi := ih hr
    cases hr
    exact .cons (.inr ⟨rfl, rfl, .done rfl⟩) hi
  | addDefault hn ih =>
    have hi := ih hr
    cases hr
    exact .cons (.inr ⟨rfl, rfl, .done rfl⟩) hi

/-- **C131** The same for `from_ber` and `from_der`: the struct without the last fields reads what the struct
with them reads. -/
theorem C131_older_from_bytes {Ts Us : List Type} (tag : Nat) (fs : SliceFields Ts) (gs : SliceFields Us)
    (bytes rem : Bytes) (x : Tup (Ts ++ Us)) :
    (fromBerWith (structTryFrom tag (slicesThen fs gs)) bytes = .ok (rem, x) →
      ∃ v w, x = tupThen v w ∧ fromBerWith (structTryFrom tag fs) bytes = .ok (rem, v)) ∧
    (structFromDer tag (slicesThen fs gs) bytes = .ok (rem, x) →
      ∃ v w, x = tupThen v w ∧ structFromDer tag fs bytes = .ok (rem, v)) := by
  constructor <;> intro h
  · obtain ⟨a, e, h1, h2, h3⟩ := (C81_slice_accepts tag _ bytes rem x).1.mp h
    obtain ⟨v, w, r, rfl, h4, _⟩ := sliceReads_then.mp h3
    exact ⟨v, w, rfl, (C81_slice_accepts tag fs bytes rem v).1.mpr ⟨a, r, h1, h2, h4⟩⟩
  · obtain ⟨a, e, h1, h2, h3⟩ := (C81_slice_accepts tag _ bytes rem x).2.mp h
    obtain ⟨v, w, r, rfl, h4, _⟩ := sliceReads_then.mp h3
    exact ⟨v, w, rfl, (C81_slice_accepts tag fs bytes rem v).2.mpr ⟨a, r, h1, h2, h4⟩⟩

/-- A case. -/
example : structFromDer 16 (slicesThen (.cons (.required .untagged (derSlice (uintC 4))) .nil)
      (.cons (.required .untagged (derSlice boolC)) .nil)) [0x30, 6, 2, 1, 5, 1, 1, 0xff, 9] =
      .ok ([9], ((5, true, ()) : Tup [Nat, Bool])) ∧
    structFromDer 16 (.cons (.required .untagged (derSlice (uintC 4))) .nil)
      [0x30, 6, 2, 1, 5, 1, 1, 0xff, 9] = .ok ([9], ((5, ()) : Tup [Nat])) := by decide +kernel

/-- **C131** And a newer version (fields made optional or given a default, optional and default fields added at the
end) reads what the older one reads, if the content ends with the fields of the older one. -/
theorem C131_newer_from_bytes {Ts Us : List Type} (tag : Nat) (fs : SliceFields Ts) (gs : SliceFields Us)
    (v : Tup Ts) (w : Tup Us) (bytes rem : Bytes) (a : Any) (htag : a.header.tag = tag) :
    (NewerSlices .ber fs gs v w → ObjectAt .ber bytes a rem → SliceReadsFields .ber fs a.data.data v [] →
      fromBerWith (structTryFrom tag fs) bytes = .ok (rem, v) ∧
      fromBerWith (structTryFrom tag gs) bytes = .ok (rem, w)) ∧
    (NewerSlices .der fs gs v w → ObjectAt .der bytes a rem → SliceReadsFields .der fs a.data.data v [] →
      structFromDer tag fs bytes = .ok (rem, v) ∧ structFromDer tag gs bytes = .ok (rem, w)) := by
  refine ⟨fun hn h1 h2 => ⟨?_, ?_⟩, fun hn h1 h2 => ⟨?_, ?_⟩⟩
  · exact (C81_slice_accepts tag fs bytes rem v).1.mpr ⟨a, _, h1, htag, h2⟩
  · exact (C81_slice_accepts tag gs bytes rem w).1.mpr ⟨a, _, h1, htag, newerSlices_reads hn h2⟩
  · exact (C81_slice_accepts tag fs bytes rem v).2.mpr ⟨a, _, h1, htag, h2⟩
  · exact (C81_slice_accepts tag gs bytes rem w).2.mpr ⟨a, _, h1, htag, newerSlices_reads hn h2⟩

/-- A case: the INTEGER has become optional and an optional BOOLEAN has been added. -/
example : ∃ a, ObjectAt .der [0x30, 3, 2, 1, 5, 9] a [9] ∧ a.header.tag = 16 ∧
    SliceReadsFields .der (.cons (.required .untagged (derSlice (uintC 4))) .nil) a.data.data (5, ()) [] ∧
    NewerSlices .der (.cons (.required .untagged (derSlice (uintC 4))) .nil)
      (.cons (.optional .untagged (derSlice (uintC 4))) (.cons (.optional .untagged (derSlice boolC)) .nil))
      (5, ()) ((some 5, none, ()) : Tup [Option Nat, Option Bool]) :=
  ⟨⟨⟨.universal, true, 16, .definite 3, some [0x30], some ⟨[0x30, 3], 0, 2⟩⟩, ⟨[2, 1, 5], 2, 5⟩⟩,
    ⟨⟨[9], 5, 6⟩, by decide +kernel, rfl⟩, rfl, .cons (.untagged (by decide +kernel)) .nil,
    .optional (fun _ => (codec_announced _).2) (.addOptional .nil)⟩

/-! ### CHOICE -/

theorem readsChoice_old {k : ChoiceKind} {Ts Us : List Type} {vs : Variants Ts} {us : Variants Us} {a : Any}
    {x : HSum Ts} : ReadsChoice m k (variantsThen vs us) a (oldVariant Us x) ↔ ReadsChoice m k vs a x := by
  induction vs with
  | nil => exact x.elim
  | cons t p vs ih =>
    rcases x with x | x
    · exact Iff.rfl
    · show _ ∧ _ ↔ _ ∧ _
      rw [ih]

theorem readsChoice_new {k : ChoiceKind} {Ts Us : List Type} {vs : Variants Ts} {us : Variants Us} {a : Any}
    {y : HSum Us} : ReadsChoice m k (variantsThen vs us) a (newVariant Ts y) ↔
      vs.accept k a.header.tag = false ∧ ReadsChoice m k us a y := by
  induction vs with
  | nil => exact ⟨fun h => ⟨rfl, h⟩, fun h => h.2⟩
  | cons t p vs ih =>
    show _ ∧ _ ↔ (variantAccept k t p a.header.tag || vs.accept k a.header.tag) = false ∧ _
    rw [ih, Bool.or_eq_false_iff, and_assoc]
    have : ¬ Selects k t p a.header.tag ↔ variantAccept k t p a.header.tag = false := by
      rw [← selects_iff]
      cases variantAccept k t p a.header.tag <;> simp
    rw [this]

theorem parse_refused {α : Type} {p : Parser α} {i r : Input} {a : Any} (ha : m.any i = .ok (r, a))
    (hp : p.acceptTag a.header.tag = false) :
    m.parse p i = .error (.error i (.unexpectedTag none a.header.tag)) := by
  cases m with
  | ber =>
    obtain ⟨r1, h1, _⟩ := parseBerAny_ok.mp ha
    show p.parseBer i = _
    rw [Parser.parseBer, h1]
    show (if (!p.acceptTag a.header.tag) = true then _ else _) = _
    rw [hp]; rfl
  | der =>
    obtain ⟨r1, n, h1, h2, _⟩ := parseDerAny_ok.mp ha
    have h1' : parseHeaderDer i = .ok (r1, a.header) := parseHeaderDer_ok.mpr ⟨h1, by rw [h2]; rfl⟩
    show p.parseDer i = _
    rw [Parser.parseDer, h1']
    show (definiteInner a.header.length i >>= fun _ =>
      if (!p.acceptTag a.header.tag) = true then _ else _) = _
    rw [h2, hp]; rfl

/-- **C131** An enum (CHOICE) with more variants at the end reads what the enum without them reads, as the same
variant with the same payload; what it reads as one of these variants was read by the enum without the others;
and what it reads as one of the others was refused, since its tag belongs to no variant. -/
theorem C131_choice {Ts Us : List Type} (m : Rules) (k : ChoiceKind) (vs : Variants Ts) (us : Variants Us)
    (i r : Input) :
    (∀ x : HSum Ts, m.parse (choiceP m k vs) i = .ok (r, x) ↔
      m.parse (choiceP m k (variantsThen vs us)) i = .ok (r, oldVariant Us x)) ∧
    (∀ y : HSum Us, m.parse (choiceP m k (variantsThen vs us)) i = .ok (r, newVariant Ts y) →
      ∃ a, m.any i = .ok (r, a) ∧
        m.parse (choiceP m k vs) i = .error (.error i (.unexpectedTag none a.header.tag))) := by
  refine ⟨fun x => ?_, fun y h => ?_⟩
  · rw [C55_choice_accepts, C55_choice_accepts]
    simp only [readsChoice_old]
  · obtain ⟨a, h1, h2⟩ := (C55_choice_accepts m k _ i r _).mp h
    exact ⟨a, h1, parse_refused h1 (readsChoice_new.mp h2).1⟩

/-- A case: BOOLEAN has been added to a CHOICE of INTEGER and OCTET STRING. -/
example :
    Rules.der.parse (choiceP .der .untagged (.cons 0 (uintDer 4) (.cons 1 octetDer .nil)))
      (Input.fromSlice [4, 1, 7]) = .ok (⟨[], 3, 3⟩, .inr (.inl [7])) ∧
    Rules.der.parse (choiceP .der .untagged (variantsThen (.cons 0 (uintDer 4) (.cons 1 octetDer .nil))
      (.cons 2 boolDer .nil))) (Input.fromSlice [4, 1, 7]) = .ok (⟨[], 3, 3⟩, .inr (.inl [7])) ∧
    Rules.der.parse (choiceP .der .untagged (variantsThen (.cons 0 (uintDer 4) (.cons 1 octetDer .nil))
      (.cons 2 boolDer .nil))) (Input.fromSlice [1, 1, 0]) = .ok (⟨[], 3, 3⟩, newVariant [Nat, Bytes] (.inl false)) ∧
    Rules.der.parse (choiceP .der .untagged (.cons 0 (uintDer 4) (.cons 1 octetDer .nil)))
      (Input.fromSlice [1, 1, 0]) = .error (.error ⟨[1, 1, 0], 0, 3⟩ (.unexpectedTag none 1)) :=
  ⟨by decide +kernel, by decide +kernel, by decide +kernel, by decide +kernel⟩

/-! ### ENUMERATED -/

/-- **C131** An enum (ENUMERATED) with more numbers at the end reads the numbers of the enum without them as the
same variants, which was all that enum reads; an object with another number is refused by it. -/
theorem C131_enumerated (ds es : List Nat) (hn : (ds ++ es).Nodup) (hds : ∀ d ∈ ds ++ es, d < 2 ^ 32)
    (i r : Input) (k : Fin (ds ++ es).length) :
    ((enumP enumeratedBer (ds ++ es)).parseBer i = .ok (r, k) →
      (∀ h : k.val < ds.length, (enumP enumeratedBer ds).parseBer i = .ok (r, ⟨k, h⟩)) ∧
      (ds.length ≤ k.val → ((enumP enumeratedBer ds).parseBer i).isOk = false)) ∧
    ((enumP enumeratedDer (ds ++ es)).parseDer i = .ok (r, k) →
      (∀ h : k.val < ds.length, (enumP enumeratedDer ds).parseDer i = .ok (r, ⟨k, h⟩)) ∧
      (ds.length ≤ k.val → ((enumP enumeratedDer ds).parseDer i).isOk = false)) ∧
    (∀ j : Fin ds.length, (enumP enumeratedBer ds).parseBer i = .ok (r, j) →
      (enumP enumeratedBer (ds ++ es)).parseBer i =
        .ok (r, ⟨j, by rw [List.length_append]; omega⟩)) ∧
    (∀ j : Fin ds.length, (enumP enumeratedDer ds).parseDer i = .ok (r, j) →
      (enumP enumeratedDer (ds ++ es)).parseDer i =
        .ok (r, ⟨j, by rw [List.length_append]; omega⟩)) := by
  have hn1 : ds.Nodup := (List.nodup_append.mp hn).1
  have hd1 : ∀ d ∈ ds, d < 2 ^ 32 := fun d hd => hds d (List.mem_append_left _ hd)
  have hne : ∀ j : Fin ds.length, ds.length ≤ k.val → (ds ++ es)[k] ≠ ds[j] := by
    intro j hk
    show (ds ++ es)[k.val] ≠ ds[j]
    rw [List.getElem_append_right hk]
    exact fun h => (List.nodup_append.mp hn).2.2 _ (List.getElem_mem j.isLt) _ (List.getElem_mem _) h.symm
  refine ⟨fun h => ⟨fun hk => ?_, fun hk => ?_⟩, fun h => ⟨fun hk => ?_, fun hk => ?_⟩, fun j h => ?_,
    fun j h => ?_⟩
  · obtain ⟨a, h1, h2, h3, h4⟩ := (C79_enum_accepts _ hn hds i r k).1.mp h
    refine (C79_enum_accepts ds hn1 hd1 i r ⟨k, hk⟩).1.mpr ⟨a, h1, h2, h3, ?_⟩
    rw [h4]; exact congrArg _ (List.getElem_append_left hk)
  · obtain ⟨a, h1, h2, h3, h4⟩ := (C79_enum_accepts _ hn hds i r k).1.mp h
    cases hp : (enumP enumeratedBer ds).parseBer i with
    | error _ => rfl
    | ok x =>
      exfalso
      obtain ⟨a', g1, g2, g3, g4⟩ := (C79_enum_accepts ds hn1 hd1 i x.1 x.2).1.mp hp
      rw [h1] at g1; cases g1
      exact hne x.2 hk (Int.ofNat.inj (h4.symm.trans g4))
  · obtain ⟨a, h1, h2, h3, hm, h4⟩ := (C79_enum_accepts _ hn hds i r k).2.mp h
    refine (C79_enum_accepts ds hn1 hd1 i r ⟨k, hk⟩).2.mpr ⟨a, h1, h2, h3, hm, ?_⟩
    rw [h4]; exact congrArg _ (List.getElem_append_left hk)
  · obtain ⟨a, h1, h2, h3, hm, h4⟩ := (C79_enum_accepts _ hn hds i r k).2.mp h
    cases hp : (enumP enumeratedDer ds).parseDer i with
    | error _ => rfl
    | ok x =>
      exfalso
      obtain ⟨a', g1, g2, g3, _, g4⟩ := (C79_enum_accepts ds hn1 hd1 i x.1 x.2).2.mp hp
      rw [h1] at g1; cases g1
      exact hne x.2 hk (Int.ofNat.inj (h4.symm.trans g4))
  · obtain ⟨a, h1, h2, h3, h4⟩ := (C79_enum_accepts ds hn1 hd1 i r j).1.mp h
    refine (C79_enum_accepts _ hn hds i r _).1.mpr ⟨a, h1, h2, h3, ?_⟩
    rw [h4]; exact congrArg _ (List.getElem_append_left j.isLt).symm
  · obtain ⟨a, h1, h2, h3, hm, h4⟩ := (C79_enum_accepts ds hn1 hd1 i r j).2.mp h
    refine (C79_enum_accepts _ hn hds i r _).2.mpr ⟨a, h1, h2, h3, hm, ?_⟩
    rw [h4]; exact congrArg _ (List.getElem_append_left j.isLt).symm

/-- A case: 7 has been added to 0 and 200. -/
example : ([0, 200] ++ [7]).Nodup ∧ (∀ d ∈ [0, 200] ++ [7], d < 2 ^ 32) ∧
    ((enumP enumeratedDer ([0, 200] ++ [7])).parseDer (Input.fromSlice [10, 2, 0, 200])).map (·.2.val) = .ok 1 ∧
    ((enumP enumeratedDer [0, 200]).parseDer (Input.fromSlice [10, 2, 0, 200])).map (·.2.val) = .ok 1 ∧
    ((enumP enumeratedDer ([0, 200] ++ [7])).parseDer (Input.fromSlice [10, 1, 7])).map (·.2.val) = .ok 2 := by
  decide +kernel

/-! ### Integers -/

theorem inUint_wider {N M : Nat} (h : N ≤ M) {v : Int} (hv : InUint N v) : InUint M v := by
  refine ⟨hv.1, Int.lt_of_lt_of_le hv.2 ?_⟩
  exact_mod_cast Nat.pow_le_pow_right (by decide) h

theorem inInt_wider {N M : Nat} (h : N ≤ M) {v : Int} (hv : InInt N v) : InInt M v := by
  have : (2 : Nat) ^ (8 * N - 1) ≤ 2 ^ (8 * M - 1) := Nat.pow_le_pow_right (by decide) (by omega)
  obtain ⟨h1, h2⟩ := hv
  constructor <;> omega

theorem inInt_of_uint {N M : Nat} (h : N < M) {v : Int} (hv : InUint N v) : InInt M v := by
  have h1 : (256 : Nat) ^ N ≤ 2 ^ (8 * M - 1) := by
    rw [show (256 : Nat) = 2 ^ 8 from rfl, ← Nat.pow_mul]
    exact Nat.pow_le_pow_right (by decide) (by omega)
  obtain ⟨h2, h3⟩ := hv
  constructor <;> omega

/-- **C131** A wider integer type reads the same number: `uN` or `iN` with at least as many bytes, or `iN` with
more bytes than the unsigned type. -/
theorem C131_wider_integer (N M : Nat) (hN : 1 ≤ N) (hM : N ≤ M) (i r : Input) :
    (∀ v : Nat, (uintBer N).parseBer i = .ok (r, v) → (uintBer M).parseBer i = .ok (r, v) ∧
      (N < M → (intBer M).parseBer i = .ok (r, (v : Int)))) ∧
    (∀ v : Nat, (uintDer N).parseDer i = .ok (r, v) → (uintDer M).parseDer i = .ok (r, v) ∧
      (N < M → (intDer M).parseDer i = .ok (r, (v : Int)))) ∧
    (∀ v : Int, (intBer N).parseBer i = .ok (r, v) → (intBer M).parseBer i = .ok (r, v)) ∧
    (∀ v : Int, (intDer N).parseDer i = .ok (r, v) → (intDer M).parseDer i = .ok (r, v)) := by
  have dN := C15_int_decoding N hN i r
  have dM := C15_int_decoding M (by omega) i r
  refine ⟨fun v h => ?_, fun v h => ?_, fun v h => ?_, fun v h => ?_⟩
  · obtain ⟨a, h1, h2, h3, h4, h5⟩ := (dN.1 v).mp h
    refine ⟨(dM.1 v).mpr ⟨a, h1, h2, h3, inUint_wider hM h4, h5⟩, fun hl => ?_⟩
    exact (dM.2.2.1 v).mpr ⟨a, h1, h2, h3, h5 ▸ inInt_of_uint hl h4, h5, fun h => by omega⟩
  · obtain ⟨a, h1, h2, h3, hm, h4, h5⟩ := (dN.2.1 v).mp h
    refine ⟨(dM.2.1 v).mpr ⟨a, h1, h2, h3, hm, inUint_wider hM h4, h5⟩, fun hl => ?_⟩
    exact (dM.2.2.2 v).mpr ⟨a, h1, h2, h3, hm, h5 ▸ inInt_of_uint hl h4, h5⟩
  · obtain ⟨a, h1, h2, h3, h4, h5, h6⟩ := (dN.2.2.1 v).mp h
    exact (dM.2.2.1 v).mpr ⟨a, h1, h2, h3, inInt_wider hM h4, h5, fun h => Nat.le_trans (h6 h) hM⟩
  · obtain ⟨a, h1, h2, h3, hm, h4, h5⟩ := (dN.2.2.2 v).mp h
    exact (dM.2.2.2 v).mpr ⟨a, h1, h2, h3, hm, inInt_wider hM h4, h5⟩

/-- A case: 200 as `u8`, `u32` and `i16`. -/
example : (uintDer 1).parseDer (Input.fromSlice [2, 2, 0, 200]) = .ok (⟨[], 4, 4⟩, 200) ∧
    (uintDer 4).parseDer (Input.fromSlice [2, 2, 0, 200]) = .ok (⟨[], 4, 4⟩, 200) ∧
    (intDer 2).parseDer (Input.fromSlice [2, 2, 0, 200]) = .ok (⟨[], 4, 4⟩, 200) ∧
    ((intDer 1).parseDer (Input.fromSlice [2, 2, 0, 200])).isOk = false := by decide +kernel

end Asn1

import Verif.Proofs.CustomError
import Verif.Props.Incomplete
/-!
# Types with their own error type (C100), `Incomplete` in derived structs (C64)
-/
namespace Asn1
open Spec

variable {α β ε ε' : Type}

theorem so_ok_iff {R : BerErr → ε → Prop} {x : Except PErr β} {y : Except (NErr ε) β}
    (h : SameOutcome R x y) (a : β) : y = .ok a ↔ x = .ok a := by
  cases x with
  | ok b =>
    cases y with
    | ok c => cases (show b = c from h); constructor <;> (intro h; cases h; rfl)
    | error e => exact h.elim
  | error e =>
    cases y with
    | ok b => cases e <;> exact h.elim
    | error e' => constructor <;> (intro h; cases h)

theorem so_incomplete_iff {R : BerErr → ε → Prop} {x : Except PErr β} {y : Except (NErr ε) β}
    (h : SameOutcome R x y) (n : Nat) : y = .error (.incomplete n) ↔ x = .error (.incomplete n) := by
  cases x with
  | ok b =>
    cases y with
    | ok c => constructor <;> (intro h; cases h)
    | error e => exact h.elim
  | error e =>
    cases y with
    | ok b => cases e <;> exact h.elim
    | error e' =>
      cases e <;> cases e' <;> first | exact h.elim | (constructor <;> (intro h; cases h; done)) | skip
      rename_i k l
      cases (show k = l from h)
      constructor <;> (intro h; cases h; rfl)

theorem so_error {R : BerErr → ε → Prop} {x : Except PErr β} {y : Except (NErr ε) β}
    (h : SameOutcome R x y) :
    (∀ e, y = .error (.error e) → ∃ i e0, x = .error (.error i e0) ∧ R ⟨i, e0⟩ e) ∧
    (∀ i e0, x = .error (.error i e0) → ∃ e, y = .error (.error e) ∧ R ⟨i, e0⟩ e) := by
  cases x with
  | ok b =>
    cases y with
    | ok c => exact ⟨fun e he => (by cases he), fun i e he => (by cases he)⟩
    | error e => exact h.elim
  | error e =>
    cases y with
    | ok b => cases e <;> exact h.elim
    | error e' =>
      cases e <;> cases e' <;>
        first
        | exact h.elim
        | exact ⟨fun e he => (by cases he; exact ⟨_, _, rfl, h⟩),
            fun i e he => (by cases he; exact ⟨_, rfl, h⟩)⟩
        | exact ⟨fun e he => (by cases he; done), fun i e he => (by cases he; done)⟩

theorem so_stuck {R : BerErr → ε → Prop} {x : Except PErr β} {y : Except (NErr ε) β}
    (h : SameOutcome R x y) : (y = .error .panic ↔ x = .error .panic) ∧
      (y = .error .diverge ↔ x = .error .diverge) := by
  cases x with
  | ok b =>
    cases y with
    | ok c => exact ⟨⟨fun h => (by cases h), fun h => (by cases h)⟩,
        ⟨fun h => (by cases h), fun h => (by cases h)⟩⟩
    | error e => exact h.elim
  | error e =>
    cases y with
    | ok b => cases e <;> exact h.elim
    | error e' =>
      cases e <;> cases e' <;> first | exact h.elim | simp

/-- **C100** A type with its own error type, whatever the functions given as `map_err` and the
conversions do, accepts the same inputs as the type without these attributes, with the same value and
the same rest, and answers `Incomplete` on the same inputs with the same number of missing bytes; it
fails where the other fails, and panics (or does not return) where the other does. -/
theorem C100_same_inputs (m : Rules) {p : Parser α} {g : GParser ε α}
    (h : Retyped m (fun _ _ => True) p g) (i : Input) :
    (∀ r v, m.parseG g i = .ok (r, v) ↔ m.parse p i = .ok (r, v)) ∧
    (∀ n, m.parseG g i = .error (.incomplete n) ↔ m.parse p i = .error (.incomplete n)) ∧
    ((∃ e, m.parseG g i = .error (.error e)) ↔ ∃ j e, m.parse p i = .error (.error j e)) ∧
    (m.parseG g i = .error .panic ↔ m.parse p i = .error .panic) ∧
    (m.parseG g i = .error .diverge ↔ m.parse p i = .error .diverge) := by
  have hs := (inv_retyped h).parse m i
  refine ⟨fun r v => so_ok_iff hs (r, v), so_incomplete_iff hs, ⟨?_, ?_⟩, so_stuck hs⟩
  · rintro ⟨e, he⟩
    obtain ⟨j, e0, h1, _⟩ := (so_error hs).1 e he
    exact ⟨j, e0, h1⟩
  · rintro ⟨j, e0, he⟩
    obtain ⟨e, h1, _⟩ := (so_error hs).2 j e0 he
    exact ⟨e, h1⟩

/-- **C100** Every relation between `BerError`s and own errors that is preserved by the functions given
as `map_err` and by the conversions holds between the error of the type without the attributes and the
error of the type with them. -/
theorem C100_errors_related (m : Rules) {R : BerErr → ε → Prop} {p : Parser α} {g : GParser ε α}
    (h : Retyped m R p g) (i : Input) :
    (∀ e, m.parseG g i = .error (.error e) →
      ∃ j e0, m.parse p i = .error (.error j e0) ∧ R ⟨j, e0⟩ e) ∧
    (∀ j e0, m.parse p i = .error (.error j e0) →
      ∃ e, m.parseG g i = .error (.error e) ∧ R ⟨j, e0⟩ e) :=
  so_error ((inv_retyped h).parse m i)

/-- **C100** If all the conversions amount to one function `conv` on `BerError`, the own error is the
image of the `BerError` under `conv`: the outcome is the one of the type without the attributes,
converted at the end. -/
theorem C100_converted (m : Rules) (conv : BerErr → ε) {p : Parser α} {g : GParser ε α}
    (h : Retyped m (fun b e => e = conv b) p g) (i : Input) :
    m.parseG g i = convertG conv (m.parse p i) := by
  have hs := (inv_retyped h).parse m i
  cases hx : m.parse p i with
  | ok a => rw [hx] at hs; exact (so_ok_iff hs a).mpr rfl
  | error e =>
    rw [hx] at hs
    cases e with
    | incomplete n => exact (so_incomplete_iff hs n).mpr rfl
    | error j e0 =>
      obtain ⟨e, h1, h2⟩ := (so_error hs).2 j e0 rfl
      rw [h1, h2]; rfl
    | panic => exact (so_stuck hs).1.mpr rfl
    | diverge => exact (so_stuck hs).2.mpr rfl

theorem mapErrG_error (f : ε' → ε) (x : Except (NErr ε') β) (e : ε) :
    mapErrG f x = .error (.error e) ↔ ∃ e0, x = .error (.error e0) ∧ e = f e0 := by
  cases x with
  | ok a =>
    refine ⟨fun h => ?_, fun ⟨e0, h, _⟩ => by cases h⟩
    cases h
  | error x =>
    cases x with
    | error e0 =>
      refine ⟨fun h => ?_, fun ⟨e1, h, h'⟩ => ?_⟩
      · cases h; exact ⟨e0, rfl, rfl⟩
      · cases h; rw [h']; rfl
    | _ => exact ⟨fun h => (by cases h), fun ⟨e1, h, _⟩ => by cases h⟩

theorem bindG_error {γ : Type} (x : Except (NErr ε) β) (f : β → Except (NErr ε) γ) (e : ε) :
    (x >>= f) = .error (.error e) ↔
      x = .error (.error e) ∨ ∃ a, x = .ok a ∧ f a = .error (.error e) := by
  cases x with
  | ok a =>
    refine ⟨fun h => .inr ⟨a, rfl, h⟩, fun h => ?_⟩
    rcases h with h | ⟨b, hb, h⟩
    · cases h
    · cases hb; exact h
  | error x =>
    have he : (Except.error x >>= f) = .error x := rfl
    rw [he]
    refine ⟨fun h => .inl (by cases h; rfl), fun h => ?_⟩
    rcases h with h | ⟨b, hb, h⟩
    · cases h; rfl
    · cases hb

theorem convertG_error (conv : BerErr → ε) (x : Except PErr β) (e : ε) :
    convertG conv x = .error (.error e) ↔ ∃ i e0, x = .error (.error i e0) ∧ e = conv ⟨i, e0⟩ := by
  cases x with
  | ok a => exact ⟨fun h => (by cases h), fun ⟨i, e0, h, _⟩ => by cases h⟩
  | error x =>
    cases x with
    | error i e0 =>
      refine ⟨fun h => ?_, fun ⟨i', e1, h, h'⟩ => ?_⟩
      · cases h; exact ⟨i, e0, rfl, rfl⟩
      · cases h; rw [h']; rfl
    | _ => exact ⟨fun h => (by cases h), fun ⟨i, e1, h, _⟩ => by cases h⟩

theorem convertG_ok (conv : BerErr → ε) (x : Except PErr β) (a : β) :
    convertG conv x = .ok a ↔ x = .ok a := by
  cases x with
  | ok b => exact ⟨fun h => by cases h; rfl, fun h => by cases h; rfl⟩
  | error e => exact ⟨fun h => (by cases h), fun h => by cases h⟩

theorem optTagged_error (m : Rules) (f : ε' → ε) (fh : BerErr → ε) (n : Nat)
    (p : GParser ε' (TaggedValue α)) (rem : Input) (e : ε) :
    optTaggedFieldG m f fh n p rem = .error (.error e) ↔ rem.isEmpty = false ∧
      ((∃ i e0, m.header rem = .error (.error i e0) ∧ e = fh ⟨i, e0⟩) ∨
        ∃ r hd e0, m.header rem = .ok (r, hd) ∧ hd.tag = n ∧
          taggedFieldG m p rem = .error (.error e0) ∧ e = f e0) := by
  unfold optTaggedFieldG
  by_cases hr : rem.isEmpty = true
  · rw [if_pos hr, hr]
    exact ⟨fun h => (by cases h), fun h => by cases h.1⟩
  · have hr' : rem.isEmpty = false := by simpa using hr
    rw [if_neg hr, bindG_error, convertG_error]
    simp only [hr', true_and]
    refine or_congr Iff.rfl ⟨?_, ?_⟩
    · rintro ⟨⟨r, hd⟩, h1, h2⟩
      rw [convertG_ok] at h1
      simp only at h2
      by_cases ht : hd.tag = n
      · rw [if_pos ht, bindG_error, mapErrG_error] at h2
        rcases h2 with ⟨e0, h3, h4⟩ | ⟨a, _, h3⟩
        · refine ⟨r, hd, e0, h1, ht, ?_, h4⟩
          unfold taggedFieldG; rw [h3]; rfl
        · cases h3
      · rw [if_neg ht] at h2; cases h2
    · rintro ⟨r, hd, e0, h1, ht, h2, h3⟩
      refine ⟨(r, hd), (convertG_ok _ _ _).mpr h1, ?_⟩
      simp only
      rw [if_pos ht, bindG_error, mapErrG_error]
      unfold taggedFieldG at h2
      rw [bindG_error] at h2
      rcases h2 with h2 | ⟨a, _, h2⟩
      · exact .inl ⟨e0, h2, h3⟩
      · cases h2

theorem optional_error (m : Rules) (f : ε' → ε) (fh : BerErr → ε) (tag : FieldTag)
    (p : GParser ε' α) (rem : Input) (e : ε) :
    optionalFieldG m f fh tag p rem = .error (.error e) ↔
      FieldError.OptError m f fh tag p rem e := by
  cases tag with
  | untagged => exact mapErrG_error _ _ _
  | explicit cls n => exact optTagged_error _ _ _ _ _ _ _
  | implicit cls n => exact optTagged_error _ _ _ _ _ _ _

theorem field_error (m : Rules) (h : Header) (orig : Input) {T : Type} (fld : GField ε T)
    (rem : Input) (e : ε) :
    fld.parse m h orig rem = .error (.error e) ↔ FieldError m h orig fld rem e := by
  cases fld with
  | required f tag p => exact mapErrG_error _ _ _
  | optional f fh tag p => exact optional_error _ _ _ _ _ _ _
  | default f fh tag p x =>
    show (optionalFieldG m f fh tag p rem >>= _) = _ ↔ FieldError.OptError m f fh tag p rem e
    rw [bindG_error, optional_error]
    constructor
    · rintro (h | ⟨a, _, h⟩)
      · exact h
      · cases h
    · exact .inl
  | custom parse => exact Iff.rfl

theorem fields_error (m : Rules) (h : Header) (orig : Input) :
    {Ts : List Type} → (gs : GFields ε Ts) → (rem : Input) → (e : ε) →
    (gs.run m h orig rem = .error (.error e) ↔ FirstError m h orig gs rem e)
  | _, .nil, rem, e => ⟨fun h => (by cases h), fun h => h.elim⟩
  | _, .cons fld gs, rem, e => by
    unfold GFields.run FirstError
    rw [bindG_error, field_error]
    refine or_congr Iff.rfl ⟨?_, ?_⟩
    · rintro ⟨⟨r, v⟩, h1, h2⟩
      rw [bindG_error] at h2
      rcases h2 with h2 | ⟨a, _, h2⟩
      · exact ⟨r, v, h1, (fields_error m h orig gs r e).mp h2⟩
      · cases h2
    · rintro ⟨r, v, h1, h2⟩
      refine ⟨(r, v), h1, ?_⟩
      rw [bindG_error]
      exact .inl ((fields_error m h orig gs r e).mpr h2)

/-- **C100** The own error of a derived SEQUENCE or SET, on the content of an object: that of the first
field that fails, passed through the function of this field; or, if the object is primitive, the
conversion of `ConstructExpected`. -/
theorem C100_first_error (m : Rules) (tag : Nat) (conv : BerErr → ε) {Ts : List Type}
    (gs : GFields ε Ts) (h : Header) (i : Input) (e : ε) :
    (structG m tag conv gs).content h i = .error (.error e) ↔
      (h.constructed = false ∧ e = conv ⟨i, .constructExpected⟩) ∨
      (h.constructed = true ∧ FirstError m h i gs i e) := by
  show ((convertG conv (h.assertConstructed i) >>= fun _ => gs.run m h i i) = _) ↔ _
  rw [bindG_error, convertG_error]
  unfold Header.assertConstructed
  cases hc : h.constructed with
  | true =>
    simp only [fields_error]
    constructor
    · rintro (⟨j, e0, h1, _⟩ | ⟨a, _, h2⟩)
      · cases h1
      · exact .inr ⟨trivial, h2⟩
    · rintro (⟨h1, _⟩ | ⟨_, h2⟩)
      · cases h1
      · exact .inr ⟨(), rfl, h2⟩
  | false =>
    constructor
    · rintro (⟨j, e0, h1, h2⟩ | ⟨a, h1, _⟩)
      · cases h1; exact .inl ⟨rfl, h2⟩
      · cases h1
    · rintro (⟨_, h1⟩ | ⟨h1, _⟩)
      · exact .inl ⟨i, _, rfl, h1⟩
      · cases h1

/-! ### The byte-slice API -/

theorem ss_all {R : Error → ε → Prop} {x : Except SErr β} {y : Except (NErr ε) β}
    (h : SameOutcomeS R x y) :
    (∀ a, y = .ok a ↔ x = .ok a) ∧ (∀ n, y = .error (.incomplete n) ↔ x = .error (.incomplete n)) ∧
    (∀ e, y = .error (.error e) → ∃ e0, x = .error (.error e0) ∧ R e0 e) ∧
    (∀ e0, x = .error (.error e0) → ∃ e, y = .error (.error e) ∧ R e0 e) := by
  cases x with
  | ok b =>
    cases y with
    | ok c =>
      cases (show b = c from h)
      exact ⟨fun a => Iff.intro (fun h => by cases h; rfl) (fun h => by cases h; rfl),
        fun n => Iff.intro (fun h => by cases h) (fun h => by cases h),
        fun e he => (by cases he), fun e he => (by cases he)⟩
    | error e => exact h.elim
  | error e =>
    cases y with
    | ok b => cases e <;> exact h.elim
    | error e' =>
      refine ⟨fun a => Iff.intro (fun h => by cases h) (fun h => by cases h), fun n => ?_, ?_, ?_⟩ <;>
        cases e <;> cases e' <;> first | exact h.elim | skip
      · rename_i k l
        cases (show k = l from h)
        exact Iff.intro (fun h => by cases h; rfl) (fun h => by cases h; rfl)
      all_goals first
        | exact Iff.intro (fun h => by cases h) (fun h => by cases h)
        | (intro e he; cases he; done)
        | (intro e he; cases he; exact ⟨_, rfl, h⟩)

/-- **C100** The same in the byte-slice API, for `from_ber` (`from_der`) and `try_from`: the same inputs
are accepted with the same values and rests, `Incomplete` is answered on the same inputs with the same
number, and the errors are related by every relation that the functions given as `map_err` and the
conversions preserve. -/
theorem C100_slice_same (m : Rules) {R : Error → ε → Prop} {ty : SliceType α} {g : GSlice ε α}
    (h : RetypedS m R ty g) :
    (∀ bytes,
      (∀ r v, g.from_ bytes = .ok (r, v) ↔ ty.from_ bytes = .ok (r, v)) ∧
      (∀ n, g.from_ bytes = .error (.incomplete n) ↔ ty.from_ bytes = .error (.incomplete n)) ∧
      (∀ e, g.from_ bytes = .error (.error e) → ∃ e0, ty.from_ bytes = .error (.error e0) ∧ R e0 e) ∧
      ∀ e0, ty.from_ bytes = .error (.error e0) → ∃ e, g.from_ bytes = .error (.error e) ∧ R e0 e) ∧
    (∀ a,
      (∀ v, g.tryFrom a = .ok v ↔ ty.tryFrom a = .ok v) ∧
      (∀ e, g.tryFrom a = .error (.error e) → ∃ e0, ty.tryFrom a = .error (.error e0) ∧ R e0 e) ∧
      ∀ e0, ty.tryFrom a = .error (.error e0) → ∃ e, g.tryFrom a = .error (.error e) ∧ R e0 e) := by
  have hi := inv_retypedS h
  refine ⟨fun bytes => ?_, fun a => ?_⟩
  · have hs := ss_all (hi.from_ bytes)
    exact ⟨fun r v => hs.1 (r, v), hs.2.1, hs.2.2⟩
  · have hs := ss_all (hi.tryFrom a)
    exact ⟨hs.1, hs.2.2⟩

theorem settled_structTryFrom (tag : Nat) {Ts : List Type} (fs : SliceFields Ts) (a : Any) :
    Settled (structTryFrom tag fs a) := by
  unfold structTryFrom
  refine settled_bind (settled_assertTag _ _) fun _ => ?_
  split
  · exact settled_ok _
  · rename_i e _
    cases e <;> simp [SErr.flatten, Settled]

/-- **C64** `from_ber` of a derived struct (`BerSequence`, `BerSet`) answers `Incomplete` exactly when
the outermost object is truncated. -/
theorem C64_struct_ber (tag : Nat) {Ts : List Type} (fs : SliceFields Ts) (bytes : Bytes) (n : Nat) :
    fromBerWith (structTryFrom tag fs) bytes = .error (.incomplete n) ↔
      parseBerAny (Input.fromSlice bytes) = .error (.incomplete n) :=
  wrap_bind parseBerAny bytes _
    (fun x => settled_bind (settled_structTryFrom tag fs _) fun _ => settled_ok _) n

/-- A field of type `u32`, under BER and under DER. -/
def u32Slice (m : Rules) : SliceType Nat :=
  ⟨match m with
    | .ber => fromBer (uintBer 4)
    | .der => fromDer (uintBer 4) checkDerInt, tryFromAny (uintBer 4), 2, tagIs 2⟩

/-- **C64** Deviation: `from_der` of a derived struct (`DerSequence`, `DerSet`) passes on the
`Incomplete` of a field, although the struct is complete, so that no further byte ever helps. Here the
struct `{ a: u32 }` on a SEQUENCE that holds a truncated INTEGER, whatever follows. -/
theorem C64_struct_der_deviation (rest : Bytes) :
    structFromDer 16 (.cons (.required .untagged (u32Slice .der)) .nil)
      ([0x30, 0x02, 0x02, 0x05] ++ rest) = .error (.incomplete 5) ∧
    fromBerWith (structTryFrom 16 (.cons (.required .untagged (u32Slice .ber)) .nil))
      ([0x30, 0x02, 0x02, 0x05] ++ rest) = .error (.error (.incomplete (.size 5))) := by
  have e1 : [0x30, 0x02, 0x02, 0x05] = full .universal true 16 [0x02, 0x05] := by
    decide +kernel
  refine ⟨?_, ?_⟩
  · unfold structFromDer wrapBerParser
    rw [parseDerAny_full (Input.fromSlice ([0x30, 0x02, 0x02, 0x05] ++ rest)) .universal true 16
      [0x02, 0x05] rest (by decide) (by decide) (by rw [e1]; rfl)]
    rfl
  · unfold fromBerWith wrapBerParser
    rw [parseBerAny_full (Input.fromSlice ([0x30, 0x02, 0x02, 0x05] ++ rest)) .universal true 16
      [0x02, 0x05] rest (by decide) (by decide) (by rw [e1]; rfl)]
    rfl

/-! ### Cases -/

/-- An own error type: the first field is wrong, or any other error. -/
inductive OwnErr where
  | first
  | other (e : InnerError)
  deriving DecidableEq

/-- `struct Inner { #[map_err(|_| First)] a: u32, b: Vec<u32> }` with `#[error(OwnErr)]`. -/
def ownInner : GParser OwnErr (Tup [Nat, List Nat]) :=
  structG .ber 16 (fun b => .other b.inner)
    (.cons (.required (fun _ => .first) .untagged (uintBer 4).plain)
      (.cons (.required (fun b => .other b.inner) .untagged (vecG .ber (uintBer 4).plain)) .nil))

/-- The same struct without the attributes. -/
def plainInner : Parser (Tup [Nat, List Nat]) :=
  structP .ber 16 (.cons (.required .untagged (uintBer 4))
    (.cons (.required .untagged (vecBer (uintBer 4))) .nil))

/-- Case: the struct, and a struct with a tagged optional field of this type, are `Retyped`; the
relation says that an own error `other e` comes from the `BerError` with that `InnerError`. -/
example : Retyped .ber (fun b e => ∀ x, e = .other x → b.inner = x) plainInner ownInner ∧
    Retyped .ber (fun b e => ∀ x, e = .other x → b.inner = x)
      (structP .ber 16 (.cons (.optional (.explicit .contextSpecific 0) plainInner) .nil))
      (structG .ber 16 (fun b => .other b.inner)
        (.cons (.optional id (fun b => .other b.inner) (.explicit .contextSpecific 0) ownInner) .nil)) := by
  have hc : ∀ (b : BerErr) (x : InnerError), OwnErr.other b.inner = .other x → b.inner = x := by
    intro b x h; injection h
  have h1 : Retyped .ber (fun b e => ∀ x, e = OwnErr.other x → b.inner = x) plainInner ownInner := by
    refine .struct 16 _ hc (.required (R' := fun b e => b = e) _ _ ?_ (.plain _ fun _ => rfl)
      (.required (R' := fun b e => b = e) _ _ ?_ (.vec (.plain _ fun _ => rfl)) .nil))
    · intro b e _ x h; cases h
    · intro b e he x h; cases he; exact hc b x h
  exact ⟨h1, .struct 16 _ hc (.optional _ _ _ (fun _ _ h => h) hc h1 .nil)⟩

/-- Case: a good value, a bad first field, a bad second field, a truncated struct. -/
example :
    let parse (bytes : Bytes) : Except (NErr OwnErr) (Nat × List Nat) :=
      (ownInner.parseBer (Input.fromSlice bytes)).map fun x => (x.2.1, x.2.2.1)
    parse [0x30, 0x08, 0x02, 0x01, 0x07, 0x30, 0x03, 0x02, 0x01, 0x05] = .ok (7, [5]) ∧
    parse [0x30, 0x03, 0x01, 0x01, 0xff] = .error (.error .first) ∧
    parse [0x30, 0x08, 0x02, 0x01, 0x07, 0x30, 0x03, 0x01, 0x01, 0xff] =
      .error (.error (.other (.unexpectedTag none 1))) ∧
    parse [0x30, 0x08, 0x02] = .error (.incomplete 7) := by
  decide +kernel

/-- Case: a `[Inner; 2]`, a `SequenceOf<Inner>` and a `SetOf<Inner>` have the error type of `Inner`, the tuple
`(Inner, u32)` has `BerError`. -/
example (back : OwnErr → BerErr) :
    Retyped .ber (fun _ _ => True) (arrayP 2 anyBer.parseBer plainInner) (arrayG 2 .ber ownInner) ∧
    Retyped .ber (fun _ _ => True) (sequenceOfP anyBer.parseBer plainInner) (sequenceOfG .ber ownInner) ∧
    Retyped .ber (fun _ _ => True) (setOfP anyBer.parseBer plainInner) (setG .ber SetOf.mk ownInner) ∧
    Retyped .ber (fun _ _ => True) (tupleP (.cons plainInner.parseBer (.cons (uintBer 4).parseBer .nil)))
      (tupleG .ber (.cons (.required back .untagged ownInner)
        (.cons (.required id .untagged (uintBer 4).plain) .nil))) := by
  have h1 : Retyped .ber (fun _ _ => True) plainInner ownInner :=
    .struct 16 _ (fun _ => trivial)
      (.required (R' := fun _ _ => True) _ _ (fun _ _ _ => trivial) (.plain _ fun _ => trivial)
        (.required (R' := fun _ _ => True) _ _ (fun _ _ _ => trivial) (.vec (.plain _ fun _ => trivial)) .nil))
  exact ⟨.array 2 h1, .sequenceOf h1, .setOf h1,
    .tuple (fs := .cons (.required .untagged plainInner) (.cons (.required .untagged (uintBer 4)) .nil))
      (fun _ => trivial) (.required (R' := fun _ _ => True) _ _ (fun _ _ _ => trivial) h1
        (.required (R' := fun _ _ => True) _ _ (fun _ _ _ => trivial) (.plain _ fun _ => trivial) .nil))⟩

/-- Case: an array with too few items, and one in which the first field of the second item is wrong. -/
example :
    let parse (bytes : Bytes) : Except (NErr OwnErr) (List Nat) :=
      ((arrayG 2 .ber ownInner).parseBer (Input.fromSlice bytes)).map fun x => x.2.val.map (·.1)
    parse [0x30, 7, 0x30, 5, 2, 1, 7, 0x30, 0] = .error (.error (.other .invalidLength)) ∧
    parse [0x30, 14, 0x30, 5, 2, 1, 7, 0x30, 0, 0x30, 5, 1, 1, 7, 0x30, 0] = .error (.error .first) ∧
    parse [0x30, 14, 0x30, 5, 2, 1, 7, 0x30, 0, 0x30, 5, 2, 1, 9, 0x30, 0] = .ok [7, 9] := by
  decide +kernel

/-- `struct S { #[map_err(|_| First)] a: u32, #[optional] #[tag_explicit(0)] b: Option<u32> }` with
`#[error(OwnErr)]` in the byte-slice API. -/
example : RetypedS .ber (fun _ _ => True)
      (structBerType 16 (.cons (.required .untagged (u32Slice .ber))
        (.cons (.optional (.explicit .contextSpecific 0) (u32Slice .ber)) .nil)))
      (structBerTypeG 16 (fun e => OwnErr.other (InnerError.ofError e))
        (.cons (.required (fun _ => .first) .untagged (u32Slice .ber).plain)
          (.cons (.optional (fun e => .other (InnerError.ofError e)) (fun e => .other (InnerError.ofError e))
            (.explicit .contextSpecific 0) (u32Slice .ber).plain) .nil))) :=
  .structBer 16 _ (fun _ => trivial)
    (.required (R' := fun _ _ => True) _ _ (fun _ _ _ => trivial) (.plain _ fun _ => trivial)
      (.optional (R' := fun _ _ => True) _ _ _ (fun _ _ _ => trivial) (fun _ => trivial)
        (.plain _ fun _ => trivial) .nil))

/-- `struct S { #[map_err(|_| First)] a: u32 }` with `#[error(OwnErr)]` and `DerSequence` in the byte-slice API. -/
def ownSlice : GSlice OwnErr (Tup [Nat]) :=
  structDerTypeG 16 (fun e => .other (InnerError.ofError e))
    (.cons (.required (fun _ => .first) .untagged (u32Slice .ber).plain) .nil)
    (.cons (.required (fun _ => .first) .untagged (u32Slice .der).plain) .nil)

/-- The same struct without the attributes. -/
def plainSlice : SliceType (Tup [Nat]) :=
  structDerType 16 (.cons (.required .untagged (u32Slice .ber)) .nil)
    (.cons (.required .untagged (u32Slice .der)) .nil)

/-- Case: `Vec<S>`, `SetOf<S>` and a set of `S`. -/
example (tf : Any → Except SErr (List (Tup [Nat]))) {σ : Type} (S : SetImpl (Tup [Nat]) σ) (ts : Any → Except SErr σ) :
    RetypedS .der (fun _ _ => True) (listDerType 16 tf plainSlice) (listDerTypeG 16 tf ownSlice) ∧
    RetypedS .der (fun _ _ => True) (listDerType 17 tf plainSlice) (listDerTypeG 17 tf ownSlice) ∧
    RetypedS .der (fun _ _ => True) (setDerType S ts plainSlice) (setDerTypeG S ts ownSlice) := by
  have h : RetypedS .der (fun _ _ => True) plainSlice ownSlice :=
    .structDer 16 _ (fun _ => trivial)
      (.required (R' := fun _ _ => True) _ _ (fun _ _ _ => trivial) (.plain _ fun _ => trivial) .nil)
      (.required (R' := fun _ _ => True) _ _ (fun _ _ _ => trivial) (.plain _ fun _ => trivial) .nil)
  exact ⟨.list 16 tf h, .list 17 tf h, .set S ts h⟩

/-- Case: `Vec<S>` with two good items, with a wrong second item, and with a truncated second item: it is the error
that the conversion makes of `Incomplete`. -/
example :
    let parse (bytes : Bytes) : Except (NErr OwnErr) (List Nat) :=
      (seqFromDerG 16 ownSlice.conv ownSlice.from_ bytes).map fun x => x.2.map (·.1)
    parse [0x30, 10, 0x30, 3, 2, 1, 7, 0x30, 3, 2, 1, 9] = .ok [7, 9] ∧
    parse [0x30, 10, 0x30, 3, 2, 1, 7, 0x30, 3, 1, 1, 0xff] = .error (.error .first) ∧
    parse [0x30, 7, 0x30, 3, 2, 1, 7, 0x30, 3] = .error (.error (.other (InnerError.ofError (.incomplete (.size 3))))) ∧
    parse [0x30, 10, 0x30] = .error (.incomplete 9) := by
  decide +kernel

end Asn1

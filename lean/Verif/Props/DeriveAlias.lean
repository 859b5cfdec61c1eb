import Verif.Model.Derive
import Verif.Proofs.Codec
import Verif.Props.Simple
import Verif.Props.TaggedMore
/-!
# C99: the byte-slice API of derived aliases (`BerAlias`, `DerAlias`)
-/
namespace Asn1
open Spec

variable {α : Type}

theorem aliasTryFrom_ok {tryFrom : Any → Except SErr α} {a : Any} {v : Alias α} :
    aliasTryFrom tryFrom a = .ok v ↔ tryFrom a = .ok v.inner := by
  unfold aliasTryFrom
  cases h : tryFrom a with
  | error e => simp [Bind.bind, Except.bind]
  | ok x =>
    simp only [Bind.bind, Except.bind, pure, Except.pure, Except.ok.injEq]
    constructor
    · intro h; rw [← h]
    · intro h; rw [h]

theorem aliasFromDer_ok {tag : Nat} {tryFrom : Any → Except SErr α} {bytes rem : Bytes}
    {v : Alias α} :
    aliasFromDer tag tryFrom bytes = .ok (rem, v) ↔ ∃ r a,
      parseDerAny (Input.fromSlice bytes) = .ok (r, a) ∧ r.data = rem ∧ a.header.tag = tag ∧
      tryFrom a = .ok v.inner := by
  unfold aliasFromDer
  rw [bindS_eq_ok]
  constructor
  · rintro ⟨⟨i, a⟩, h1, h2⟩
    obtain ⟨_, h0, h2⟩ := bindS_eq_ok.mp h2
    obtain ⟨w, h3, h4⟩ := bindS_eq_ok.mp h2
    obtain ⟨r, h5, h6⟩ := wrapBerParser_ok.mp h1
    simp [pure, Except.pure] at h4
    exact ⟨r, a, h5, by rw [h6, h4.1], assertTagS_ok.mp h0, by rw [← h4.2]; exact h3⟩
  · rintro ⟨r, a, h1, h2, h3, h4⟩
    exact ⟨(rem, a), wrapBerParser_ok.mpr ⟨r, h1, h2⟩,
      bindS_eq_ok.mpr ⟨(), assertTagS_ok.mpr h3, bindS_eq_ok.mpr ⟨v.inner, h4, rfl⟩⟩⟩

/-- **C99** `A::from_ber` is `T::from_ber`: the same inputs are accepted with the same value and the
same rest, the others are refused with the same error. -/
theorem C99_alias_from_ber (p : Parser α) (bytes : Bytes) :
    (∀ rem x, fromBerWith (aliasTryFrom (tryFromAny p)) bytes = .ok (rem, ⟨x⟩) ↔
      fromBer p bytes = .ok (rem, x)) ∧
    (∀ e, fromBerWith (aliasTryFrom (tryFromAny p)) bytes = .error e ↔
      fromBer p bytes = .error e) := by
  unfold fromBerWith fromBer aliasTryFrom
  cases h : wrapBerParser parseBerAny bytes with
  | error e => simp [Bind.bind, Except.bind]
  | ok x =>
    obtain ⟨r, a⟩ := x
    simp only [Bind.bind, Except.bind]
    cases tryFromAny p a <;> simp [pure, Except.pure]

/-- **C99** `A::from_der` accepts what `T::from_der` accepts, with the same value and the same rest.
It accepts more: what `T::from_der` accepts is what `A::from_der` accepts and whose object meets the
DER constraints of `T`, which `A::from_der` does not check. -/
theorem C99_alias_from_der (p : Parser α) (check : Any → Except SErr Unit) (tag : Nat)
    (htag : p.acceptTag = tagIs tag) (bytes rem : Bytes) (x : α) :
    fromDer p check bytes = .ok (rem, x) ↔
      aliasFromDer tag (tryFromAny p) bytes = .ok (rem, ⟨x⟩) ∧
      ∃ r a, parseDerAny (Input.fromSlice bytes) = .ok (r, a) ∧ check a = .ok () := by
  rw [fromDer_ok, aliasFromDer_ok]
  constructor
  · rintro ⟨r, a, y, h1, h2, h3, h4, h5⟩
    have h6 : a.header.tag = tag := by rw [htag] at h4; simpa [tagIs] using h4
    exact ⟨⟨r, a, h1, h2, h6, tryFromAny_ok.mpr ⟨h4, y, h5⟩⟩, r, a, h1, h3⟩
  · rintro ⟨⟨r, a, h1, h2, h3, h4⟩, r', a', h5, h6⟩
    rw [h1] at h5
    injection h5 with h5
    injection h5 with _ h5
    obtain ⟨h7, y, h8⟩ := tryFromAny_ok.mp h4
    exact ⟨r, a, y, h1, h2, by rw [h5]; exact h6, h7, h8⟩

/-- A case. -/
example : fromDer (uintBer 2) checkDerInt [2, 1, 5, 9] = .ok ([9], 5) ∧
    aliasFromDer 2 (tryFromAny (uintBer 2)) [2, 1, 5, 9] = .ok ([9], ⟨5⟩) := by decide +kernel

/-- **C99** Whenever `A::from_der` accepts, `A::check_constraints` of the object says whether
`T::from_der` does. -/
theorem C99_alias_check (p : Parser α) (check : Any → Except SErr Unit) (tag : Nat)
    (htag : p.acceptTag = tagIs tag) (bytes rem : Bytes) (x : α) (r : Input) (a : Any)
    (h : parseDerAny (Input.fromSlice bytes) = .ok (r, a))
    (hx : aliasFromDer tag (tryFromAny p) bytes = .ok (rem, ⟨x⟩)) :
    aliasCheck tag check a = .ok () ↔ fromDer p check bytes = .ok (rem, x) := by
  rw [C99_alias_from_der p check tag htag]
  obtain ⟨r', a', h1, h2, h3, h4⟩ := aliasFromDer_ok.mp hx
  rw [h] at h1
  injection h1 with h1
  injection h1 with _ h1
  unfold aliasCheck
  rw [bindS_eq_ok]
  constructor
  · rintro ⟨_, _, hc⟩
    exact ⟨hx, r, a, h, hc⟩
  · rintro ⟨_, r'', a'', h5, h6⟩
    rw [h] at h5
    injection h5 with h5
    injection h5 with _ h5
    exact ⟨(), assertTagS_ok.mpr (by rw [h1]; exact h3), by rw [h5]; exact h6⟩

/-- A case: an INTEGER with a redundant byte is read by the alias, and its constraints are not met. -/
example : aliasFromDer 2 (tryFromAny (uintBer 2)) [0x02, 0x02, 0x00, 0x07] = .ok ([], ⟨7⟩) ∧
    (parseDerAny (Input.fromSlice [0x02, 0x02, 0x00, 0x07])).isOk = true ∧
    (fromDer (uintBer 2) checkDerInt [0x02, 0x02, 0x00, 0x07]).isOk = false := by
  decide +kernel

/-- **C99** An alias of `Any` is decoded as the object itself. -/
theorem C99_alias_any (bytes rem : Bytes) (a : Any) :
    (aliasAnyFromDer bytes = .ok (rem, ⟨a⟩) ↔ wrapBerParser parseDerAny bytes = .ok (rem, a)) ∧
    (fromBerWith (aliasTryFrom .ok) bytes = .ok (rem, ⟨a⟩) ↔
      wrapBerParser parseBerAny bytes = .ok (rem, a)) := by
  unfold aliasAnyFromDer fromBerWith aliasTryFrom
  constructor
  · cases h : wrapBerParser parseDerAny bytes <;>
      simp [Bind.bind, Except.bind, pure, Except.pure, Prod.ext_iff]
  · cases h : wrapBerParser parseBerAny bytes <;>
      simp [Bind.bind, Except.bind, pure, Except.pure, Prod.ext_iff]

/-- **C99** `A::from_der` does not panic, whatever the input, for an inner type whose conversion from an
object does not. (`bool::from_der` panics on an empty BOOLEAN, C19; an alias of `bool` does not.) -/
theorem C99_no_panic (tag : Nat) (p : Parser α) (hp : p.Safe) (bytes : Bytes) :
    NoPanicS (aliasFromDer tag (tryFromAny p) bytes) := by
  unfold aliasFromDer
  have hs := safe_wrap (fun i => ⟨good_parseDerAny.noPanic i, good_parseDerAny.noDiverge i⟩) bytes
  refine NoPanicS.bind hs fun x => NoPanicS.bind ?_ fun _ =>
    NoPanicS.bind (safe_tryFromAny hp _) fun _ => ?_
  · unfold assertTagS tagAssertEq
    split <;> simp [NoPanicS]
  · simp [NoPanicS, pure, Except.pure]

example (bytes : Bytes) : NoPanicS (aliasFromDer tagBoolean (tryFromAny boolBer) bytes) :=
  C99_no_panic _ _ (safe_map safe_boolean.1) bytes

/-- **C99** Deviation: an alias of `bool` accepts in `from_der` a BOOLEAN that `bool::from_der`
refuses (its content octet is neither 00 nor FF). -/
theorem C99_der_check_deviation :
    aliasFromDer tagBoolean (tryFromAny boolBer) [0x01, 0x01, 0x42] = .ok ([], ⟨true⟩) ∧
    fromDer boolBer booleanCheck [0x01, 0x01, 0x42] =
      .error (.error (.derConstraintFailed .invalidBoolean)) := by
  decide +kernel

example : fromDer boolBer booleanCheck [0x01, 0x01, 0xff] = .ok ([], true) ∧
    aliasFromDer tagBoolean (tryFromAny boolBer) [0x01, 0x01, 0xff] = .ok ([], ⟨true⟩) := by
  decide +kernel

end Asn1

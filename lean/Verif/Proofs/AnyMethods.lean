import Verif.Spec.AnyMethods
import Verif.Props.Built
import Verif.Props.DeriveSlice
/-!
# The methods of `Any`
-/
namespace Asn1
open Spec

variable {α : Type}

/-! ### The content parsers do not look at the tag -/

theorem segmented_tag {β : Type} (acc : Nat → Bool) (e : β) (app : β → β → β)
    (leaf : Header → Input → PRes β) (hleaf : ∀ h i t, leaf { h with tag := t } i = leaf h i)
    (n : Nat) (h : Header) (i : Input) (t : Nat) :
    parseSegmented acc e app leaf n { h with tag := t } i = parseSegmented acc e app leaf n h i := by
  cases n with
  | zero => rfl
  | succ n =>
    rw [parseSegmented, parseSegmented]
    simp only [segContent, berGetContent, berContent_tag, hleaf]

theorem strBytes_tag (h : Header) (i : Input) (t : Nat) :
    strBytes { h with tag := t } i = strBytes h i := by
  unfold strBytes
  rw [segmented_tag _ _ _ _ (fun _ _ _ => rfl)]

theorem wideBytes_tag (h : Header) (i : Input) (t : Nat) :
    wideBytes { h with tag := t } i = wideBytes h i := by
  unfold wideBytes
  rw [segmented_tag _ _ _ _ (fun _ _ _ => rfl)]

theorem universal_content_tag {c : Codec α} (hc : UniversalType c) (h : Header) (i : Input) (t : Nat) :
    c.ber.content { h with tag := t } i = c.ber.content h i := by
  have hbl : ∀ h i t, bitLeaf { h with tag := t } i = bitLeaf h i := by
    intro h i t
    unfold bitLeaf berGetContent
    rw [berContent_tag]
  cases hc with
  | octetString => exact octetContent_tag h i t
  | bitString =>
    show bitContent _ i = bitContent _ i
    unfold bitContent
    rw [segmented_tag _ _ _ _ hbl, hbl]
  | text hk =>
    show strBerContent _ _ i = strBerContent _ _ i
    unfold strBerContent
    rw [strBytes_tag]
  | string =>
    show strBerContent _ _ i = strBerContent _ _ i
    unfold strBerContent
    rw [strBytes_tag]
  | bmpString =>
    show bmpBerContent _ i = bmpBerContent _ i
    unfold bmpBerContent
    rw [wideBytes_tag]
  | universalString =>
    show univBerContent _ i = univBerContent _ i
    unfold univBerContent
    rw [wideBytes_tag]
  | _ => rfl

theorem real_content_tag (lib : FloatLib) (h : Header) (i : Input) (t : Nat) (x : Input × Real)
    (hx : (realP lib).content h i = .ok x) : (realP lib).content { h with tag := t } i = .ok x := by
  have hbase : ∀ tag tag' first e i y, realBase tag first e i = .ok y → realBase tag' first e i = .ok y := by
    intro tag tag' first e i y h
    unfold realBase at *
    split
    · next h1 => rwa [if_pos h1] at h
    · next h1 =>
      rw [if_neg h1] at h
      split
      · next h2 => rwa [if_pos h2] at h
      · next h2 =>
        rw [if_neg h2] at h
        split
        · next h3 => rwa [if_pos h3] at h
        · next h3 => rw [if_neg h3] at h; cases h
  have hexp : ∀ tag tag' eo i y, realExponent tag eo i = .ok y → realExponent tag' eo i = .ok y := by
    intro tag tag' eo i y h
    unfold realExponent at *
    split
    · next => cases h
    · next b bs =>
      simp only at h
      split
      · next h1 => rw [if_pos h1] at h; cases h
      · next h1 => rwa [if_neg h1] at h
  have hman : ∀ tag tag' first rem i y, realMantissa tag first rem i = .ok y →
      realMantissa tag' first rem i = .ok y := by
    intro tag tag' first rem i y h
    unfold realMantissa at *
    split
    · next h1 => rw [if_pos h1] at h; cases h
    · next h1 => rwa [if_neg h1] at h
  have hbin : ∀ tag tag' first rem i y, decodeRealBinary tag first rem i = .ok y →
      decodeRealBinary tag' first rem i = .ok y := by
    intro tag tag' first rem i y h
    unfold decodeRealBinary at *
    obtain ⟨n, h1, h2⟩ := bind_eq_ok.mp h
    refine bind_eq_ok.mpr ⟨n, h1, ?_⟩
    simp only at h2 ⊢
    split
    · next h3 => rw [if_pos h3] at h2; cases h2
    · next h3 =>
      rw [if_neg h3] at h2
      obtain ⟨e, h4, h5⟩ := bind_eq_ok.mp h2
      obtain ⟨b, h6, h7⟩ := bind_eq_ok.mp h5
      obtain ⟨p, h8, h9⟩ := bind_eq_ok.mp h7
      exact bind_eq_ok.mpr ⟨e, hexp _ _ _ _ _ h4, bind_eq_ok.mpr ⟨b, hbase _ _ _ _ _ _ h6,
        bind_eq_ok.mpr ⟨p, hman _ _ _ _ _ _ h8, h9⟩⟩⟩
  have hdec : ∀ tag tag' first rem i y, decodeRealDecimal lib tag first rem i = .ok y →
      decodeRealDecimal lib tag' first rem i = .ok y := by
    intro tag tag' first rem i y h
    unfold decodeRealDecimal at *
    cases h0 : fromUtf8 rem with
    | none => rw [h0] at h; cases h
    | some s =>
      rw [h0] at h
      simp only at h ⊢
      split
      · next h1 =>
        rw [if_pos h1] at h
        cases h2 : parseU32 rem with
        | none => rw [h2] at h; cases h
        | some v => rw [h2] at h; exact h
      · next h1 =>
        rw [if_neg h1] at h
        split
        · next h3 =>
          rw [if_pos h3] at h
          cases h2 : lib.parse rem with
          | none => rw [h2] at h; cases h
          | some v => rw [h2] at h; exact h
        · next h3 => rw [if_neg h3] at h; cases h
  obtain ⟨u, h1, h2⟩ := bind_eq_ok.mp hx
  obtain ⟨v, h3, h4⟩ := bind_eq_ok.mp h2
  refine bind_eq_ok.mpr ⟨u, h1, bind_eq_ok.mpr ⟨v, ?_, h4⟩⟩
  unfold decodeReal at h3 ⊢
  cases hd : i.data with
  | nil => rw [hd] at h3; exact h3
  | cons b bs =>
    rw [hd] at h3
    simp only at h3 ⊢
    split
    · next h5 => rw [if_pos h5] at h3; exact hbin _ _ _ _ _ _ h3
    · next h5 =>
      rw [if_neg h5] at h3
      split
      · next h6 =>
        rw [if_pos h6] at h3
        unfold decodeRealSpecial at h3 ⊢
        split
        · next h7 => rw [if_pos h7] at h3; cases h3
        · next h7 =>
          rw [if_neg h7] at h3
          split
          · next h8 => rwa [if_pos h8] at h3
          · next h8 =>
            rw [if_neg h8] at h3
            split
            · next h9 => rwa [if_pos h9] at h3
            · next h9 =>
              rw [if_neg h9] at h3
              split
              · next h10 => rwa [if_pos h10] at h3
              · next h10 => rw [if_neg h10] at h3; cases h3
      · next h6 => rw [if_neg h6] at h3; exact hdec _ _ _ _ _ _ h3

/-- No conversion looks at the tag number. -/
theorem convertible_tag {p : Parser α} {tag : Nat} (hp : Convertible p tag) (h : Header) (i : Input)
    (t : Nat) (x : Input × α) : p.content { h with tag := t } i = .ok x ↔ p.content h i = .ok x := by
  cases hp with
  | universal hc => rw [universal_content_tag hc]
  | real lib =>
    refine ⟨fun hx => ?_, real_content_tag lib h i t x⟩
    exact real_content_tag lib { h with tag := t } i h.tag x hx
  | _ => exact Iff.rfl

theorem convertible_accept {p : Parser α} {tag : Nat} (hp : Convertible p tag) :
    p.acceptTag tag = true := by
  cases hp with
  | universal hc =>
    cases hc with
    | text hk => cases hk <;> rfl
    | _ => rfl
  | _ => rfl

theorem anyInto_ok {p : Parser α} {a : Any} {v : α} :
    anyInto p a = .ok v ↔ ∃ r, p.content a.header a.data = .ok (r, v) := by
  unfold anyInto
  cases h : p.content a.header a.data with
  | error e => simp
  | ok x => obtain ⟨r, w⟩ := x; simp

/-! ### Errors about tags -/

/-- The result is not an error about an unexpected tag. -/
def Quiet {β : Type} (x : Except PErr β) : Prop := ∀ i o t, x ≠ .error (.error i (.unexpectedTag o t))

/-- The same for plain errors. -/
def QuietE {β : Type} (x : Except Error β) : Prop := ∀ o t, x ≠ .error (.unexpectedTag o t)

variable {β γ : Type}

theorem Quiet.bind {x : Except PErr β} {f : β → Except PErr γ} (h1 : Quiet x)
    (h2 : ∀ a, x = .ok a → Quiet (f a)) : Quiet (x >>= f) := fun i o t =>
  bind_not (h1 i o t) fun a ha => h2 a ha i o t

theorem QuietE.bind {x : Except Error β} {f : β → Except Error γ} (h1 : QuietE x)
    (h2 : ∀ a, QuietE (f a)) : QuietE (x >>= f) := by
  intro o t
  cases x with
  | error e => simpa [Bind.bind, Except.bind] using h1 o t
  | ok a => simpa [Bind.bind, Except.bind] using h2 a o t

theorem quiet_ok (a : β) : Quiet (.ok a : Except PErr β) := fun _ _ _ h => by cases h
theorem quiet_pure (a : β) : Quiet (pure a : Except PErr β) := quiet_ok a
theorem quietE_ok (a : β) : QuietE (.ok a : Except Error β) := fun _ _ h => by cases h
theorem quiet_panic : Quiet (.error .panic : Except PErr β) := fun _ _ _ h => by cases h
theorem quiet_diverge : Quiet (.error .diverge : Except PErr β) := fun _ _ _ h => by cases h
theorem quiet_incomplete (n : Nat) : Quiet (.error (.incomplete n) : Except PErr β) :=
  fun _ _ _ h => by cases h
theorem quiet_nomErr {i : Input} {e : InnerError} (h : ∀ o t, e ≠ .unexpectedTag o t) :
    Quiet (nomErr i e : Except PErr β) := by
  intro j o t hh
  unfold nomErr at hh
  injection hh with hh
  injection hh with _ hh
  exact h o t hh

theorem quiet_take (i : Input) (n : Nat) : Quiet (i.take n) := by
  unfold Input.take; split
  · exact quiet_ok _
  · exact quiet_panic
theorem quiet_takeFrom (i : Input) (n : Nat) : Quiet (i.takeFrom n) := by
  unfold Input.takeFrom; split
  · exact quiet_ok _
  · exact quiet_panic
theorem quiet_takeSplit (i : Input) (n : Nat) : Quiet (i.takeSplit n) :=
  (quiet_takeFrom i n).bind fun _ _ => (quiet_take i n).bind fun _ _ => quiet_ok _
theorem quiet_takeS (n : Nat) (i : Input) : Quiet (takeS n i) := by
  unfold takeS; split
  · exact quiet_incomplete _
  · exact (quiet_takeFrom i _).bind fun _ _ => (quiet_take i _).bind fun _ _ => quiet_ok _
theorem quiet_beU8 (i : Input) : Quiet (beU8 i) := by
  unfold beU8; split
  · exact quiet_incomplete _
  · exact quiet_ok _
theorem quiet_assertPrimitive (h : Header) (i : Input) : Quiet (h.assertPrimitive i) := by
  unfold Header.assertPrimitive; split
  · exact quiet_nomErr (by simp)
  · exact quiet_ok _
theorem quiet_assertConstructed (h : Header) (i : Input) : Quiet (h.assertConstructed i) := by
  unfold Header.assertConstructed; split
  · exact quiet_nomErr (by simp)
  · exact quiet_ok _

theorem quiet_tagLoop (input : Input) (n : Nat) : ∀ i c k, Quiet (tagLoop input n i c k) := by
  induction n with
  | zero => intro i c k; exact quiet_diverge
  | succ n ih =>
    intro i c k
    unfold tagLoop
    split
    · exact quiet_nomErr (by simp)
    · split
      · exact quiet_nomErr (by simp)
      · simp only
        split
        · exact quiet_ok _
        · exact ih _ _ _

theorem quiet_parseHeader (i : Input) : Quiet (parseHeader i) := by
  unfold parseHeader
  refine (quiet_beU8 i).bind fun x _ => ?_
  simp only
  split
  · exact quiet_panic
  · refine Quiet.bind ?_ fun y _ => ?_
    · unfold parseTag
      simp only
      split
      · exact quiet_tagLoop _ _ _ _ _
      · exact quiet_ok _
    · obtain ⟨y1, y2, y3⟩ := y
      split
      · exact quiet_panic
      · refine (quiet_beU8 _).bind fun z _ => ?_
        refine Quiet.bind ?_ fun w _ => ?_
        · unfold parseLength
          split
          · split
            · exact quiet_nomErr (by simp)
            · exact quiet_ok _
          · split
            · exact quiet_ok _
            · split
              · exact quiet_nomErr (by simp)
              · refine (quiet_takeS _ _).bind fun u _ => ?_
                simp only
                split
                · exact quiet_ok _
                · exact quiet_nomErr (by simp)
        · simp only
          split
          · exact quiet_panic
          · exact (quiet_take _ _).bind fun _ _ => quiet_ok _

theorem quiet_skipContent (d : Nat) : ∀ i h, Quiet (skipContent d i h) := by
  induction d with
  | zero => intro i h; exact quiet_nomErr (by simp)
  | succ d ih =>
    intro i h
    rw [skipContent]
    split
    · split
      · exact quiet_ok _
      · exact (quiet_takeS _ _).bind fun _ _ => quiet_ok _
    · refine (quiet_assertConstructed h i).bind fun _ _ => ?_
      have : ∀ n i, Quiet (skipLoop (fun i h => skipContent d i h) n i) := by
        intro n
        induction n with
        | zero => intro i; exact quiet_diverge
        | succ n ihn =>
          intro i
          unfold skipLoop
          refine (quiet_parseHeader i).bind fun x _ => (ih _ _).bind fun y _ => ?_
          simp only
          split
          · exact quiet_ok _
          · exact ihn _
      exact this _ _

theorem quiet_berContent (h : Header) (i : Input) (d : Nat) : Quiet (berContent h i d) := by
  unfold berContent
  refine (quiet_skipContent d i h).bind fun x _ => ?_
  simp only
  split
  · exact quiet_panic
  · split
    · exact quiet_takeSplit _ _
    · split
      · exact quiet_panic
      · exact (quiet_take _ _).bind fun _ _ => quiet_ok _

theorem quiet_anyBer (i : Input) : Quiet (anyBer.parseBer i) := by
  rw [anyBer_parseBer]
  exact (quiet_parseHeader i).bind fun _ _ => (quiet_berContent _ _ _).bind fun _ _ => quiet_ok _

theorem quiet_forIter {σ : Type} {parse : Input → PRes Any} (hp : ∀ i, Quiet (parse i))
    {f : σ → Any → Except PErr (Bool × σ)} (hf : ∀ s a, Quiet (f s a)) (n : Nat) :
    ∀ it s, Quiet (forIter parse f n it s) := by
  have hn : ∀ it : AnyIter, ∀ i o t it', it.next parse ≠ .error (.error i (.unexpectedTag o t)) ∧
      it.next parse ≠ .ok (some (.err i (.unexpectedTag o t)), it') := by
    intro it i o t it'
    unfold AnyIter.next
    split
    · simp
    · have := hp it.input
      cases h : parse it.input with
      | ok x =>
        simp only
        split
        · simp
        · cases h2 : it.input.take (x.1.start - it.input.start) with
          | error e =>
            have h3 := quiet_take it.input (x.1.start - it.input.start)
            rw [h2] at h3
            refine ⟨?_, by simp [Bind.bind, Except.bind]⟩
            simpa [Bind.bind, Except.bind] using h3 i o t
          | ok y => simp [Bind.bind, Except.bind, pure, Except.pure]
      | error e =>
        rw [h] at this
        cases e with
        | error j e =>
          refine ⟨by simp, ?_⟩
          simp only [ne_eq, Except.ok.injEq, Prod.mk.injEq, Option.some.injEq, IterItem.err.injEq, not_and]
          rintro ⟨rfl, rfl⟩
          exact absurd rfl (this _ _ _)
        | _ => simp
  induction n with
  | zero => intro it s; exact quiet_diverge
  | succ n ih =>
    intro it s
    unfold forIter
    split
    · next e he =>
      intro i o t h
      injection h with h
      subst h
      exact (hn it i o t it).1 he
    · exact quiet_ok _
    · next i e it' he =>
      intro i o t h
      injection h with h
      injection h with h1 h2
      subst h2
      exact (hn it _ o t _).2 he
    · next sp a it' he =>
      have := hf s a
      split
      · next e hfe => rw [hfe] at this; exact fun i o t h => this i o t (by cases h; rfl)
      · exact ih _ _
      · exact quiet_ok _

theorem quiet_segmented {acc : Nat → Bool} {e : β} {app : β → β → β} {leaf : Header → Input → PRes β}
    (hleaf : ∀ h i, Quiet (leaf h i)) (n : Nat) : ∀ h i, Quiet (parseSegmented acc e app leaf n h i) := by
  induction n with
  | zero => intro h i; exact quiet_nomErr (by simp)
  | succ n ih =>
    intro h i
    rw [parseSegmented]
    split
    · exact quiet_nomErr (by simp)
    · split
      · refine Quiet.bind ?_ fun x _ => ?_
        · unfold segContent
          split
          · exact quiet_berContent _ _ _
          · exact quiet_takeSplit _ _
        · refine Quiet.bind ?_ fun _ _ => quiet_ok _
          refine quiet_forIter quiet_anyBer ?_ _ _ _
          intro s a
          unfold segStep
          split
          · exact quiet_ok _
          · split
            · exact quiet_nomErr (by simp)
            · split
              · exact quiet_ok _
              · have := ih a.header a.data
                split
                · exact quiet_ok _
                · next e he => exact fun i o t h => this i o t (he.trans (by cases h; rfl))
      · exact (quiet_berContent _ _ _).bind fun _ _ => (hleaf _ _).bind fun _ _ => quiet_ok _

theorem quiet_octetLeaf (h : Header) (i : Input) : Quiet (octetLeaf h i) :=
  (quiet_takeSplit _ _).bind fun _ _ => quiet_ok _

theorem quietE_decimal (tag : Nat) (a b : UInt8) : QuietE (decodeDecimal tag a b) := by
  unfold decodeDecimal; split
  · exact quietE_ok _
  · intro o t; simp

theorem quietE_invalid {tag : Nat} {s : String} : QuietE (.error (.invalidValue tag s) : Except Error β) := by
  intro o t; simp

theorem quietE_zone (tag : Nat) (r : Bytes) : QuietE (decodeZone tag r) := by
  unfold decodeZone
  split
  · split
    · exact quietE_ok _
    · exact quietE_invalid
  · split
    · exact (quietE_decimal _ _ _).bind fun _ => (quietE_decimal _ _ _).bind fun _ => quietE_ok _
    · split
      · exact (quietE_decimal _ _ _).bind fun _ => (quietE_decimal _ _ _).bind fun _ => quietE_ok _
      · exact quietE_invalid
  · exact quietE_invalid

theorem quietE_seconds (tag : Nat) (r : Bytes) : QuietE (decodeSeconds tag r) := by
  unfold decodeSeconds
  split
  · exact (quietE_decimal _ _ _).bind fun _ => quietE_ok _
  · exact quietE_ok _

theorem quietE_utc (bs : Bytes) : QuietE (utcFromBytes bs) := by
  unfold utcFromBytes
  split
  · refine (quietE_decimal _ _ _).bind fun _ => (quietE_decimal _ _ _).bind fun _ =>
      (quietE_decimal _ _ _).bind fun _ => (quietE_decimal _ _ _).bind fun _ =>
      (quietE_decimal _ _ _).bind fun _ => ?_
    unfold utcRest
    split
    · exact quietE_invalid
    · refine (quietE_seconds _ _).bind fun x => ?_
      simp only
      split
      · exact quietE_invalid
      · split
        · exact quietE_invalid
        · exact (quietE_zone _ _).bind fun _ => quietE_ok _
  · exact quietE_invalid

theorem quietE_frac (n : Nat) : ∀ idx r f, QuietE (fracLoop n idx r f) := by
  induction n with
  | zero => intro idx r f; exact quietE_ok _
  | succ n ih =>
    intro idx r f
    unfold fracLoop
    split
    · split
      · exact quietE_invalid
      · exact quietE_ok _
    · split
      · exact quietE_invalid
      · split
        · exact ih _ _ _
        · split
          · exact quietE_ok _
          · exact quietE_invalid

theorem quietE_gen (bs : Bytes) : QuietE (genFromBytes bs) := by
  unfold genFromBytes
  split
  · refine (quietE_decimal _ _ _).bind fun _ => (quietE_decimal _ _ _).bind fun _ =>
      (quietE_decimal _ _ _).bind fun _ => (quietE_decimal _ _ _).bind fun _ =>
      (quietE_decimal _ _ _).bind fun _ => (quietE_decimal _ _ _).bind fun _ => ?_
    unfold genTime
    split
    · exact quietE_invalid
    · refine (quietE_seconds _ _).bind fun x => ?_
      simp only
      split
      · exact quietE_invalid
      · unfold genRest
        split
        · exact quietE_ok _
        · refine QuietE.bind ?_ fun y => ?_
          · unfold decodeFraction
            split
            · split
              · exact (quietE_frac _ _ _ _).bind fun _ => quietE_ok _
              · exact quietE_ok _
            · exact quietE_ok _
          · simp only
            split
            · exact quietE_ok _
            · exact (quietE_zone _ _).bind fun _ => quietE_ok _
  · exact quietE_invalid

theorem quiet_ofError {i : Input} {e : Error} (h : ∀ o t, e ≠ .unexpectedTag o t) :
    Quiet (nomErr i (.ofError e) : Except PErr β) := by
  refine quiet_nomErr fun o t => ?_
  cases e <;> simp_all [InnerError.ofError]

theorem quiet_timeOf {rem data : Input} {r : Except Error DateTime} (h : QuietE r) :
    Quiet (timeOf rem data r) := by
  unfold timeOf
  split
  · exact quiet_ok _
  · exact quiet_ofError fun o t he => h o t (by rw [he])

theorem quiet_uintContent (N : Nat) (h : Header) (i : Input) : Quiet (uintContent N h i) := by
  refine (quiet_assertPrimitive h i).bind fun _ _ => ?_
  refine Quiet.bind ?_ fun _ _ => (quiet_takeFrom _ _).bind fun _ _ => quiet_ok _
  unfold decodeArrayUint
  split
  · exact quiet_nomErr (by simp)
  · simp only
    split
    · exact quiet_nomErr (by simp)
    · exact quiet_ok _

theorem quiet_strBytes (h : Header) (i : Input) : Quiet (strBytes h i) := by
  unfold strBytes
  split
  · exact (quiet_takeSplit _ _).bind fun _ _ => quiet_ok _
  · exact quiet_segmented quiet_octetLeaf _ _ _

theorem quiet_wideBytes (h : Header) (i : Input) : Quiet (wideBytes h i) := by
  unfold wideBytes
  split
  · exact (quiet_takeSplit _ _).bind fun _ _ => quiet_ok _
  · exact quiet_segmented quiet_octetLeaf _ _ _

theorem quiet_str {k : StrKind} {tag : Nat} {A : Char → Bool} (hk : StringType k tag A) (h : Header)
    (i : Input) : Quiet (strBerContent k h i) := by
  refine (quiet_strBytes h i).bind fun x _ => ?_
  show Quiet (strOfBytes _ _ _)
  unfold strOfBytes
  split
  · next e he =>
    refine quiet_ofError fun o t h => ?_
    subst h
    cases hk
    case utf8 => unfold utf8StringK at he; simp only at he; split at he <;> cases he
    all_goals
      simp only [numericStringK, printableStringK, teletexStringK, videotexStringK, ia5StringK,
        graphicStringK, visibleStringK, generalStringK, objectDescriptorK, allBytes] at he
      split at he <;> cases he
  · split
    · exact quiet_ok _
    · exact quiet_nomErr (by simp)

theorem quiet_utf8Whole (i : Input) : Quiet (utf8Whole i) := by
  refine (quiet_takeSplit _ _).bind fun _ _ => ?_
  simp only
  split
  · exact quiet_ok _
  · exact quiet_nomErr (by simp)

/-- The content parsers of the universal types never complain about a tag. -/
theorem quiet_universal {c : Codec α} (hc : UniversalType c) (h : Header) (i : Input) :
    Quiet (c.ber.content h i) := by
  cases hc with
  | uint N _ => exact quiet_uintContent N h i
  | int N _ =>
    show Quiet (intContent N h i)
    refine (quiet_assertPrimitive h i).bind fun _ _ => ?_
    refine Quiet.bind ?_ fun _ _ => (quiet_takeFrom _ _).bind fun _ _ => quiet_ok _
    unfold intValue
    split
    · refine Quiet.bind ?_ fun _ _ => quiet_ok _
      unfold decodeArrayInt
      split
      · exact quiet_nomErr (by simp)
      · exact quiet_ok _
    · refine Quiet.bind ?_ fun _ _ => ?_
      · unfold decodeArrayUint
        split
        · exact quiet_nomErr (by simp)
        · simp only
          split
          · exact quiet_nomErr (by simp)
          · exact quiet_ok _
      · simp only
        split
        · exact quiet_nomErr (by simp)
        · exact quiet_ok _
  | integer =>
    refine (quiet_assertPrimitive h i).bind fun _ _ => ?_
    refine Quiet.bind ?_ fun _ _ => ?_
    · unfold derContent
      split
      · exact quiet_takeS _ _
      · exact quiet_nomErr (by simp)
    · simp only
      split
      · exact quiet_nomErr (by simp)
      · exact quiet_ok _
  | bool =>
    have hb : Quiet (booleanContent h i) := by
      refine (quiet_assertPrimitive h i).bind fun _ _ => ?_
      split
      · exact quiet_nomErr (by simp)
      · exact quiet_beU8 _
    show Quiet (boolBer.content h i)
    unfold boolBer Parser.map
    simp only
    split
    · exact quiet_ok _
    · next e he =>
      intro j o t hh
      injection hh with hh
      subst hh
      exact hb j o t he
  | null =>
    refine (quiet_assertPrimitive h i).bind fun _ _ => ?_
    split
    · exact quiet_nomErr (by simp)
    · exact quiet_ok _
  | enumerated => exact (quiet_assertPrimitive h i).bind fun _ _ => quiet_uintContent 4 h i
  | octetString =>
    show Quiet (octetContent h i)
    unfold octetContent
    split
    · exact quiet_octetLeaf h i
    · exact quiet_segmented quiet_octetLeaf _ _ _
  | bitString =>
    have hl : ∀ h i, Quiet (bitLeaf h i) := by
      intro h i
      refine (quiet_berContent _ _ _).bind fun _ _ => ?_
      simp only
      unfold bitPrimitive
      split
      · exact quiet_nomErr (by simp)
      · split
        · split
          · exact quiet_ok _
          · exact quiet_nomErr (by simp)
        · exact quiet_nomErr (by simp)
    show Quiet (bitContent h i)
    unfold bitContent
    split
    · exact hl h i
    · exact quiet_segmented hl _ _ _
  | oid =>
    refine (quiet_assertPrimitive h i).bind fun _ _ => ?_
    split
    · exact quiet_nomErr (by simp)
    · exact (quiet_takeSplit _ _).bind fun _ _ => quiet_ok _
  | utcTime =>
    show Quiet (utcBerContent h i)
    unfold utcBerContent
    split
    · exact quiet_nomErr (by simp)
    · split
      · exact quiet_nomErr (by simp)
      · exact (quiet_takeSplit _ _).bind fun _ _ => quiet_timeOf (quietE_utc _)
  | generalizedTime =>
    show Quiet (genBerContent h i)
    unfold genBerContent
    split
    · exact quiet_nomErr (by simp)
    · split
      · exact quiet_nomErr (by simp)
      · exact (quiet_takeSplit _ _).bind fun _ _ => quiet_timeOf (quietE_gen _)
  | text hk => exact quiet_str hk h i
  | refStr =>
    show Quiet (if h.constructed then _ else _)
    split
    · exact quiet_nomErr (by simp)
    · exact quiet_utf8Whole i
  | string => exact quiet_str .utf8 h i
  | bmpString =>
    refine (quiet_wideBytes h i).bind fun x _ => ?_
    show Quiet (bmpOfBytes _ _)
    unfold bmpOfBytes
    split
    · exact quiet_ok _
    · exact quiet_nomErr (by simp)
  | universalString =>
    refine (quiet_wideBytes h i).bind fun x _ => ?_
    show Quiet (univOfBytes _ _)
    unfold univOfBytes
    split
    · exact quiet_nomErr (by simp)
    · split
      · exact quiet_panic
      · exact quiet_nomErr (by simp)
      · exact quiet_ok _

end Asn1

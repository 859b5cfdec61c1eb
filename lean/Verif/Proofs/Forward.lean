import Verif.Model.Debug
import Verif.Proofs.Built
/-!
# Parsers return a suffix of their input
-/
namespace Asn1
open Spec
variable {α β : Type}

/-- The remainder, if the parser succeeds, is a suffix of `i`, at its position. -/
def Ahead (i : Input) (x : PRes α) : Prop :=
  ∀ r v, x = .ok (r, v) → ∃ k, k ≤ i.data.length ∧ r = after i k

theorem ahead_err {i : Input} {e : PErr} : Ahead i (.error e : PRes α) := by rintro r v ⟨⟩

theorem ahead_nomErr {i j : Input} {e : InnerError} : Ahead i (nomErr j e : PRes α) := by rintro r v ⟨⟩

theorem ahead_same {i : Input} {v : α} : Ahead i (.ok (i, v)) := by
  rintro r w h
  injection h with h; injection h with h _
  exact ⟨0, Nat.zero_le _, by rw [← h, after_zero]⟩

theorem ahead_after {i : Input} {v : α} {k : Nat} (hk : k ≤ i.data.length) : Ahead i (.ok (after i k, v)) := by
  rintro r w h
  injection h with h; injection h with h _
  exact ⟨k, hk, h.symm⟩

theorem Ahead.trans {i r : Input} {k : Nat} {y : PRes β} (hk : k ≤ i.data.length) (hr : r = after i k)
    (h : Ahead r y) : Ahead i y := by
  intro s v hs
  obtain ⟨n, hn, rfl⟩ := h s v hs
  subst hr
  rw [after_data, List.length_drop] at hn
  exact ⟨k + n, by omega, after_after _ _ _⟩

/-- A step that returns no remainder. -/
theorem Ahead.pre {γ : Type} {i : Input} {e : Except PErr γ} {f : γ → PRes β}
    (h : ∀ c, e = .ok c → Ahead i (f c)) : Ahead i (e >>= f) := by
  cases e with
  | error e => exact ahead_err
  | ok c => exact h c rfl

/-- A step, then one from where it stopped. -/
theorem Ahead.bind {i : Input} {x : PRes α} {f : Input × α → PRes β} (hx : Ahead i x)
    (h : ∀ r v, x = .ok (r, v) → Ahead r (f (r, v))) : Ahead i (x >>= f) := by
  cases x with
  | error e => exact ahead_err
  | ok c =>
    obtain ⟨k, hk, hr⟩ := hx c.1 c.2 rfl
    exact Ahead.trans hk hr (h c.1 c.2 rfl)

theorem ahead_good {f : Input → PRes α} (h : Good f) (i : Input) : Ahead i (f i) := h.adv i

theorem ahead_takeSplit {i : Input} {n : Nat} : Ahead i (i.takeSplit n) := by
  rw [takeSplit_eq]
  split
  · exact ahead_after ‹_›
  · exact ahead_err

theorem ahead_atEnd {i : Input} {f : Input → PRes β} (h : ∀ r, Ahead r (f r)) : Ahead i (i.atEnd >>= f) := by
  rw [atEnd_eq]
  exact Ahead.trans (Nat.le_refl _) rfl (h _)

theorem ahead_berContent (h : Header) (i : Input) (d : Nat) : Ahead i (berContent h i d) :=
  (good_berContent h d).adv i

theorem ahead_derContent (h : Header) (i : Input) : Ahead i (derContent h i) := (good_derContent h).adv i

/-- The remainders of a content parser. -/
def Forward (p : Parser α) : Prop := ∀ h i, Ahead i (p.content h i)

theorem forward_map {p : Parser α} (hp : Forward p) (f : α → β) : Forward (p.map f) := by
  intro h i
  show Ahead i (match p.content h i with | .ok (rem, a) => .ok (rem, f a) | .error e => .error e)
  have := hp h i
  cases hc : p.content h i with
  | error e => exact ahead_err
  | ok x =>
    rintro r v hv
    injection hv with hv; injection hv with hv _
    exact this r x.2 (by rw [hc, ← hv])

theorem ahead_ber {p : Parser α} (i : Input) : Ahead i (p.parseBer i) := by
  refine Ahead.bind (ahead_good good_parseHeader i) fun r h _ => ?_
  simp only
  split
  · exact ahead_nomErr
  · exact Ahead.bind (ahead_berContent _ _ _) fun _ _ _ => Ahead.pre fun _ _ => ahead_same

theorem ahead_der {p : Parser α} (i : Input) : Ahead i (p.parseDer i) := by
  refine Ahead.bind (ahead_good good_parseHeaderDer i) fun r h _ => Ahead.pre fun _ _ => ?_
  simp only
  split
  · exact ahead_nomErr
  · exact Ahead.bind (ahead_good (good_takeS _) _) fun _ _ _ => Ahead.pre fun _ _ => ahead_same

theorem ahead_parse (m : Rules) {p : Parser α} (i : Input) : Ahead i (m.parse p i) := by
  cases m
  · exact ahead_ber i
  · exact ahead_der i

theorem ahead_header (m : Rules) (i : Input) : Ahead i (m.header i) := by
  cases m
  · exact ahead_good good_parseHeader i
  · exact ahead_good good_parseHeaderDer i

theorem ahead_anyParse {i : Input} : Ahead i (anyBer.parseBer i) ∧ Ahead i (anyDer.parseDer i) :=
  ⟨ahead_ber i, ahead_der i⟩

/-! ### Iterators -/

theorem ahead_forIter {σ : Type} {parse : Input → PRes Any} (hp : ∀ i, Ahead i (parse i))
    (f : σ → Any → Except PErr (Bool × σ)) : ∀ fuel (it it' : AnyIter) s s',
    forIter parse f fuel it s = .ok (it', s') → ∃ k, k ≤ it.input.data.length ∧ it'.input = after it.input k := by
  intro fuel
  induction fuel with
  | zero => rintro it it' s s' ⟨⟩
  | succ n ih =>
    intro it it' s s' h
    unfold forIter at h
    cases hn : it.next parse with
    | error e => rw [hn] at h; cases h
    | ok x =>
      obtain ⟨o, it1⟩ := x
      have hs : ∃ k, k ≤ it.input.data.length ∧ it1.input = after it.input k := by
        unfold AnyIter.next at hn
        split at hn
        · injection hn with hn; injection hn with _ hn
          exact ⟨0, Nat.zero_le _, by rw [← hn, after_zero]⟩
        · cases hq : parse it.input with
          | error e =>
            rw [hq] at hn
            cases e with
            | error j e =>
              injection hn with hn; injection hn with _ hn
              exact ⟨0, Nat.zero_le _, by rw [← hn, after_zero]⟩
            | incomplete n =>
              injection hn with hn; injection hn with _ hn
              exact ⟨0, Nat.zero_le _, by rw [← hn, after_zero]⟩
            | panic => cases hn
            | diverge => cases hn
          | ok y =>
            obtain ⟨rem, obj⟩ := y
            rw [hq] at hn
            simp only at hn
            split at hn
            · cases hn
            · obtain ⟨d, _, hn⟩ := bind_eq_ok.mp hn
              injection hn with hn; injection hn with _ hn
              rw [← hn]
              exact hp _ _ _ hq
      rw [hn] at h
      cases o with
      | none =>
        injection h with h; injection h with h _
        exact h ▸ hs
      | some o =>
        cases o with
        | err j e => cases h
        | obj sp a =>
          simp only at h
          cases hf : f s a with
          | error e => rw [hf] at h; cases h
          | ok y =>
            obtain ⟨b, s1⟩ := y
            rw [hf] at h
            cases b with
            | false =>
              injection h with h; injection h with h _
              exact h ▸ hs
            | true =>
              obtain ⟨k, hk, hk'⟩ := hs
              obtain ⟨k2, hk2, hk2'⟩ := ih _ _ _ _ h
              rw [hk'] at hk2 hk2'
              rw [after_data, List.length_drop] at hk2
              exact ⟨k + k2, by omega, by rw [hk2', after_after]⟩

theorem ahead_collect {parse : Input → PRes Any} (hp : ∀ i, Ahead i (parse i)) (p : Parser α) (i : Input) :
    Ahead i ((AnyIter.new i).tryParseCollect parse p) := by
  unfold AnyIter.tryParseCollect
  refine Ahead.pre fun c hc => ?_
  intro r v h
  injection h with h; injection h with h _
  rw [← h]
  exact ahead_forIter hp _ _ _ _ _ _ hc

theorem ahead_segmented {acc : Nat → Bool} {e : α} {ap : α → α → α} {leaf : Header → Input → PRes α} (n : Nat)
    (h : Header) (i : Input) : Ahead i (parseSegmented acc e ap leaf n h i) := by
  cases n with
  | zero => exact ahead_nomErr
  | succ n =>
    unfold parseSegmented
    split
    · exact ahead_nomErr
    · split
      · refine Ahead.bind ?_ fun _ _ _ => Ahead.pre fun _ _ => ahead_same
        unfold segContent
        split
        · exact ahead_berContent _ _ _
        · exact ahead_takeSplit
      · exact Ahead.bind (ahead_berContent _ _ _) fun _ _ _ => Ahead.pre fun _ _ => ahead_same

/-! ### The universal types -/

theorem ahead_octet (h : Header) (i : Input) : Ahead i (octetContent h i) := by
  unfold octetContent
  split
  · exact Ahead.bind ahead_takeSplit fun _ _ _ => ahead_same
  · exact ahead_segmented _ _ _

theorem ahead_bit (h : Header) (i : Input) : Ahead i (bitContent h i) := by
  unfold bitContent
  split
  · refine Ahead.bind (ahead_berContent _ _ _) fun r v _ => ?_
    show Ahead r (bitPrimitive r v)
    unfold bitPrimitive
    split
    · exact ahead_nomErr
    · split
      · split
        · exact ahead_same
        · exact ahead_nomErr
      · exact ahead_nomErr
  · exact ahead_segmented _ _ _

theorem ahead_utf8Whole (i : Input) : Ahead i (utf8Whole i) := by
  refine Ahead.bind ahead_takeSplit fun r v _ => ?_
  simp only
  split
  · exact ahead_same
  · exact ahead_nomErr

theorem ahead_str (k : StrKind) (h : Header) (i : Input) : Ahead i (strBerContent k h i) := by
  refine Ahead.bind ?_ fun r v _ => ?_
  · unfold strBytes
    split
    · exact Ahead.bind ahead_takeSplit fun _ _ _ => ahead_same
    · exact ahead_segmented _ _ _
  · show Ahead r (strOfBytes k r v)
    unfold strOfBytes
    split
    · exact ahead_nomErr
    · split
      · exact ahead_same
      · exact ahead_nomErr

theorem ahead_wide (h : Header) (i : Input) : Ahead i (wideBytes h i) := by
  unfold wideBytes
  split
  · exact Ahead.bind ahead_takeSplit fun _ _ _ => ahead_same
  · exact ahead_segmented _ _ _

theorem ahead_bmp (h : Header) (i : Input) : Ahead i (bmpBerContent h i) := by
  refine Ahead.bind (ahead_wide h i) fun r v _ => ?_
  show Ahead r (bmpOfBytes r v)
  unfold bmpOfBytes
  split
  · exact ahead_same
  · exact ahead_nomErr

theorem ahead_univ (h : Header) (i : Input) : Ahead i (univBerContent h i) := by
  refine Ahead.bind (ahead_wide h i) fun r v _ => ?_
  show Ahead r (univOfBytes r v)
  unfold univOfBytes
  split
  · exact ahead_nomErr
  · split
    · exact ahead_err
    · exact ahead_nomErr
    · exact ahead_same

theorem ahead_timeOf (r d : Input) (x : Except Error DateTime) : Ahead r (timeOf r d x) := by
  unfold timeOf
  split
  · exact ahead_same
  · exact ahead_nomErr

theorem ahead_boolean (h : Header) (i : Input) : Ahead i (booleanContent h i) := by
  refine Ahead.pre fun _ _ => ?_
  split
  · exact ahead_nomErr
  · exact ahead_good good_beU8 i

theorem ahead_uint (N : Nat) (h : Header) (i : Input) : Ahead i (uintContent N h i) :=
  Ahead.pre fun _ _ => Ahead.pre fun _ _ => ahead_atEnd fun _ => ahead_same

theorem ahead_int (N : Nat) (h : Header) (i : Input) : Ahead i (intContent N h i) :=
  Ahead.pre fun _ _ => Ahead.pre fun _ _ => ahead_atEnd fun _ => ahead_same

theorem ahead_integer (h : Header) (i : Input) : Ahead i (integerContent h i) := by
  refine Ahead.pre fun _ _ => Ahead.bind (ahead_derContent _ _) fun r v _ => ?_
  simp only
  split
  · exact ahead_nomErr
  · exact ahead_same

theorem ahead_oid (h : Header) (i : Input) : Ahead i (oidContent h i) := by
  refine Ahead.pre fun _ _ => ?_
  split
  · exact ahead_nomErr
  · exact Ahead.bind ahead_takeSplit fun _ _ _ => ahead_same

theorem forward_universal {c : Codec α} (h : UniversalType c) : Forward c.ber ∧ Forward c.der := by
  cases h with
  | uint N hN => exact ⟨ahead_uint N, fun h i => Ahead.pre fun _ _ => ahead_uint N h i⟩
  | int N hN => exact ⟨ahead_int N, fun h i => Ahead.pre fun _ _ => ahead_int N h i⟩
  | integer => exact ⟨ahead_integer, fun h i => Ahead.pre fun _ _ => ahead_integer h i⟩
  | bool =>
    refine ⟨forward_map (p := booleanBer) ahead_boolean _, forward_map (p := booleanDer) (fun h i => ?_) _⟩
    refine Ahead.bind (ahead_boolean h i) fun r v _ => ?_
    simp only
    split
    · exact ahead_nomErr
    · exact ahead_same
  | null =>
    have : Forward nullP := by
      refine fun h i => Ahead.pre fun _ _ => ?_
      split
      · exact ahead_nomErr
      · exact ahead_same
    exact ⟨this, this⟩
  | enumerated =>
    exact ⟨fun h i => Ahead.pre fun _ _ => ahead_uint 4 h i,
      fun h i => Ahead.pre fun _ _ => Ahead.pre fun _ _ => ahead_uint 4 h i⟩
  | octetString => exact ⟨ahead_octet, fun h i => Ahead.pre fun _ _ => ahead_octet h i⟩
  | bitString => exact ⟨ahead_bit, fun h i => Ahead.pre fun _ _ => ahead_bit h i⟩
  | oid => exact ⟨ahead_oid, ahead_oid⟩
  | utcTime =>
    refine ⟨fun h i => ?_, fun h i => Ahead.pre fun _ _ => ?_⟩
    · show Ahead i (utcBerContent h i)
      unfold utcBerContent
      split
      · exact ahead_nomErr
      · split
        · exact ahead_nomErr
        · exact Ahead.bind ahead_takeSplit fun _ _ _ => ahead_timeOf _ _ _
    · split
      · exact ahead_nomErr
      · exact Ahead.bind ahead_takeSplit fun _ _ _ => ahead_timeOf _ _ _
  | generalizedTime =>
    refine ⟨fun h i => ?_, fun h i => Ahead.pre fun _ _ => ?_⟩
    · show Ahead i (genBerContent h i)
      unfold genBerContent
      split
      · exact ahead_nomErr
      · split
        · exact ahead_nomErr
        · exact Ahead.bind ahead_takeSplit fun _ _ _ => ahead_timeOf _ _ _
    · split
      · exact ahead_nomErr
      · refine Ahead.bind ahead_takeSplit fun _ _ _ => ?_
        simp only
        split
        · exact ahead_nomErr
        · split
          · exact ahead_nomErr
          · exact ahead_timeOf _ _ _
  | text hk => exact ⟨ahead_str _, fun h i => Ahead.pre fun _ _ => ahead_str _ h i⟩
  | refStr =>
    refine ⟨fun h i => ?_, fun h i => Ahead.pre fun _ _ => ahead_utf8Whole i⟩
    show Ahead i (if h.constructed then nomErr i .lifetimeError else utf8Whole i)
    split
    · exact ahead_nomErr
    · exact ahead_utf8Whole i
  | string => exact ⟨ahead_str _, fun h i => Ahead.pre fun _ _ => ahead_utf8Whole i⟩
  | bmpString => exact ⟨ahead_bmp, fun h i => Ahead.pre fun _ _ => ahead_bmp h i⟩
  | universalString => exact ⟨ahead_univ, fun h i => Ahead.pre fun _ _ => ahead_univ h i⟩

theorem forward_real (lib : FloatLib) : Forward (realP lib) := fun _ _ =>
  Ahead.pre fun _ _ => Ahead.pre fun _ _ => ahead_atEnd fun _ => ahead_same

/-! ### Containers -/

theorem forward_vec {parse : Input → PRes Any} (hp : ∀ i, Ahead i (parse i)) (p : Parser α) :
    Forward (vecP parse p) := by
  refine fun h i => Ahead.pre fun _ _ => ?_
  split
  · exact ahead_same
  · exact ahead_collect hp p i

theorem forward_setItems {parse : Input → PRes Any} (hp : ∀ i, Ahead i (parse i)) (p : Parser α) :
    Forward (setItemsP parse p) := fun _ i => Ahead.pre fun _ _ => ahead_collect hp p i

theorem forward_sequenceOf {parse : Input → PRes Any} (hp : ∀ i, Ahead i (parse i)) (p : Parser α) :
    Forward (sequenceOfP parse p) := fun h i => Ahead.bind (forward_vec hp p h i) fun _ _ _ => ahead_same

theorem forward_array {parse : Input → PRes Any} (hp : ∀ i, Ahead i (parse i)) (N : Nat) (p : Parser α) :
    Forward (arrayP N parse p) := by
  refine fun h i => Ahead.bind (forward_vec hp p h i) fun _ _ _ => ?_
  simp only
  split
  · exact ahead_same
  · exact ahead_nomErr

theorem forward_raw (tag : Nat) : Forward (rawP tag) := fun _ _ =>
  Ahead.pre fun _ _ => Ahead.bind ahead_takeSplit fun _ _ _ => ahead_same

theorem forward_explicit (cls : Class) (tag : Nat) {f : Input → PRes α} (hf : ∀ i, Ahead i (f i)) :
    Forward (explicitP cls tag f) := by
  refine fun h i => Ahead.pre fun _ _ => ?_
  split
  · exact ahead_nomErr
  · split
    · exact ahead_nomErr
    · exact Ahead.bind (hf i) fun _ _ _ => ahead_same

theorem forward_implicit (cls : Class) (tag : Nat) {p : Parser α} (hp : Forward p) :
    Forward (implicitP cls tag p) := by
  intro h i
  show Ahead i (if h.cls ≠ cls then nomErr i (.unexpectedClass (some cls) h.cls) else _)
  split
  · exact ahead_nomErr
  · exact Ahead.bind (hp h i) fun _ _ _ => ahead_same

/-- The components of a tuple. -/
def AheadAll : {Ts : List Type} → TupFns Ts → Prop
  | _, .nil => True
  | _, .cons f fs => (∀ i, Ahead i (f i)) ∧ AheadAll fs

theorem ahead_run : {Ts : List Type} → (fs : TupFns Ts) → AheadAll fs → ∀ i, Ahead i (fs.run i)
  | _, .nil, _, _ => ahead_same
  | _, .cons _ fs, h, i => Ahead.bind (h.1 i) fun _ _ _ => Ahead.bind (ahead_run fs h.2 _) fun _ _ _ =>
      ahead_same

/-! ### Optional values, fields -/

theorem ahead_optionParse (m : Rules) (p : Parser α) (i : Input) : Ahead i (optionParse m.header p i) := by
  unfold optionParse
  split
  · exact ahead_same
  · cases hh : m.header i with
    | error e => exact ahead_err
    | ok x =>
      obtain ⟨k, hk, hr⟩ := ahead_header m i x.1 x.2 hh
      rw [Asn1.bind_ok]
      simp only
      split
      · exact ahead_same
      · exact Ahead.trans hk hr
          (Ahead.bind (ahead_berContent _ _ _) fun _ _ _ => Ahead.pre fun _ _ => ahead_same)

theorem ahead_taggedField (m : Rules) (p : Parser (TaggedValue α)) (i : Input) :
    Ahead i (taggedField m p i) := Ahead.bind (ahead_parse m i) fun _ _ _ => ahead_same

theorem ahead_required (m : Rules) (tag : FieldTag) (p : Parser α) (i : Input) :
    Ahead i (requiredField m tag p i) := by
  cases tag with
  | untagged => exact ahead_parse m i
  | explicit cls n => exact ahead_taggedField m _ i
  | implicit cls n => exact ahead_taggedField m _ i

theorem ahead_optTagged (m : Rules) (n : Nat) (p : Parser (TaggedValue α)) (i : Input) :
    Ahead i (optTaggedField m n p i) := by
  unfold optTaggedField
  split
  · exact ahead_same
  · refine Ahead.pre fun x _ => ?_
    simp only
    split
    · exact Ahead.bind (ahead_parse m i) fun _ _ _ => ahead_same
    · exact ahead_same

theorem ahead_optional (m : Rules) (tag : FieldTag) (p : Parser α) (i : Input) :
    Ahead i (optionalField m tag p i) := by
  cases tag with
  | untagged => exact ahead_optionParse m p i
  | explicit cls n => exact ahead_optTagged m _ _ i
  | implicit cls n => exact ahead_optTagged m _ _ i

/-! ### `Any`, EMBEDDED PDV, `Boolean` and `&[u8]` -/

theorem ahead_slice (h : Header) (i : Input) : Ahead i (sliceContent h i) := by
  unfold sliceContent
  split
  · exact ahead_nomErr
  · exact Ahead.bind ahead_takeSplit fun _ _ _ => ahead_same

theorem forward_boolean : Forward booleanBer ∧ Forward booleanDer := by
  refine ⟨ahead_boolean, fun h i => Ahead.bind (ahead_boolean h i) fun _ _ _ => ?_⟩
  simp only
  split
  · exact ahead_nomErr
  · exact ahead_same

theorem forward_any : Forward anyBer ∧ Forward anyDer := by
  refine ⟨fun h i => ?_, fun h i => Ahead.bind (ahead_derContent h i) fun _ _ _ => ahead_same⟩
  show Ahead i (anyBer.content h i)
  unfold anyBer
  simp only
  cases h.length with
  | definite n => exact Ahead.bind (ahead_good (good_takeS _) i) fun _ _ _ => ahead_same
  | indefinite => exact Ahead.bind (ahead_good (good_takeS _) i) fun _ _ _ => ahead_same

theorem forward_pdv : Forward pdvP := fun _ i =>
  Ahead.bind (ahead_ber i) fun _ _ _ => Ahead.pre fun _ _ =>
    Ahead.bind (ahead_optionParse .ber _ _) fun _ _ _ => Ahead.bind (ahead_ber _) fun _ _ _ => ahead_same

/-! ### All types -/

theorem forward_struct {m : Rules} {Ts : List Type} {fs : Fields Ts} (tag : Nat) (h : AheadAll (fs.fns m)) :
    Forward (structP m tag fs) := fun _ i => Ahead.pre fun _ _ => ahead_run _ h i

theorem forward_built {real : Bool} {pb pd : Parser α} (h : Built real pb pd) : Forward pb ∧ Forward pd := by
  have hb : ∀ i, Ahead i (anyBer.parseBer i) := fun i => ahead_anyParse.1
  have hd : ∀ i, Ahead i (anyDer.parseDer i) := fun i => ahead_anyParse.2
  refine Built.rec
    (motive_1 := fun pb pd _ => Forward pb ∧ Forward pd)
    (motive_2 := fun fb fd _ => AheadAll fb ∧ AheadAll fd)
    (motive_3 := fun fb fd _ => AheadAll (fb.fns .ber) ∧ AheadAll (fd.fns .der))
    (motive_4 := fun vb vd _ => ∀ k h i, Ahead i (vb.content .ber k h i) ∧ Ahead i (vd.content .der k h i))
    ?_ ?_ ?_ ?_ ?_ ?_ ?_ ?_ ?_ ?_ ?_ ?_ ?_ ?_ ?_ ?_ ?_ ?_ ?_ ?_ ?_ ?_ ?_ ?_ ?_ ?_ ?_ ?_ ?_ h
  · exact fun h => forward_universal h
  · exact fun lib _ => ⟨forward_real lib, forward_real lib⟩
  · exact fun lib _ => ⟨forward_map (forward_real lib) _, forward_map (forward_real lib) _⟩
  · exact fun lib _ => ⟨forward_map (forward_real lib) _, forward_map (forward_real lib) _⟩
  · exact forward_boolean
  · exact ⟨ahead_slice, fun h i => Ahead.pre fun _ _ => ahead_slice h i⟩
  · exact ⟨forward_map forward_any.1 _, forward_map forward_any.2 _⟩
  · exact ⟨forward_pdv, forward_pdv⟩
  · exact fun _ _ => ⟨forward_vec hb _, forward_vec hd _⟩
  · exact fun _ _ => ⟨forward_sequenceOf hb _, forward_sequenceOf hd _⟩
  · exact fun _ _ => ⟨forward_map (forward_setItems hb _) _, forward_map (forward_setItems hd _) _⟩
  · exact fun _ _ _ => ⟨forward_map (forward_setItems hb _) _, forward_map (forward_setItems hd _) _⟩
  · exact fun _ _ _ => ⟨forward_array hb _ _, forward_array hd _ _⟩
  · exact fun _ h => ⟨fun _ i => ahead_run _ h.1 i, fun _ i => ahead_run _ h.2 i⟩
  · exact fun tag => ⟨forward_raw tag, forward_raw tag⟩
  · exact fun cls tag _ _ => ⟨forward_explicit cls tag fun i => ahead_ber i,
      forward_explicit cls tag fun i => ahead_der i⟩
  · exact fun cls tag _ h => ⟨forward_implicit cls tag h.1, forward_implicit cls tag h.2⟩
  · exact fun tag _ h => ⟨forward_struct tag h.1, forward_struct tag h.2⟩
  · intro Ts vb vd k _ h
    refine ⟨fun hd i => ?_, fun hd i => ?_⟩
    · have := fun k => (h k hd i).1
      cases k
      · exact Ahead.pre fun _ _ => this _
      · exact this _
      · exact this _
    · have := fun k => (h k hd i).2
      cases k
      · exact Ahead.pre fun _ _ => this _
      · exact this _
      · exact this _
  · intro ds
    have key : ∀ {p : Parser Nat}, Forward p → Forward (enumP p ds) := by
      intro p hp h i
      refine Ahead.pre fun _ _ => Ahead.bind (hp h i) fun _ _ _ => ?_
      simp only
      split
      · exact ahead_same
      · exact ahead_nomErr
    exact ⟨key (forward_universal .enumerated).1, key (forward_universal .enumerated).2⟩
  · exact fun _ h => ⟨fun hd i => Ahead.bind (h.1 hd i) fun _ _ _ => ahead_same,
      fun hd i => Ahead.bind (h.2 hd i) fun _ _ _ => ahead_same⟩
  · exact ⟨trivial, trivial⟩
  · exact fun _ _ h ht => ⟨⟨ahead_ber, ht.1⟩, ⟨ahead_der, ht.2⟩⟩
  · exact ⟨trivial, trivial⟩
  · exact fun tag _ _ h ht => ⟨⟨ahead_required .ber tag _, ht.1⟩, ⟨ahead_required .der tag _, ht.2⟩⟩
  · exact fun tag _ _ h ht => ⟨⟨ahead_optional .ber tag _, ht.1⟩, ⟨ahead_optional .der tag _, ht.2⟩⟩
  · exact fun tag x _ _ h ht => ⟨⟨fun i => Ahead.bind (ahead_optional .ber tag _ i) fun _ _ _ => ahead_same, ht.1⟩,
      ⟨fun i => Ahead.bind (ahead_optional .der tag _ i) fun _ _ _ => ahead_same, ht.2⟩⟩
  · exact fun _ _ _ => ⟨ahead_nomErr, ahead_nomErr⟩
  · intro T Ts pb pd vb vd tag _ _ h ht k hd i
    have hv : ∀ (m : Rules) {p : Parser T}, Forward p → Ahead i (variantContent m k p hd i) := by
      intro m p hp
      cases k
      · exact ahead_parse m i
      · exact hp hd i
      · exact hp hd i
    constructor
    · unfold Variants.content
      split
      · exact Ahead.bind (hv .ber h.1) fun _ _ _ => ahead_same
      · exact Ahead.bind (ht k hd i).1 fun _ _ _ => ahead_same
    · unfold Variants.content
      split
      · exact Ahead.bind (hv .der h.2) fun _ _ _ => ahead_same
      · exact Ahead.bind (ht k hd i).2 fun _ _ _ => ahead_same

end Asn1

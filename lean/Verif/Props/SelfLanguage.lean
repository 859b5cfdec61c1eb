import Verif.Spec.SelfLanguage
import Verif.Proofs.Language
import Verif.Props.Language
import Verif.Props.RecursiveValue
/-!
# C142: the octets of types that contain themselves
-/
namespace Asn1
open Spec

variable {ρ : Type} {real : Bool} {m : Rules} {F : Rules → Parser ρ → Parser ρ} {p : Parser ρ} {T : Nat → Prop}
  {Φ : (ρ → Identity → Bytes → Prop) → ρ → Identity → Bytes → Prop}

theorem self_narrows (hs : SelfType real ρ true (F .ber) (F .der)) (m : Rules) : Narrows true (F m) := by
  cases m
  · exact (selfType_narrows hs).1
  · exact (selfType_narrows hs).2

theorem calls_lang (hΦ : LangText m (F m) T Φ) {b : Parser ρ} {L : ρ → Identity → Bytes → Prop} (hb : Lang m b T L)
    (n : Nat) : Lang m (selfCalls (F m) b n) T (Nat.rec L (fun _ K => Φ K) n) := by
  induction n with
  | zero => exact hb
  | succ n ih => exact hΦ _ _ ih

/-- A parser for a language: it need not be computable. -/
noncomputable def langParser (T : Nat → Prop) (L : ρ → Identity → Bytes → Prop) : Parser ρ where
  acceptTag t := @decide (T t) (Classical.propDecidable _)
  content h i := @dite _ (∃ w, L w (says h) i.data) (Classical.propDecidable _)
    (fun e => .ok (i, Classical.choose e)) (fun _ => nomErr i .invalidTag)

theorem langParser_lang {L : ρ → Identity → Bytes → Prop} (hL : ∀ w w' x cs, L w x cs → L w' x cs → w = w') :
    Lang m (langParser T L) T L := by
  refine .given (fun t => ?_) fun h i w _ _ => ?_
  · show @decide (T t) (Classical.propDecidable _) = true ↔ _
    simp
  · show (∃ r, @dite (PRes ρ) (∃ w, L w (says h) i.data) (Classical.propDecidable _)
      (fun e => .ok (i, Classical.choose e)) (fun _ => nomErr i .invalidTag) = .ok (r, w)) ↔ L w (says h) i.data
    constructor
    · rintro ⟨r, hr⟩
      split at hr
      · rename_i e
        injection hr with hr
        injection hr with _ hr
        rw [← hr]
        exact Classical.choose_spec e
      · simp [nomErr] at hr
    · intro hw
      have e : ∃ w, L w (says h) i.data := ⟨w, hw⟩
      exact ⟨i, by rw [dif_pos e, hL _ _ _ _ (Classical.choose_spec e) hw]⟩

/-- What the type has in common with the text in which another parser is put. -/
theorem fixed_denoted (hs : SelfType real ρ true (F .ber) (F .der)) (hp : p = F m p) (hΦ : LangText m (F m) T Φ)
    {L : ρ → Identity → Bytes → Prop} (hL : ∀ w w' x cs, L w x cs → L w' x cs → w = w') (h : Header) (i : Input) (w : ρ)
    (hh : Consistent h i) (n : Nat) (hn : i.data.length / 2 + 1 ≤ n) :
    (∃ r, p.content h i = .ok (r, w)) ↔ (Nat.rec L (fun _ K => Φ K) n : ρ → Identity → Bytes → Prop) w (says h) i.data := by
  have h1 := (denoted (calls_lang hΦ (langParser_lang (m := m) (T := T) hL) n)).value h i w hh
  rw [← h1, (calls_below (self_narrows hs m) hp (langParser T L) n (by omega)).2 h i (by omega)]

theorem selfLang_rec (n : Nat) :
    (Nat.rec (fun _ _ _ => False) (fun _ K => Φ K) n : ρ → Identity → Bytes → Prop) = selfLang Φ n := by
  induction n with
  | zero => rfl
  | succ n ih => exact congrArg Φ ih

theorem fixed_self (hs : SelfType real ρ true (F .ber) (F .der)) (hp : p = F m p) (hΦ : LangText m (F m) T Φ) (h : Header)
    (i : Input) (w : ρ) (hh : Consistent h i) (n : Nat) (hn : i.data.length / 2 + 1 ≤ n) :
    (∃ r, p.content h i = .ok (r, w)) ↔ selfLang Φ n w (says h) i.data := by
  have := fixed_denoted hs hp hΦ (L := fun _ _ _ => False) nofun h i w hh n hn
  rwa [show (Nat.rec (fun _ _ _ => False) (fun _ K => Φ K) n : ρ → Identity → Bytes → Prop) = selfLang Φ n from
    selfLang_rec n] at this

theorem fixed_accepts (hs : SelfType real ρ true (F .ber) (F .der)) (hp : p = F m p) (hΦ : LangText m (F m) T Φ) (t : Nat) :
    p.acceptTag t = true ↔ T t := by
  have h1 := (denoted (calls_lang hΦ (langParser_lang (m := m) (T := T) (L := fun _ _ _ => False) nofun) 1)).accepts t
  rw [← h1, (calls_below (self_narrows hs m) hp (langParser T fun _ _ _ => False) 1 (by omega)).1]

theorem self_lang (hs : SelfType real ρ true (F .ber) (F .der)) (hp : p = F m p) (hΦ : LangText m (F m) T Φ) :
    Lang m p T fun w x cs => selfLang Φ (cs.length + 1) w x cs := by
  refine .given (fixed_accepts hs hp hΦ) fun h i w h1 h2 => ?_
  exact fixed_self hs hp hΦ h i w ⟨h1, h2⟩ (i.data.length + 1) (by omega)

/-- Any identifier and content stand under some header. -/
theorem header_for (x : Identity) (cs : Bytes) : ∃ (h : Header) (i : Input), Consistent h i ∧ says h = x ∧ i.data = cs :=
  ⟨⟨x.1, x.2.1, x.2.2, .definite cs.length, none, none⟩, .fromSlice cs,
    ⟨fun n hn => by injection hn with hn; exact hn.symm, fun _ => rfl⟩, rfl, rfl⟩

/-- **C142** For a type that contains itself (each time within another object): the value `w` is decoded and `rest` is left
if and only if the input is an object that denotes `w`, followed by `rest`. An object with `n` octets of content denotes
what it denotes if the text of the type is put into itself `n` times, and denotes nothing at the next one. -/
theorem C142_language (hs : SelfType real ρ true (F .ber) (F .der)) (hp : p = F m p) (hΦ : LangText m (F m) T Φ) (i : Input)
    (w : ρ) (rest : Bytes) :
    (∃ r, m.parse p i = .ok (r, w) ∧ r.data = rest) ↔
      ∃ o, i.data = o ++ rest ∧ LangObject m T (fun x cs => selfLang Φ (cs.length + 1) w x cs) o :=
  C141_language (self_lang hs hp hΦ) i w rest

/-- **C142** Putting the text into itself more often than half the number of octets changes nothing. -/
theorem C142_depth (hs : SelfType real ρ true (F .ber) (F .der)) (hp : p = F m p) (hΦ : LangText m (F m) T Φ) (w : ρ)
    (x : Identity) (cs : Bytes) (n : Nat) (hn : cs.length / 2 + 1 ≤ n) :
    selfLang Φ n w x cs ↔ selfLang Φ (cs.length + 1) w x cs := by
  obtain ⟨h, i, hh, rfl, rfl⟩ := header_for x cs
  rw [← fixed_self hs hp hΦ h i w hh n hn, ← fixed_self hs hp hΦ h i w hh _ (by omega)]

/-- **C142** The language satisfies the equation of the type. -/
theorem C142_solution (hs : SelfType real ρ true (F .ber) (F .der)) (hp : p = F m p) (hΦ : LangText m (F m) T Φ) (w : ρ)
    (x : Identity) (cs : Bytes) :
    selfLang Φ (cs.length + 1) w x cs ↔ Φ (fun w x cs => selfLang Φ (cs.length + 1) w x cs) w x cs := by
  obtain ⟨h, i, hh, rfl, rfl⟩ := header_for x cs
  have h1 := self_lang hs hp hΦ
  have h2 := hΦ _ _ h1
  rw [← hp] at h2
  exact ((denoted h1).value h i w hh).symm.trans ((denoted h2).value h i w hh)

/-- **C142** It is the only language that does, among those in which octets denote one value at most. -/
theorem C142_only_solution (hs : SelfType real ρ true (F .ber) (F .der)) (hp : p = F m p) (hΦ : LangText m (F m) T Φ)
    (K : ρ → Identity → Bytes → Prop) (hK : ∀ w w' x cs, K w x cs → K w' x cs → w = w')
    (he : ∀ w x cs, K w x cs ↔ Φ K w x cs) (w : ρ) (x : Identity) (cs : Bytes) :
    K w x cs ↔ selfLang Φ (cs.length + 1) w x cs := by
  obtain ⟨h, i, hh, rfl, rfl⟩ := header_for x cs
  have e : Φ K = K := funext fun w => funext fun x => funext fun cs => propext (he w x cs).symm
  have e' : ∀ n, (Nat.rec K (fun _ K => Φ K) n : ρ → Identity → Bytes → Prop) = K := by
    intro n
    induction n with
    | zero => rfl
    | succ n ih => exact (congrArg Φ ih).trans e
  have h1 : ∀ n, i.data.length / 2 + 1 ≤ n → ((∃ r, p.content h i = .ok (r, w)) ↔ K w (says h) i.data) := by
    intro n hn
    have h1 := fixed_denoted hs hp hΦ hK h i w hh n hn
    rwa [e' n] at h1
  exact (h1 _ (Nat.le_refl _)).symm.trans (fixed_self hs hp hΦ h i w hh _ (by omega))

/-- **C142** It is the least one, if more octets for the parts never make fewer for the whole: whatever is closed under the
rules of the type contains it. -/
theorem C142_least (hmono : ∀ K K' : ρ → Identity → Bytes → Prop, (∀ w x cs, K w x cs → K' w x cs) →
    ∀ w x cs, Φ K w x cs → Φ K' w x cs) (K : ρ → Identity → Bytes → Prop) (hK : ∀ w x cs, Φ K w x cs → K w x cs) (n : Nat)
    (w : ρ) (x : Identity) (cs : Bytes) (h : selfLang Φ n w x cs) : K w x cs := by
  induction n generalizing w x cs with
  | zero => exact h.elim
  | succ n ih => exact hK _ _ _ (hmono _ _ ih _ _ _ h)

/-! ### Trees -/

/-- The language of the fields, if the twigs within have the language `L`. -/
def twigΦ (m : Rules) (L : Twig → Identity → Bytes → Prop) : Twig → Identity → Bytes → Prop :=
  fun w x cs => ∃ v : Tup [Nat, List Twig], w = .mk v.1 v.2.1 ∧ x.2.1 = true ∧ ∃ o rest, cs = o ++ rest ∧
    LangObject m (LeafTag (uintC 4)) (fun z bs => z.2.1 = false ∧ (m = .der → MinimalInt bs) ∧ InUint 4 (twos bs) ∧
      (v.1 : Int) = twos bs) o ∧
    ∃ o' rest', rest = o' ++ rest' ∧
      LangObject m (· = 16) (fun z bs => z.2.1 = true ∧ LangEach m (· = 16) L v.2.1 bs) o' ∧ True

theorem twig_text (m : Rules) : LangText m (twigF m) (· = 16) (twigΦ m) := by
  intro p L h
  have := Lang.named (fun v : Tup [Nat, List Twig] => Twig.mk v.1 v.2.1) (Lang.struct (m := m) 16
    (.required .untagged (.universal (.uint m 4 (by decide))) (.required .untagged (.vec h) .nil)))
  cases m <;> exact this

theorem twigsLang_each {K : Twig → Identity → Bytes → Prop} (ts : List Twig) (cs : Bytes)
    (h : LangEach m (· = 16) K ts cs) (hK : ∀ t x bs, K t x bs → TwigLang m t x bs) : TwigsLang m ts cs := by
  induction ts generalizing cs with
  | nil =>
    have h : cs = [] := h
    rw [h]
    exact .nil
  | cons t ts ih =>
    obtain ⟨o, rest, rfl, ⟨x, bs, h1, h2, h3⟩, h4⟩ := h
    exact .cons h1 h2 (hK _ _ _ h3) (ih _ h4)

theorem twigLang_closed (w : Twig) (x : Identity) (cs : Bytes) {K : Twig → Identity → Bytes → Prop}
    (hK : ∀ t x bs, K t x bs → TwigLang m t x bs) (h : twigΦ m K w x cs) : TwigLang m w x cs := by
  obtain ⟨v, rfl, hx, o, rest, rfl, ⟨z, bs, h1, h2, h3⟩, o', rest', rfl, ⟨y, bs', g1, g2, g3, g4⟩, _⟩ := h
  refine .mk hx ⟨z, bs, h1, ?_, h3⟩ g1 g2 g3 (twigsLang_each _ _ g4 hK)
  exact h2.elim id fun h => absurd h.1 (by decide)

theorem twigLang_sub {L : Twig → Identity → Bytes → Prop} (hL : ∀ w x cs, twigΦ m L w x cs → L w x cs) {w : Twig}
    {x : Identity} {cs : Bytes} (h : TwigLang m w x cs) : L w x cs := by
  refine TwigLang.rec (motive_1 := fun w x cs _ => L w x cs) (motive_2 := fun ts cs _ => LangEach m (· = 16) L ts cs)
    ?_ ?_ ?_ h
  · intro l ts x y o o' cs rest hx hl hy ht hc _ ih
    obtain ⟨z, bs, h1, h2, h3⟩ := hl
    exact hL _ _ _ ⟨(l, ts, ()), rfl, hx, o, _, rfl, ⟨z, bs, h1, .inl h2, h3⟩, o', rest, rfl, ⟨y, cs, hy, ht, hc, ih⟩, trivial⟩
  · rfl
  · intro t ts x cs o rest hx ht _ _ ih ihs
    exact ⟨o, rest, rfl, ⟨x, cs, hx, ht, ih⟩, ihs⟩

/-- **C142** For the type of a tree, `struct Twig { label: u32, twigs: Vec<Twig> }`, with the rules of the language as an
inductive definition: parsing returns a tree if and only if the rules give it. -/
theorem C142_twig {p : Parser Twig} (hp : p = twigF m p) (i : Input) (w : Twig) (rest : Bytes) :
    (∃ r, m.parse p i = .ok (r, w) ∧ r.data = rest) ↔
      ∃ o x cs, i.data = o ++ rest ∧ Holds m x cs o ∧ x.2.2 = 16 ∧ TwigLang m w x cs := by
  rw [C142_language (F := twigF) (twig_self true) hp (twig_text m)]
  have key : ∀ x cs, selfLang (twigΦ m) (cs.length + 1) w x cs ↔ TwigLang m w x cs := by
    intro x cs
    constructor
    · have : ∀ n w x cs, selfLang (twigΦ m) n w x cs → TwigLang m w x cs := by
        intro n
        induction n with
        | zero => exact fun _ _ _ h => h.elim
        | succ n ih => exact fun w x cs h => twigLang_closed w x cs ih h
      exact this _ _ _ _
    · exact twigLang_sub fun w x cs h => (C142_solution (F := twigF) (twig_self true) hp (twig_text m) w x cs).mpr h
  constructor
  · rintro ⟨o, h1, x, cs, h2, h3, h4⟩
    exact ⟨o, x, cs, h1, h2, h3, (key _ _).mp h4⟩
  · rintro ⟨o, x, cs, h1, h2, h3, h4⟩
    exact ⟨o, h1, x, cs, h2, h3, (key _ _).mpr h4⟩

theorem langEach_mono {β : Type} {T : Nat → Prop} {K K' : β → Identity → Bytes → Prop} (h : ∀ w x cs, K w x cs → K' w x cs)
    (ws : List β) (cs : Bytes) (hk : LangEach m T K ws cs) : LangEach m T K' ws cs := by
  induction ws generalizing cs with
  | nil => exact hk
  | cons w ws ih =>
    obtain ⟨o, rest, h1, ⟨x, bs, h2, h3, h4⟩, h5⟩ := hk
    exact ⟨o, rest, h1, ⟨x, bs, h2, h3, h _ _ _ h4⟩, ih _ h5⟩

/-- `C142_least` for trees: every object is constructed. -/
example (n : Nat) (w : Twig) (x : Identity) (cs : Bytes) (h : selfLang (twigΦ m) n w x cs) : x.2.1 = true := by
  refine C142_least ?_ (fun _ x _ => x.2.1 = true) ?_ n w x cs h
  · rintro K K' hK w x cs ⟨v, h1, h2, o, rest, h3, h4, o', rest', h5, ⟨y, bs, h6, h7, h8, h9⟩, _⟩
    exact ⟨v, h1, h2, o, rest, h3, h4, o', rest', h5, ⟨y, bs, h6, h7, h8, langEach_mono hK _ _ h9⟩, trivial⟩
  · rintro w x cs ⟨v, h1, h2, _⟩
    exact h2

/-- Whether the result is a twig with one twig, and the octet `ee` is left. -/
def isSmallTwig : PRes Twig → Bool
  | .ok (r, .mk 7 [.mk 8 []]) => r.data == [0xee]
  | _ => false

theorem smallTwig_eq {x : PRes Twig} (h : isSmallTwig x = true) : ∃ r, x = .ok (r, .mk 7 [.mk 8 []]) ∧ r.data = [0xee] := by
  unfold isSmallTwig at h
  split at h
  · exact ⟨_, rfl, by simpa using h⟩
  · cases h

/-- A case: with the list in the indefinite form. -/
example : ∃ p o x cs, p = twigF .ber p ∧
    [0x30, 14, 2, 1, 7, 0x30, 0x80, 0x30, 5, 2, 1, 8, 0x30, 0, 0, 0, 0xee] = o ++ [0xee] ∧ Holds .ber x cs o ∧ x.2.2 = 16 ∧
    TwigLang .ber (.mk 7 [.mk 8 []]) x cs := by
  obtain ⟨⟨pb, hb, _⟩, pd, hd, _⟩ := C136_one_parser (twig_self true)
  have h := smallTwig_eq (x := Rules.ber.parse pb (.fromSlice
    [0x30, 14, 2, 1, 7, 0x30, 0x80, 0x30, 5, 2, 1, 8, 0x30, 0, 0, 0, 0xee])) (by
      show isSmallTwig (pb.parseBer _) = true
      rw [← (C136_depth (twig_self true) hb hd refuse 9 (.fromSlice _) (by decide)).1]
      decide +kernel)
  obtain ⟨o, x, cs, h1, h2, h3, h4⟩ := (C142_twig (m := .ber) hb _ _ _).mp h
  exact ⟨pb, o, x, cs, hb, h1, h2, h3, h4⟩

/-- In DER no tree has these octets. -/
example (o rest : Bytes) (x : Identity) (cs : Bytes) (w : Twig)
    (ho : [0x30, 14, 2, 1, 7, 0x30, 0x80, 0x30, 5, 2, 1, 8, 0x30, 0, 0, 0] = o ++ rest) (h1 : Holds .der x cs o)
    (h2 : x.2.2 = 16) : ¬ TwigLang .der w x cs := by
  intro h3
  obtain ⟨⟨pb, hb, _⟩, pd, hd, _⟩ := C136_one_parser (twig_self true)
  obtain ⟨r, h4, _⟩ := (C142_twig (m := .der) hd (.fromSlice
    [0x30, 14, 2, 1, 7, 0x30, 0x80, 0x30, 5, 2, 1, 8, 0x30, 0, 0, 0]) w rest).mpr ⟨o, x, cs, ho, h1, h2, h3⟩
  replace h4 : pd.parseDer _ = _ := h4
  rw [← (C136_depth (twig_self true) hb hd refuse 8 (.fromSlice _) (by decide)).2] at h4
  have h5 : ((selfCalls (twigF .der) refuse 8).parseDer (.fromSlice
    [0x30, 14, 2, 1, 7, 0x30, 0x80, 0x30, 5, 2, 1, 8, 0x30, 0, 0, 0])).toBool = false := by decide +kernel
  rw [h4] at h5
  cases h5

/-- Whether the result is the query `(&(a))`, and nothing is left. -/
def isSmallQuery : PRes Query → Bool
  | .ok (r, .all [.present [0x61]]) => r.data == []
  | _ => false

theorem smallQuery_eq {x : PRes Query} (h : isSmallQuery x = true) :
    ∃ r, x = .ok (r, .all [.present [0x61]]) ∧ r.data = [] := by
  unfold isSmallQuery at h
  split at h
  · exact ⟨_, rfl, by simpa using h⟩
  · cases h

/-- The hypotheses hold for a CHOICE that contains itself as well. -/
example : ∃ T Φ p, p = queryF .der p ∧ LangText .der (queryF .der) T Φ ∧
    LangObject .der T (fun x cs => selfLang Φ (cs.length + 1) (.all [.present [0x61]]) x cs) [0xa0, 3, 0x87, 1, 0x61] := by
  obtain ⟨⟨pb, hb, _⟩, pd, hd, _⟩ := C136_one_parser (query_self true)
  have text : LangText .der (queryF .der) _ _ := fun p L h => Lang.named Query.ofVariant
    (.choice .implicit (.cons 0 (.vec h) (.cons 1 (.vec h) (.cons 7 (.universal .octetString)
      (.nil (L := fun _ _ _ => False))))))
  have h := smallQuery_eq (x := Rules.der.parse pd (.fromSlice [0xa0, 3, 0x87, 1, 0x61])) (by
      show isSmallQuery (pd.parseDer _) = true
      rw [← (C136_depth (query_self true) hb hd refuse 9 (.fromSlice _) (by decide)).2]
      decide +kernel)
  obtain ⟨o, h1, h2⟩ := (C142_language (F := queryF) (m := .der) (query_self true) hd text _ _ _).mp h
  rw [List.append_nil] at h1
  refine ⟨_, _, pd, hd, text, ?_⟩
  rw [show [0xa0, 3, 0x87, 1, 0x61] = o from h1]
  exact h2

end Asn1

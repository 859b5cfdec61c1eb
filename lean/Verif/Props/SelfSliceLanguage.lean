import Verif.Props.SelfSlice
import Verif.Props.RecursiveValue
import Verif.Spec.SelfSliceLanguage
/-!
# C143: which octets the decoders of trees accept
-/
namespace Asn1
open Spec
variable {m : Rules} {g : Bytes → Except SErr (Bytes × Twig)}

/-- What is used of the decoder: what it accepts, in terms of itself. -/
def ReadsTwigs (m : Rules) (g : Bytes → Except SErr (Bytes × Twig)) : Prop :=
  ∀ b rest l ts, g b = .ok (rest, .mk l ts) ↔ ∃ a c e a', ObjectAt m b a rest ∧ a.header.tag = 16 ∧
    (m = .ber → fromBer (uintBer 4) a.data.data = .ok (c, l)) ∧
    (m = .der → fromDer (uintBer 4) checkDerInt a.data.data = .ok (c, l)) ∧
    ObjectAt m c a' e ∧ a'.header.tag = 16 ∧ (m = .ber → a'.header.constructed = true) ∧ RepeatsB g a'.data.data ts

theorem label_iff {l : Nat} {b c : Bytes} :
    ((m = .ber → fromBer (uintBer 4) b = .ok (c, l)) ∧ (m = .der → fromDer (uintBer 4) checkDerInt b = .ok (c, l))) ↔
    ∃ o, b = o ++ c ∧ LangObject m (· = 2) (fun z bs => z.2.1 = false ∧ (m = .der → MinimalInt bs) ∧ InUint 4 (twos bs) ∧
      (l : Int) = twos bs) o := by
  constructor
  · rintro ⟨h1, h2⟩
    obtain ⟨o, h3, x, bs, h4, h5, h6⟩ := (C141_language (Lang.universal (LeafLang.uint m 4 (by decide))) (.fromSlice b) l
      c).mp (by
        cases m with
        | ber => exact ((C38_universal_same 4 (by decide)).1 (.fromSlice b) c l).mp (h1 rfl)
        | der => exact ((C38_universal_same 4 (by decide)).2.1 (.fromSlice b) c l).mp (h2 rfl))
    refine ⟨o, h3, x, bs, h4, ?_, h6⟩
    rcases h5 with h5 | h5
    · exact h5
    · exact absurd h5 (by simp [uintC])
  · rintro ⟨o, rfl, h⟩
    exact label_accepted h

theorem objectAt_holds {b rest : Bytes} {a : Any} (h : ObjectAt m b a rest) :
    ∃ o, b = o ++ rest ∧ Holds m (says a.header) a.data.data o := by
  obtain ⟨r, h1, rfl⟩ := h
  obtain ⟨o, h2, h3, _⟩ := any_holds h1
  exact ⟨o, h2, h3⟩

theorem objectAt_len {b rest : Bytes} {a : Any} (h : ObjectAt m b a rest) :
    2 + rest.length + a.data.data.length ≤ b.length := by
  obtain ⟨r, h1, rfl⟩ := h
  cases m with
  | ber => exact berAny_len h1
  | der => exact derAny_len h1

theorem objectAt_of {x : Identity} {cs o : Bytes} (h : Holds m x cs o) (rest : Bytes) :
    ∃ a, ObjectAt m (o ++ rest) a rest ∧ says a.header = x ∧ a.data.data = cs := by
  obtain ⟨r, a, h1, h2, h3, h4⟩ := holds_any (i := .fromSlice (o ++ rest)) rfl h
  exact ⟨a, ⟨r, h1, h2⟩, h3, h4⟩

theorem twigSlice_reads (hg : ReadsTwigs m g) (n : Nat) : ∀ b, b.length ≤ n → ∀ rest w, g b = .ok (rest, w) →
    ∃ o x cs, b = o ++ rest ∧ Holds m x cs o ∧ x.2.2 = 16 ∧ TwigSlice m w cs := by
  induction n with
  | zero =>
    rintro b hb rest ⟨l, ts⟩ h
    obtain ⟨a, _, _, _, h1, _⟩ := (hg b rest l ts).mp h
    have := objectAt_len h1
    omega
  | succ n ih =>
    rintro b hb rest ⟨l, ts⟩ h
    obtain ⟨a, c, e, a', h1, h2, h3, h3', h4, h5, h6, h7⟩ := (hg b rest l ts).mp h
    have l1 := objectAt_len h1
    have l2 := objectAt_len h4
    obtain ⟨o, e1, e2⟩ := objectAt_holds h1
    obtain ⟨o1, e3, e4⟩ := label_iff.mp ⟨h3, h3'⟩
    obtain ⟨o2, e5, e6⟩ := objectAt_holds h4
    have l3 := congrArg List.length e3
    rw [List.length_append] at l3
    have items : ∀ ds us, RepeatsB g ds us → ds.length ≤ n → TwigsSlice m us ds := by
      intro ds us hr
      induction hr with
      | nil => exact fun _ => .nil
      | @cons d r v vs _ hp _ ihr =>
        intro hl
        obtain ⟨o', x', cs', f1, f2, f3, f4⟩ := ih d hl r v hp
        subst f1
        rw [List.length_append] at hl
        exact .cons f2 f3 f4 (ihr (by omega))
    refine ⟨o, _, _, e1, e2, h2, ?_⟩
    rw [e3, e5]
    exact .mk e4 e6 h5 h6 (items _ _ h7 (by omega))

theorem twigSlice_accepted (hg : ReadsTwigs m g) {w : Twig} {cs : Bytes} (h : TwigSlice m w cs) :
    ∀ x o rest, Holds m x cs o → x.2.2 = 16 → g (o ++ rest) = .ok (rest, w) := by
  refine TwigSlice.rec (motive_1 := fun w cs _ => ∀ x o rest, Holds m x cs o → x.2.2 = 16 → g (o ++ rest) = .ok (rest, w))
    (motive_2 := fun ts cs _ => RepeatsB g cs ts) ?_ ?_ ?_ h
  · intro l ts y o o' cs rest hl hy ht hc _ ih x q rest' hq hx
    obtain ⟨a, h1, h2, h3⟩ := objectAt_of hq rest'
    obtain ⟨a', g1, g2, g3⟩ := objectAt_of hy rest
    have hlab := label_iff.mpr ⟨o, h3, hl⟩
    exact (hg _ _ _ _).mpr ⟨a, _, _, a', h1, by rw [← hx, ← h2]; rfl, hlab.1, hlab.2, g1, by rw [← ht, ← g2]; rfl,
      fun e => by rw [← hc e, ← g2]; rfl, by rw [g3]; exact ih⟩
  · exact .nil
  · intro t ts x cs o rest hx ht _ _ ih ihs
    refine .cons ?_ (ih x o rest hx ht) ihs
    obtain ⟨a, h1, _⟩ := objectAt_of hx rest
    intro h0
    have := objectAt_len h1
    rw [h0] at this
    simp at this

theorem except_map_ok {ε γ δ : Type} {x : Except ε γ} {c : γ → δ} {w : δ} :
    x.map c = .ok w ↔ ∃ v, x = .ok v ∧ c v = w := by
  cases x with
  | error e =>
    constructor
    · intro h; cases h
    · rintro ⟨_, h, _⟩; cases h
  | ok v =>
    constructor
    · intro h; exact ⟨v, rfl, Except.ok.inj h⟩
    · rintro ⟨_, h, h'⟩; cases h; exact congrArg _ h'

theorem required_iff {T : Type} {ty : SliceType T} {b : Bytes} {v : T} {c : Bytes} :
    SliceReadsField m (.required .untagged ty) b v c ↔ ty.from_ b = .ok (c, v) :=
  ⟨fun h => by cases h with | untagged h => exact h, .untagged⟩

theorem two_fields {T U : Type} {ty : SliceType T} {uy : SliceType U} {b e : Bytes} {v : T} {u : U} :
    SliceReadsFields (Ts := [T, U]) m (.cons (.required .untagged ty) (.cons (.required .untagged uy) .nil)) b (v, u, ()) e ↔
      ∃ c, ty.from_ b = .ok (c, v) ∧ uy.from_ c = .ok (e, u) := by
  constructor
  · intro h
    cases h with
    | cons h1 h2 =>
      cases h2 with
      | cons h2 h3 =>
        cases h3
        exact ⟨_, required_iff.mp h1, required_iff.mp h2⟩
  · rintro ⟨c, h1, h2⟩
    exact .cons (required_iff.mpr h1) (.cons (required_iff.mpr h2) .nil)

theorem readsTwigs_ber {f : Any → Except SErr Twig} (hf : f = twigTry f) : ReadsTwigs .ber (fromBerWith f) := by
  intro b rest l ts
  have e : fromBerWith f b = (fromBerWith (structTryFrom 16 (.cons (.required .untagged (berSlice (uintC 4)))
      (.cons (.required .untagged ⟨fromBerWith (seqTryFrom 16 (fromBerWith f)), seqTryFrom 16 (fromBerWith f), 16, (· == 16)⟩)
        .nil))) b).map fun x => (x.1, Twig.mk x.2.1 x.2.2.1) := by
    refine (congrArg (fun f => fromBerWith f b) hf).trans ?_
    exact fromBerWith_map _ (fun v : Tup [Nat, List Twig] => Twig.mk v.1 v.2.1) b
  rw [e, except_map_ok]
  constructor
  · rintro ⟨⟨r, l', ts', ⟨⟩⟩, h1, h2⟩
    injection h2 with h2 h2'
    injection h2' with h2' h2''
    replace h2' : l' = l := h2'
    replace h2'' : ts' = ts := h2''
    replace h2 : r = rest := h2
    subst h2 h2' h2''
    obtain ⟨a, e, h3, h4, h5⟩ := (C81_slice_accepts 16 _ b r _).1.mp h1
    obtain ⟨c, h6, h7⟩ := two_fields.mp h5
    obtain ⟨r', a', g1, g2, g3⟩ := fromBerWith_ok.mp h7
    obtain ⟨g4, g5, g6⟩ := seqTryFrom_ok.mp g3
    exact ⟨a, c, e, a', h3, h4, fun _ => h6, fun h => (nomatch h), ⟨r', g1, g2⟩, g4, fun _ => g5,
      (collectItems_ok (endsIn_fromBerWith f)).mp g6⟩
  · rintro ⟨a, c, e, a', h1, h2, h3, _, ⟨r', g1, g2⟩, g4, g5, g6⟩
    exact ⟨(rest, l, ts, ()), (C81_slice_accepts (Ts := [Nat, List Twig]) 16 _ b rest (l, ts, ())).1.mpr ⟨a, e, h1, h2,
      two_fields.mpr ⟨c, h3 rfl, fromBerWith_ok.mpr ⟨r', a', g1, g2, seqTryFrom_ok.mpr ⟨g4, g5 rfl,
        (collectItems_ok (endsIn_fromBerWith f)).mpr g6⟩⟩⟩⟩, rfl⟩

theorem readsTwigs_der {f : Any → Except SErr Twig} {d : Bytes → Except SErr (Bytes × Twig)} (hd : d = twigDer f d) :
    ReadsTwigs .der d := by
  have he : EndsIn d := (acceptsTwigs_der hd).1
  intro b rest l ts
  have e : d b = twigDer f d b := congrFun hd b
  unfold twigDer at e
  rw [e, except_map_ok]
  constructor
  · rintro ⟨⟨r, l', ts', ⟨⟩⟩, h1, h2⟩
    injection h2 with h2 h2'
    injection h2' with h2' h2''
    replace h2' : l' = l := h2'
    replace h2'' : ts' = ts := h2''
    replace h2 : r = rest := h2
    subst h2 h2' h2''
    obtain ⟨a, e, h3, h4, h5⟩ := (C81_slice_accepts 16 _ b r _).2.mp h1
    obtain ⟨c, h6, h7⟩ := two_fields.mp h5
    obtain ⟨r', a', g1, g2, g4, g6⟩ := seqFromDer_ok.mp h7
    exact ⟨a, c, e, a', h3, h4, fun h => (nomatch h), fun _ => h6, ⟨r', g1, g2⟩, g4, fun h => (nomatch h),
      (collectItems_ok he).mp g6⟩
  · rintro ⟨a, c, e, a', h1, h2, _, h3, ⟨r', g1, g2⟩, g4, _, g6⟩
    exact ⟨(rest, l, ts, ()), (C81_slice_accepts (Ts := [Nat, List Twig]) 16 _ b rest (l, ts, ())).2.mpr ⟨a, e, h1, h2,
      two_fields.mpr ⟨c, h3 rfl, seqFromDer_ok.mpr ⟨r', a', g1, g2, g4, (collectItems_ok he).mpr g6⟩⟩⟩, rfl⟩

/-- **C143** Exactly what `from_ber` and `from_der` accept for the type of a tree, and the value. -/
theorem C143_twig {f : Any → Except SErr Twig} {d : Bytes → Except SErr (Bytes × Twig)} (hf : f = twigTry f)
    (hd : d = twigDer f d) (b rest : Bytes) (w : Twig) :
    (fromBerWith f b = .ok (rest, w) ↔
      ∃ o x cs, b = o ++ rest ∧ Holds .ber x cs o ∧ x.2.2 = 16 ∧ TwigSlice .ber w cs) ∧
    (d b = .ok (rest, w) ↔
      ∃ o x cs, b = o ++ rest ∧ Holds .der x cs o ∧ x.2.2 = 16 ∧ TwigSlice .der w cs) := by
  refine ⟨⟨twigSlice_reads (readsTwigs_ber hf) _ b (Nat.le_refl _) rest w, ?_⟩,
    ⟨twigSlice_reads (readsTwigs_der hd) _ b (Nat.le_refl _) rest w, ?_⟩⟩
  · rintro ⟨o, x, cs, rfl, h1, h2, h3⟩
    exact twigSlice_accepted (readsTwigs_ber hf) h3 x o rest h1 h2
  · rintro ⟨o, x, cs, rfl, h1, h2, h3⟩
    exact twigSlice_accepted (readsTwigs_der hd) h3 x o rest h1 h2

/-- A case: the primitive tree of `C143_primitive_deviation` is in the language. -/
example : ∃ o x cs, ([0x10, 12, 2, 1, 7, 0x30, 7, 0x10, 5, 2, 1, 8, 0x30, 0] : Bytes) = o ++ [] ∧ Holds .der x cs o ∧
    x.2.2 = 16 ∧ TwigSlice .der (.mk 7 [.mk 8 []]) cs := by
  obtain ⟨f, hf, _⟩ := C143_one_try_from twig_try
  obtain ⟨d, hd, _⟩ := C143_one_from_der (twig_der (twig_safe hf))
  obtain ⟨⟨pb, hb, _⟩, pd, hp, _⟩ := C136_one_parser (twig_self true)
  exact (C143_twig hf hd _ _ _).2.mp ((C143_primitive_deviation hf hd hb hp).1 d (.inr rfl))

/-- **C143** Every tree with fewer than `2^24` bytes of content comes back through `from_ber` and `from_der` of what
`to_der_vec` writes, whatever follows. -/
theorem C143_roundtrip {f : Any → Except SErr Twig} {d : Bytes → Except SErr (Bytes × Twig)} {t : ToBer Twig}
    (hf : f = twigTry f) (hd : d = twigDer f d) (ht : t = twigE t) (w : Twig) (hv : w.Valid) (hs : SmallContent t w) :
    BytesBack t (fromBerWith f) w w ∧ BytesBack t d w w := by
  obtain ⟨⟨pb, hb, _⟩, pd, hp, _⟩ := C136_one_parser (twig_self true)
  obtain ⟨_, ⟨bs, h1, h2⟩, bs', h1', h3⟩ := C137_roundtrip_partial ht hb hp w hv hs
  rw [h1] at h1'
  cases h1'
  have e : ∀ rest, (after (.fromSlice (bs ++ rest)) bs.length).data = rest := by
    intro rest
    rw [after_data]
    exact List.drop_left
  refine ⟨⟨bs, h1, fun rest => ?_⟩, bs, h1, fun rest => ?_⟩
  · have := (C143_apis_partial hf hd hb hp _ _ w).1 (h2 rest (.fromSlice (bs ++ rest)) rfl)
    rwa [e] at this
  · have := (C143_apis_partial hf hd hb hp _ _ w).2 (h3 rest (.fromSlice (bs ++ rest)) rfl)
    rwa [e] at this

/-- A case: a twig with two twigs, the second of which has one. -/
example : ∃ f d t, f = twigTry f ∧ d = twigDer f d ∧ t = twigE t ∧ BytesBack t d twigCase twigCase := by
  obtain ⟨f, hf, _⟩ := C143_one_try_from twig_try
  obtain ⟨d, hd, _⟩ := C143_one_from_der (twig_der (twig_safe hf))
  obtain ⟨t, ht, _⟩ := C137_one_encoder twig_descends
  refine ⟨f, d, t, hf, hd, ht, (C143_roundtrip hf hd ht twigCase twigCase_valid ⟨27, ?_, by decide⟩).2⟩
  let base : ToBer Twig := ⟨.generic, fun _ => .indefinite, fun _ => (.universal, true, 16), fun _ => pure 0⟩
  have h4 : SameAt twigCase (encCalls twigE base (sizeOf twigCase + 1)) t := by
    have := encCalls_same twig_descends base t (sizeOf twigCase + 1) twigCase _ (sizeOf twigCase + 1)
      (Nat.lt_succ_self _) (Nat.le_refl _) (Nat.le_refl _)
    rwa [encCalls_fixed ht] at this
  rw [← h4.2.1]
  decide +kernel

end Asn1

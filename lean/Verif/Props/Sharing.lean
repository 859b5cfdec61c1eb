import Verif.Spec.Sharing
import Verif.Props.Real32
import Verif.Props.OctetString
/-!
# C104: decoded values refer to the input
-/
namespace Asn1
open Spec
variable {α β : Type}

/-! ### Same values -/

theorem sameValues_of {p : Parser α} {f : α → β} {q : Parser β} (ht : q.acceptTag = p.acceptTag)
    (hc : ∀ h i, q.content h i = (p.content h i).map fun x => (x.1, f x.2)) : SameValues p f q := by
  have key : ∀ a, tryFromAny q a = (tryFromAny p a).map f := by
    intro a
    unfold tryFromAny
    rw [ht, hc]
    cases p.acceptTag a.header.tag with
    | false => rfl
    | true => cases p.content a.header a.data <;> rfl
  refine ⟨fun i => ?_, fun i => ?_, fun bs => ?_, fun check bs => ?_, key⟩
  · unfold Parser.parseBer
    cases parseHeader i with
    | error e => rfl
    | ok x =>
      simp only [bind_ok, ht]
      split
      · rfl
      · cases berContent x.2 x.1 MAX_RECURSION with
        | error e => rfl
        | ok y =>
          simp only [bind_ok, hc]
          cases p.content x.2 y.2 <;> rfl
  · unfold Parser.parseDer
    cases parseHeaderDer i with
    | error e => rfl
    | ok x =>
      simp only [bind_ok]
      cases definiteInner x.2.length i with
      | error e => rfl
      | ok n =>
        simp only [bind_ok, ht]
        split
        · rfl
        · cases takeS n x.1 with
          | error e => rfl
          | ok y =>
            simp only [bind_ok, hc]
            cases p.content x.2 y.2 <;> rfl
  · unfold fromBer
    cases wrapBerParser parseBerAny bs with
    | error e => rfl
    | ok x =>
      show (tryFromAny q x.2 >>= fun v => pure (x.1, v)) =
        (tryFromAny p x.2 >>= fun v => pure (x.1, v)).map _
      rw [key]
      cases tryFromAny p x.2 <;> rfl
  · unfold fromDer
    cases wrapBerParser parseDerAny bs with
    | error e => rfl
    | ok x =>
      show (check x.2 >>= fun _ => tryFromAny q x.2 >>= fun v => pure (x.1, v)) =
        (check x.2 >>= fun _ => tryFromAny p x.2 >>= fun v => pure (x.1, v)).map _
      cases check x.2 with
      | error e => rfl
      | ok _ =>
        show (tryFromAny q x.2 >>= fun v => pure (x.1, v)) =
          (tryFromAny p x.2 >>= fun v => pure (x.1, v)).map _
        rw [key]
        cases tryFromAny p x.2 <;> rfl

theorem shows_of {p : Parser α} {see : α → Any → Prop}
    (hc : ∀ a x v, p.acceptTag a.header.tag = true → p.content a.header a.data = .ok (x, v) →
      see v a) : Shows p see := by
  refine ⟨fun i r v h => ?_, fun i r v h => ?_, fun bs rem v h => ?_, fun check bs rem v h => ?_,
    fun a v h => ?_⟩
  · obtain ⟨a, x, h1, h2, h3⟩ := parseBer_ok.mp h
    exact ⟨a, h1, hc a x v h2 h3⟩
  · obtain ⟨a, x, h1, h2, h3⟩ := parseDer_ok.mp h
    exact ⟨a, h1, hc a x v h2 h3⟩
  · obtain ⟨r, a, x, h1, h0, h2, h3⟩ := fromBer_ok.mp h
    exact ⟨r, a, h1, h0, hc a x v h2 h3⟩
  · obtain ⟨r, a, x, h1, h0, _, h2, h3⟩ := fromDer_ok.mp h
    exact ⟨r, a, h1, h0, hc a x v h2 h3⟩
  · obtain ⟨h2, x, h3⟩ := tryFromAny_ok.mp h
    exact hc a x v h2 h3

/-! ### Segmented strings -/

theorem cow_append_bytes (a b : Cow) : (a.append b).bytes = a.bytes ++ b.bytes := by
  cases a <;> rfl

theorem cow_append_owned (a b : Cow) : (a.append b).asRawSlice = none := by cases a <;> rfl

theorem takeAll (i : Input) : i.takeSplit i.len = .ok (after i i.data.length, first i i.data.length) := by
  rw [takeSplit_eq, if_pos (by simp [Input.len])]; rfl

theorem octetCowLeaf_ok (h : Header) (i : Input) :
    octetCowLeaf h i = .ok (after i i.data.length, .borrowed (first i i.data.length)) := by
  unfold octetCowLeaf; rw [takeAll]; rfl

theorem forIter_map {σ τ : Type} {parse : Input → PRes Any} {f : σ → Any → Except PErr (Bool × σ)}
    {g : τ → Any → Except PErr (Bool × τ)} {m : σ → τ}
    (hg : ∀ s a, g (m s) a = (f s a).map fun x => (x.1, m x.2)) (fuel : Nat) :
    ∀ it s, forIter parse g fuel it (m s) =
      (forIter parse f fuel it s).map fun x => (x.1, m x.2) := by
  induction fuel with
  | zero => intro _ _; rfl
  | succ fuel ih =>
    intro it s
    unfold forIter
    cases it.next parse with
    | error e => rfl
    | ok x =>
      obtain ⟨o, it'⟩ := x
      cases o with
      | none => rfl
      | some o =>
        cases o with
        | err i e => rfl
        | obj r a =>
          simp only [hg]
          cases f s a with
          | error e => rfl
          | ok y =>
            obtain ⟨b, s'⟩ := y
            cases b with
            | false => rfl
            | true => exact ih it' s'

theorem forIter_inv {σ : Type} {parse : Input → PRes Any} {f : σ → Any → Except PErr (Bool × σ)}
    {P : σ → Prop} (hf : ∀ s a b s', P s → f s a = .ok (b, s') → P s') (fuel : Nat) :
    ∀ it s it' s', P s → forIter parse f fuel it s = .ok (it', s') → P s' := by
  induction fuel with
  | zero => intro _ _ _ _ _ h; simp [forIter] at h
  | succ fuel ih =>
    intro it s it' s' hs h
    unfold forIter at h
    split at h
    · simp at h
    · injection h with h; injection h with _ h; exact h ▸ hs
    · simp at h
    · split at h
      · simp at h
      · rename_i hb
        exact ih _ _ _ _ (hf _ _ _ _ hs hb) h
      · rename_i hb
        injection h with h; injection h with _ h
        exact h ▸ hf _ _ _ _ hs hb

theorem parseSegmented_map {acc : Nat → Bool} {e : α} {app : α → α → α} {leaf : Header → Input → PRes α}
    {e' : β} {app' : β → β → β} {leaf' : Header → Input → PRes β} {m : α → β} (he : m e = e')
    (happ : ∀ a b, m (app a b) = app' (m a) (m b))
    (hl : ∀ h i, leaf' h i = (leaf h i).map fun x => (x.1, m x.2)) (d : Nat) :
    ∀ h i, parseSegmented acc e' app' leaf' d h i =
      (parseSegmented acc e app leaf d h i).map fun x => (x.1, m x.2) := by
  induction d with
  | zero => intro _ _; rfl
  | succ d ih =>
    intro h i
    unfold parseSegmented
    split
    · rfl
    · split
      · cases segContent h i with
        | error e => rfl
        | ok x =>
          simp only [bind_ok]
          rw [← he, forIter_map (m := m) (f := segStep acc app
            (fun h i => parseSegmented acc e app leaf d h i))]
          · cases forIter anyBer.parseBer _ _ _ _ <;> rfl
          · intro s a
            unfold segStep
            split
            · rfl
            · split
              · rfl
              · split
                · rfl
                · show (match parseSegmented acc (m e) app' leaf' d a.header a.data with
                    | .ok (_, part) => .ok (true, app' (m s) part)
                    | .error e => .error e) = Except.map _ (match parseSegmented acc e app leaf d a.header a.data with
                    | .ok (_, part) => .ok (true, app s part)
                    | .error e => .error e)
                  rw [he, ih]
                  cases parseSegmented acc e app leaf d a.header a.data with
                  | error _ => rfl
                  | ok y => simp [Except.map, happ]
      · cases berGetContent h i with
        | error e => rfl
        | ok x =>
          simp only [bind_ok, hl]
          cases leaf h x.2 <;> rfl

theorem octetCowContent_bytes (h : Header) (i : Input) :
    octetContent h i = (octetCowContent h i).map fun x => (x.1, x.2.bytes) := by
  have hl : ∀ h i, octetLeaf h i = (octetCowLeaf h i).map fun x => (x.1, x.2.bytes) := by
    intro h i; rw [octetLeaf_ok, octetCowLeaf_ok]; simp [Except.map, Cow.bytes]
  unfold octetContent octetCowContent
  split
  · exact hl h i
  · exact parseSegmented_map (m := Cow.bytes) (e := Cow.empty) rfl cow_append_bytes hl _ h i

/-- The content of a constructed string is its own. -/
theorem segmented_owned {h : Header} {i r : Input} {v : Cow} {d : Nat} (hc : h.constructed = true)
    (hv : parseSegmented (tagIs tagOctetString) Cow.empty Cow.append octetCowLeaf d h i = .ok (r, v)) :
    v.asRawSlice = none := by
  cases d with
  | zero => simp [parseSegmented, nomErr] at hv
  | succ d =>
    unfold parseSegmented at hv
    split at hv
    · simp [nomErr] at hv
    · obtain ⟨x, _, hv⟩ := bind_eq_ok.mp hv
      obtain ⟨y, hy, hv⟩ := bind_eq_ok.mp hv
      injection hv with hv; injection hv with _ hv
      rw [← hv]
      refine forIter_inv (P := fun c : Cow => c.asRawSlice = none) ?_ _ _ _ _ _ rfl hy
      intro s a b s' hs hst
      unfold segStep at hst
      split at hst
      · injection hst with hst; injection hst with _ hst; exact hst ▸ hs
      · split at hst
        · simp [nomErr] at hst
        · split at hst
          · injection hst with hst; injection hst with _ hst; exact hst ▸ hs
          · split at hst
            · injection hst with hst; injection hst with _ hst
              exact hst ▸ cow_append_owned _ _
            · simp at hst

theorem rangeOf_all (i : Input) : RangeOf i (first i i.data.length) [] [] := by
  simp [RangeOf]

theorem octetCow_shows {a : Any} {x : Input} {v : Cow}
    (h : octetCowContent a.header a.data = .ok (x, v)) : SharedString Cow.asRawSlice v a := by
  unfold octetCowContent at h
  refine ⟨fun hc => ?_, fun hc => ?_⟩
  · rw [if_pos (by simp [hc]), octetCowLeaf_ok] at h
    injection h with h; injection h with _ h
    exact ⟨_, h ▸ rfl, rangeOf_all _⟩
  · rw [if_neg (by simp [hc])] at h
    exact segmented_owned hc h

theorem strCowBytes_eq (h : Header) (i : Input) : strCowBytes h i = octetCowContent h i := rfl

theorem strCow_text (k : StrKind) (h : Header) (i : Input) :
    strBerContent k h i = (strCowContent k h i).map fun x => (x.1, x.2.text) := by
  unfold strBerContent strCowContent
  rw [strBytes_eq, strCowBytes_eq, octetCowContent_bytes]
  cases octetCowContent h i with
  | error e => rfl
  | ok x =>
    obtain ⟨rem, c⟩ := x
    show strOfBytes k rem c.bytes = (strCowOfBytes k rem c).map _
    unfold strOfBytes strCowOfBytes
    cases k.testValidCharset c.bytes with
    | error e => rfl
    | ok u =>
      cases c with
      | borrowed j =>
        simp only [Cow.bytes]
        cases fromUtf8 j.data <;> rfl
      | owned bs =>
        simp only [Cow.bytes]
        cases fromUtf8 bs <;> rfl

theorem strCow_shows {k : StrKind} {a : Any} {x : Input} {v : StrCow}
    (h : strCowContent k a.header a.data = .ok (x, v)) :
    SharedString StrCow.asRawStr v a ∧ ∀ d, v.asRawStr = some d → fromUtf8 d.data = some v.text := by
  unfold strCowContent at h
  obtain ⟨⟨rem, c⟩, h1, h2⟩ := bind_eq_ok.mp h
  rw [strCowBytes_eq] at h1
  obtain ⟨hp, hc⟩ := octetCow_shows h1
  replace h2 : strCowOfBytes k rem c = .ok (x, v) := h2
  have key : v.asRawStr = c.asRawSlice ∧ ∀ d, v.asRawStr = some d → fromUtf8 d.data = some v.text := by
    unfold strCowOfBytes at h2
    cases hk : k.testValidCharset c.bytes with
    | error e => rw [hk] at h2; simp [nomErr] at h2
    | ok u =>
      rw [hk] at h2
      cases c with
      | borrowed j =>
        simp only at h2
        cases hu : fromUtf8 j.data with
        | none => rw [hu] at h2; simp [nomErr] at h2
        | some s =>
          rw [hu] at h2
          injection h2 with h2; injection h2 with _ h2
          subst h2
          refine ⟨rfl, fun d hd => ?_⟩
          injection hd with hd
          subst hd; exact hu
      | owned bs =>
        simp only at h2
        cases hu : fromUtf8 bs with
        | none => rw [hu] at h2; simp [nomErr] at h2
        | some s =>
          rw [hu] at h2
          injection h2 with h2; injection h2 with _ h2
          subst h2
          refine ⟨rfl, fun d hd => ?_⟩
          injection hd
  refine ⟨⟨fun h => ?_, fun h => ?_⟩, key.2⟩
  · rw [key.1]; exact hp h
  · rw [key.1]; exact hc h

theorem map_bind_prim (h : Header) (i : Input) (x : PRes α) (f : Input × α → Input × β) :
    (h.assertPrimitive i >>= fun _ => x.map f) = (h.assertPrimitive i >>= fun _ => x).map f := by
  cases h.assertPrimitive i <;> rfl

theorem ok_bind_prim {h : Header} {i : Input} {x : PRes α} {v : Input × α}
    (hx : (h.assertPrimitive i >>= fun _ => x) = .ok v) : x = .ok v := by
  obtain ⟨_, _, hx⟩ := bind_eq_ok.mp hx
  exact hx

/-! ### The claims -/

/-- **C104** OCTET STRINGs: the decoders with references decode the same values as those of C22 and C23,
and the value refers to the content of the object exactly if the object is primitive. -/
theorem C104_octet_string :
    (SameValues octetCowBer Cow.bytes octetBer ∧ SameValues octetCowDer Cow.bytes octetDer) ∧
    Shows octetCowBer (SharedString Cow.asRawSlice) ∧
    Shows octetCowDer (SharedContent Cow.asRawSlice) := by
  refine ⟨⟨sameValues_of rfl octetCowContent_bytes, sameValues_of rfl fun h i => ?_⟩,
    shows_of fun a x v _ h => octetCow_shows h, shows_of fun a x v _ h => ?_⟩
  · show (h.assertPrimitive i >>= fun _ => octetContent h i) = _
    rw [octetCowContent_bytes]
    exact map_bind_prim _ _ _ _
  · obtain ⟨_, h1, h2⟩ := bind_eq_ok.mp (h : (a.header.assertPrimitive a.data >>= fun _ => _) = _)
    exact (octetCow_shows h2).1 (assertPrimitive_ok.mp h1)

/-- **C104** Character strings: `as_raw_str` is a reference to the content of the object, with the
text of the value, exactly if the object is primitive. -/
theorem C104_strings (k : StrKind) :
    (SameValues (strCowBer k) StrCow.text (strBer k) ∧ SameValues (strCowDer k) StrCow.text (strDer k)) ∧
    Shows (strCowBer k) (fun v a => SharedString StrCow.asRawStr v a ∧
      ∀ d, v.asRawStr = some d → fromUtf8 d.data = some v.text) ∧
    Shows (strCowDer k) (fun v a => SharedContent StrCow.asRawStr v a ∧
      ∀ d, v.asRawStr = some d → fromUtf8 d.data = some v.text) := by
  refine ⟨⟨sameValues_of rfl (strCow_text k), sameValues_of rfl fun h i => ?_⟩,
    shows_of fun a x v _ h => strCow_shows h, shows_of fun a x v _ h => ?_⟩
  · show (h.assertPrimitive i >>= fun _ => strBerContent k h i) = _
    rw [strCow_text]
    exact map_bind_prim _ _ _ _
  · obtain ⟨_, h1, h2⟩ := bind_eq_ok.mp (h : (a.header.assertPrimitive a.data >>= fun _ => _) = _)
    exact ⟨(strCow_shows h2).1.1 (assertPrimitive_ok.mp h1), (strCow_shows h2).2⟩

/-- **C104** A string built from a `&str` refers to it, and one built from a `String` to nothing; both have the text
they were built from. -/
theorem C104_built_strings (t : Text) (r : Input) :
    (StrCow.new t r).text = t ∧ (StrCow.new t r).asRawStr = some r ∧
    (StrCow.ofString t).text = t ∧ (StrCow.ofString t).asRawStr = none := ⟨rfl, rfl, rfl, rfl⟩

theorem sliceRef_eq (h : Header) (i : Input) :
    sliceContent h i = (sliceRefContent h i).map fun x => (x.1, x.2.data) := by
  unfold sliceContent sliceRefContent
  split
  · rfl
  · rw [takeAll]; rfl

theorem utf8Ref_eq (i : Input) : utf8Whole i = (utf8WholeRef i).map fun x => (x.1, x.2.1) := by
  unfold utf8Whole utf8WholeRef
  rw [takeAll]
  simp only [bind_ok]
  cases fromUtf8 (first i i.data.length).data <;> rfl

theorem utf8Ref_shows {i x : Input} {v : Text × Input} (h : utf8WholeRef i = .ok (x, v)) :
    RangeOf i v.2 [] [] ∧ fromUtf8 v.2.data = some v.1 := by
  unfold utf8WholeRef at h
  rw [takeAll] at h
  simp only [bind_ok] at h
  split at h
  · rename_i s hs
    injection h with h; injection h with _ h
    subst h
    exact ⟨rangeOf_all _, hs⟩
  · simp [nomErr] at h

/-- **C104** `&[u8]` and `&str` are references to the content of the object. -/
theorem C104_references :
    (SameValues sliceRefBer Input.data sliceBer ∧ SameValues sliceRefDer Input.data sliceDer ∧
     SameValues strRefBer Prod.fst refStrBer ∧ SameValues strRefDer Prod.fst refStrDer) ∧
    Shows sliceRefBer (SharedContent some) ∧ Shows sliceRefDer (SharedContent some) ∧
    Shows strRefBer (fun v a => RangeOf a.data v.2 [] [] ∧ fromUtf8 v.2.data = some v.1) ∧
    Shows strRefDer (fun v a => RangeOf a.data v.2 [] [] ∧ fromUtf8 v.2.data = some v.1) := by
  have hs : ∀ (h : Header) (i x v : Input), sliceRefContent h i = .ok (x, v) → RangeOf i v [] [] := by
    intro h i x v hx
    unfold sliceRefContent at hx
    split at hx
    · simp [nomErr] at hx
    · rw [takeAll] at hx
      injection hx with hx; injection hx with _ hx
      exact hx ▸ rangeOf_all _
  refine ⟨⟨sameValues_of rfl sliceRef_eq, sameValues_of rfl fun h i => ?_, sameValues_of rfl fun h i => ?_,
    sameValues_of rfl fun h i => ?_⟩, shows_of fun a x v _ h => ⟨v, rfl, hs _ _ _ _ h⟩,
    shows_of fun a x v _ h => ⟨v, rfl, hs _ _ _ _ (ok_bind_prim h)⟩, shows_of fun a x v _ h => ?_,
    shows_of fun a x v _ h => utf8Ref_shows (ok_bind_prim h)⟩
  · show (h.assertPrimitive i >>= fun _ => sliceContent h i) = _
    rw [sliceRef_eq]
    exact map_bind_prim _ _ _ _
  · show (if h.constructed then nomErr i .lifetimeError else utf8Whole i) = _
    rw [utf8Ref_eq]
    unfold strRefBer
    simp only
    split <;> rfl
  · show (h.assertPrimitive i >>= fun _ => utf8Whole i) = _
    rw [utf8Ref_eq]
    exact map_bind_prim _ _ _ _
  · replace h : (if a.header.constructed then nomErr a.data .lifetimeError else utf8WholeRef a.data) =
      .ok (x, v) := h
    split at h
    · simp [nomErr] at h
    · exact utf8Ref_shows h

theorem integerCow_eq (h : Header) (i : Input) :
    integerContent h i = (integerCowContent h i).map fun x => (x.1, ⟨x.2.bytes⟩) := by
  unfold integerContent integerCowContent
  cases h.assertPrimitive i with
  | error e => rfl
  | ok u =>
    simp only [bind_ok]
    cases derContent h i with
    | error e => rfl
    | ok x => simp only [bind_ok]; split <;> rfl

theorem oidCow_eq (h : Header) (i : Input) :
    oidContent h i = (oidCowContent h i).map fun x => (x.1, ⟨x.2.bytes, false⟩) := by
  unfold oidContent oidCowContent
  cases h.assertPrimitive i with
  | error e => rfl
  | ok u =>
    simp only [bind_ok]
    split
    · rfl
    · rw [takeAll]; rfl

theorem rawCow_eq (t : Nat) (h : Header) (i : Input) :
    (rawP t).content h i = ((rawCowP t).content h i).map fun x => (x.1, ⟨x.2.bytes, false⟩) := by
  unfold rawP rawCowP
  simp only
  cases h.assertConstructed i with
  | error e => rfl
  | ok u => rw [takeAll]; rfl

/-- **C104** INTEGERs, OBJECT IDENTIFIERs, and `Sequence` and `Set` refer to the content of the object. -/
theorem C104_contents :
    (SameValues integerCowBer (fun c => ⟨c.bytes⟩) integerBer ∧
     SameValues integerCowDer (fun c => ⟨c.bytes⟩) integerDer ∧
     SameValues oidCowP (fun c => ⟨c.bytes, false⟩) oidP ∧
     ∀ t, SameValues (rawCowP t) (fun c => ⟨c.bytes, false⟩) (rawP t)) ∧
    Shows oidCowP (SharedContent Cow.asRawSlice) ∧
    ∀ t, Shows (rawCowP t) (SharedContent Cow.asRawSlice) := by
  refine ⟨⟨sameValues_of rfl integerCow_eq, sameValues_of rfl fun h i => ?_, sameValues_of rfl oidCow_eq,
    fun t => sameValues_of rfl (rawCow_eq t)⟩, shows_of fun a x v _ h => ?_,
    fun t => shows_of fun a x v _ h => ?_⟩
  · show (checkDerIntInput i >>= fun _ => integerContent h i) = _
    rw [integerCow_eq]
    show _ = (checkDerIntInput i >>= fun _ => integerCowContent h i).map _
    cases checkDerIntInput i <;> rfl
  · obtain ⟨_, _, h⟩ := bind_eq_ok.mp (h : oidCowContent _ _ = _)
    split at h
    · simp [nomErr] at h
    · rw [takeAll] at h
      injection h with h; injection h with _ h
      exact ⟨_, h ▸ rfl, rangeOf_all _⟩
  · obtain ⟨_, _, h⟩ := bind_eq_ok.mp (h : (a.header.assertConstructed a.data >>= fun _ => _) = _)
    rw [takeAll] at h
    injection h with h; injection h with _ h
    exact ⟨_, h ▸ rfl, rangeOf_all _⟩

/-- **C104** INTEGERs likewise (of an object made by hand, as many octets as its header says). -/
theorem C104_integer :
    Shows integerCowBer (fun v a => ∃ d tail, v.asRawSlice = some d ∧ RangeOf a.data d [] tail ∧
      a.header.length = .definite d.data.length) ∧
    Shows integerCowDer (fun v a => ∃ d tail, v.asRawSlice = some d ∧ RangeOf a.data d [] tail ∧
      a.header.length = .definite d.data.length) := by
  have key : ∀ (a : Any) (x : Input) (v : Cow), integerCowContent a.header a.data = .ok (x, v) →
      ∃ d tail, v.asRawSlice = some d ∧ RangeOf a.data d [] tail ∧
        a.header.length = .definite d.data.length := by
    intro a x v h
    obtain ⟨_, _, h⟩ := bind_eq_ok.mp (h : (a.header.assertPrimitive a.data >>= fun _ => _) = _)
    obtain ⟨⟨r, d⟩, h1, h⟩ := bind_eq_ok.mp h
    simp only at h
    split at h
    · simp [nomErr] at h
    · injection h with h; injection h with _ h
      subst h
      unfold derContent at h1
      split at h1
      · rename_i n hn
        rw [takeS_eq] at h1
        split at h1
        · rename_i h2
          injection h1 with h1; injection h1 with _ h1
          subst h1
          refine ⟨_, a.data.data.drop n, rfl, by simp [RangeOf]; omega, ?_⟩
          rw [hn, first_data, List.length_take, Nat.min_eq_left h2]
        · simp at h1
      · simp [nomErr] at h1
  refine ⟨shows_of fun a x v _ h => key a x v h, shows_of fun a x v _ h => ?_⟩
  obtain ⟨_, _, h⟩ := bind_eq_ok.mp (h : (checkDerIntInput a.data >>= fun _ => _) = _)
  exact key a x v h

theorem rangeOf_split {i : Input} {hd : Bytes} {k n : Nat} (hk : k = hd.length)
    (h : i.data = hd ++ (after i k).data) (hn : n ≤ (after i k).data.length) :
    (first (after i k) n).data.length = n ∧
    RangeOf i (first (after i k) n) hd (after i (k + n)).data := by
  subst hk
  have hl : (first (after i hd.length) n).data.length = n := by
    rw [first_data, List.length_take, Nat.min_eq_left hn]
  refine ⟨hl, ?_, rfl, by rw [hl]; rfl⟩
  conv => lhs; rw [h]
  rw [List.append_assoc, first_data, ← after_after, after_data (after i hd.length) n,
    List.take_append_drop]

/-- **C104** Where the content of an object is: after its identifier and length octets. The object and
its content end together if the length is definite, in particular for every primitive object. -/
theorem C104_position (i r : Input) (a : Any) (h : parseBerAny i = .ok (r, a) ∨ parseDerAny i = .ok (r, a)) :
    ∃ ident len tail, Ident a.header.cls a.header.constructed a.header.tag ident ∧
      Len a.header.constructed a.header.length len ∧ RangeOf i a.data (ident ++ len) tail ∧
      (a.header.constructed = false → a.header.length = .definite a.data.data.length) ∧
      (∀ n, a.header.length = .definite n → a.data.data.length = n ∧ tail = r.data ∧
        r.start = a.data.stop) := by
  have h' : parseBerAny i = .ok (r, a) := h.elim id (C11_der_subset_ber_any _ _ _)
  obtain ⟨r1, h1, h2⟩ := parseBerAny_ok.mp h'
  obtain ⟨ident, len, hi, hl, hd, rfl, -, -⟩ := parseHeader_ok.mp h1
  have h3 := berContent_ok.mp (h2 : berContent _ _ (49 + 1) = _)
  have hk : ident.length + len.length = (ident ++ len).length := by simp
  refine ⟨ident, len, ?_⟩
  cases hlen : a.header.length with
  | definite n =>
    rw [hlen] at h3 hl
    obtain ⟨h4, h6, h5⟩ := h3
    obtain ⟨g1, g2⟩ := rangeOf_split hk hd h4
    rw [← h5] at g1 g2
    refine ⟨_, hi, hl, g2, fun _ => by rw [g1], fun m hm => ?_⟩
    injection hm with hm
    subst hm
    refine ⟨g1, by rw [h6, after_after], by rw [h6, h5]; rfl⟩
  | indefinite =>
    rw [hlen] at h3 hl
    obtain ⟨h4, _, items, eoc, _, h5, h6, h7⟩ := h3
    have h8 : items.flatten.length + eoc.length - 2 ≤ (after i (ident.length + len.length)).data.length := by
      rw [h5, List.length_append, List.length_append]; omega
    obtain ⟨g1, g2⟩ := rangeOf_split hk hd h8
    rw [← h7] at g2
    exact ⟨_, hi, hl, g2, fun hc => by rw [h4] at hc; simp at hc, fun n hn => by simp at hn⟩

/-- Cases: a UTF8String in primitive form within a longer input refers to octets 2 to 4, the same text
in two segments does not. -/
example : (strCowBer utf8StringK).parseBer (Input.fromSlice [12, 2, 0x41, 0x42, 5, 0]) =
      .ok (⟨[5, 0], 4, 6⟩, ⟨['A', 'B'], some ⟨[0x41, 0x42], 2, 4⟩⟩) ∧
    (strCowBer utf8StringK).parseBer (Input.fromSlice [0x2c, 6, 4, 1, 0x41, 4, 1, 0x42]) =
      .ok (⟨[], 8, 8⟩, ⟨['A', 'B'], none⟩) := by decide +kernel

/-- A case: an INTEGER. -/
example : integerCowDer.parseDer (Input.fromSlice [2, 2, 1, 0, 7]) =
    .ok (⟨[7], 4, 5⟩, .borrowed ⟨[1, 0], 2, 4⟩) := by decide +kernel

end Asn1

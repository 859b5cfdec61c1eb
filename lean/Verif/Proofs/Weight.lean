import Verif.Spec.Weight
import Verif.Proofs.Place
import Verif.Props.DeriveRead
/-!
# What a decoded value holds was in the input
-/
namespace Asn1
open Spec
variable {α β : Type}

/-- What a parser returns holds at most one and a half times what the parser has read. -/
def Frugal (w : α → Nat) (f : Input → PRes α) : Prop :=
  ∀ i r v, f i = .ok (r, v) → 2 * w v + 3 * r.data.length ≤ 3 * i.data.length

/-- The same of a content, of which the header has been read before. -/
def Compact (w : α → Nat) (p : Parser α) : Prop :=
  ∀ h i r v, p.content h i = .ok (r, v) → 2 * w v ≤ 3 * i.data.length + 4

theorem ahead_len {i r : Input} {x : PRes α} {v : α} (ha : Ahead i x) (h : x = .ok (r, v)) :
    r.data.length ≤ i.data.length := by
  obtain ⟨k, hk, rfl⟩ := ha r v h
  rw [after_data, List.length_drop]; omega

theorem inside_len {j i : Input} (h : Inside j i) : j.data.length ≤ i.data.length := by
  obtain ⟨a, n, h1, h2, _⟩ := h
  rw [h2, List.length_take, List.length_drop]; omega

/-- The remainder and the content do not overlap. -/
theorem berContent_len {i r data : Input} {h : Header} {d : Nat} (hc : berContent h i d = .ok (r, data)) :
    r.data.length + data.data.length ≤ i.data.length := by
  rw [berContent_eq] at hc
  obtain ⟨⟨r1, b⟩, h1, h2⟩ := bind_eq_ok.mp hc
  injection h2 with h2; injection h2 with h2 h3
  obtain ⟨k, hk, rfl⟩ := (good_skipContent d h).adv _ _ _ h1
  subst h2 h3
  rw [first_data, after_data, List.length_take, List.length_drop, after_start]
  omega

theorem berAny_len {i r : Input} {a : Any} (h : parseBerAny i = .ok (r, a)) :
    2 + r.data.length + a.data.data.length ≤ i.data.length := by
  obtain ⟨r1, h1, h2⟩ := parseBerAny_ok.mp h
  obtain ⟨k, hk, hk', rfl⟩ := parseHeader_consumes h1
  have := berContent_len h2
  rw [after_data, List.length_drop] at this
  omega

theorem derAny_len {i r : Input} {a : Any} (h : parseDerAny i = .ok (r, a)) :
    2 + r.data.length + a.data.data.length ≤ i.data.length := by
  obtain ⟨r1, n, h1, _, hn, rfl, h2⟩ := parseDerAny_ok.mp h
  obtain ⟨k, hk, hk', rfl⟩ := parseHeader_consumes h1
  rw [h2, first_data, List.length_take, after_data, List.length_drop]
  rw [after_data, List.length_drop] at hn ⊢
  omega

theorem frugal_ber {w : α → Nat} {p : Parser α} (h : Compact w p) : Frugal w p.parseBer := by
  intro i r v hp
  obtain ⟨a, x, h1, _, h2⟩ := parseBer_ok.mp hp
  have := berAny_len h1
  have := h _ _ _ _ h2
  omega

theorem frugal_der {w : α → Nat} {p : Parser α} (h : Compact w p) : Frugal w p.parseDer := by
  intro i r v hp
  obtain ⟨a, x, h1, _, h2⟩ := parseDer_ok.mp hp
  have := derAny_len h1
  have := h _ _ _ _ h2
  omega

theorem frugal_parse {w : α → Nat} {m : Rules} {p : Parser α} (h : Compact w p) : Frugal w (m.parse p) := by
  cases m
  · exact frugal_ber h
  · exact frugal_der h

theorem compact_map {w : β → Nat} {p : Parser α} {f : α → β} (h : Compact (fun v => w (f v)) p) :
    Compact w (p.map f) := by
  intro hd i r v hc
  have hc' : (match p.content hd i with | .ok (rem, a) => (.ok (rem, f a) : PRes β) | .error e => .error e) =
      .ok (r, v) := hc
  cases hx : p.content hd i with
  | error e => rw [hx] at hc'; cases hc'
  | ok x =>
    rw [hx] at hc'
    injection hc' with hc'; injection hc' with _ hc'
    subst hc'
    exact h _ _ _ _ hx

theorem compact_zero {p : Parser α} : Compact (fun _ => 0) p := fun _ _ _ _ _ => Nat.zero_le _

/-! ### Iterators -/

/-- The objects of an iterator are disjoint parts of its input. -/
theorem next_len {parse : Input → PRes Any}
    (hp : ∀ i r a, parse i = .ok (r, a) → 2 + r.data.length + a.data.data.length ≤ i.data.length)
    {it it' : AnyIter} {o : Option IterItem} (h : it.next parse = .ok (o, it')) :
    it'.input.data.length ≤ it.input.data.length ∧
      ∀ s a, o = some (.obj s a) → 2 + it'.input.data.length + a.data.data.length ≤ it.input.data.length := by
  unfold AnyIter.next at h
  split at h
  · injection h with h; injection h with h1 h2
    subst h1 h2
    exact ⟨Nat.le_refl _, by rintro s a ⟨⟩⟩
  · cases hq : parse it.input with
    | error e =>
      rw [hq] at h
      cases e with
      | error j e =>
        injection h with h; injection h with h1 h2
        subst h1 h2
        exact ⟨Nat.le_refl _, by rintro s a ⟨⟩⟩
      | incomplete n =>
        injection h with h; injection h with h1 h2
        subst h1 h2
        exact ⟨Nat.le_refl _, by rintro s a ⟨⟩⟩
      | panic => cases h
      | diverge => cases h
    | ok y =>
      obtain ⟨rem, obj⟩ := y
      rw [hq] at h
      simp only at h
      split at h
      · cases h
      · obtain ⟨d, _, h⟩ := bind_eq_ok.mp h
        injection h with h; injection h with h1 h2
        subst h1 h2
        have := hp _ _ _ hq
        refine ⟨by show rem.data.length ≤ _; omega, ?_⟩
        rintro s a h
        injection h with h; injection h with _ h
        subst h
        exact this

/-- What a loop over the objects accumulates. -/
theorem forIter_weight {σ : Type} {parse : Input → PRes Any}
    (hp : ∀ i r a, parse i = .ok (r, a) → 2 + r.data.length + a.data.data.length ≤ i.data.length)
    {f : σ → Any → Except PErr (Bool × σ)} {m : σ → Nat} {c : Nat}
    (hf : ∀ s a b s', f s a = .ok (b, s') → m s' ≤ m s + c * (2 + a.data.data.length)) :
    ∀ fuel (it it' : AnyIter) s s', forIter parse f fuel it s = .ok (it', s') →
      m s' + c * it'.input.data.length ≤ m s + c * it.input.data.length := by
  intro fuel
  induction fuel with
  | zero => rintro it it' s s' ⟨⟩
  | succ n ih =>
    intro it it' s s' h
    unfold forIter at h
    cases hn : it.next parse with
    | error e => rw [hn] at h; cases h
    | ok x =>
      obtain ⟨o, it1⟩ := x
      obtain ⟨h1, h2⟩ := next_len hp hn
      have h1 := Nat.mul_le_mul_left c h1
      rw [hn] at h
      cases o with
      | none =>
        injection h with h; injection h with h h'
        subst h h'
        omega
      | some o =>
        cases o with
        | err j e => cases h
        | obj sp a =>
          have h2 := Nat.mul_le_mul_left c (h2 sp a rfl)
          rw [Nat.mul_add, Nat.mul_add] at h2
          simp only at h
          cases hq : f s a with
          | error e => rw [hq] at h; cases h
          | ok y =>
            obtain ⟨b, s1⟩ := y
            have h3 := hf _ _ _ _ hq
            rw [Nat.mul_add] at h3
            rw [hq] at h
            cases b with
            | false =>
              injection h with h; injection h with h h'
              subst h h'
              omega
            | true =>
              have := ih _ _ _ _ h
              omega

theorem itemsWeight_append (w : α → Nat) (l l' : List α) :
    itemsWeight w (l ++ l') = itemsWeight w l + itemsWeight w l' := by
  induction l with
  | nil => simp [itemsWeight]
  | cons x l ih => simp only [List.cons_append, itemsWeight, ih]; omega

theorem anyParse_len {i r : Input} {a : Any} (m : Rules) (h : m.any i = .ok (r, a)) :
    2 + r.data.length + a.data.data.length ≤ i.data.length := by
  cases m
  · exact berAny_len h
  · exact derAny_len h

theorem collect_weight {w : α → Nat} {p : Parser α} (hp : Compact w p) (m : Rules) {i r : Input} {l : List α}
    (h : (AnyIter.new i).tryParseCollect m.any p = .ok (r, l)) : 2 * itemsWeight w l ≤ 3 * i.data.length := by
  unfold AnyIter.tryParseCollect at h
  obtain ⟨⟨it', l'⟩, h1, h2⟩ := bind_eq_ok.mp h
  injection h2 with h2; injection h2 with _ h2
  subst h2
  have := forIter_weight (m := fun l => 2 * itemsWeight w l) (c := 3) (fun _ _ _ => anyParse_len m) (f := parseCollectStep p) (by
    intro s a b s' hs
    unfold parseCollectStep at hs
    split at hs
    · cases hs
    · cases hc : p.content a.header a.data with
      | error e => rw [hc] at hs; cases hs
      | ok x =>
        rw [hc] at hs
        injection hs with hs; injection hs with _ hs
        subst hs
        have := hp _ _ _ _ hc
        simp only [itemsWeight_append, itemsWeight]
        omega) _ _ _ _ _ h1
  simp only [itemsWeight, AnyIter.new] at this
  omega

theorem segmented_weight {w : α → Nat} {acc : Nat → Bool} {e : α} {ap : α → α → α}
    {leaf : Header → Input → PRes α} (he : w e = 0) (ha : ∀ x y, w (ap x y) ≤ w x + w y)
    (hl : ∀ h i r v, leaf h i = .ok (r, v) → w v ≤ i.data.length) : ∀ n h i r v,
    parseSegmented acc e ap leaf n h i = .ok (r, v) → w v ≤ i.data.length := by
  intro n
  induction n with
  | zero => rintro h i r v ⟨⟩
  | succ n ih =>
    intro h i r v hs
    unfold parseSegmented at hs
    split at hs
    · cases hs
    · split at hs
      · obtain ⟨⟨rem, data⟩, h1, hs⟩ := bind_eq_ok.mp hs
        obtain ⟨⟨it', v'⟩, h2, hs⟩ := bind_eq_ok.mp hs
        injection hs with hs; injection hs with _ hs
        subst hs
        have hd : data.data.length ≤ i.data.length := by
          unfold segContent at h1
          split at h1
          · exact inside_len (berContent_data h1)
          · exact inside_len (takeSplit_data h1)
        have := forIter_weight (m := w) (c := 1) (fun i r a h => berAny_len (by rwa [anyBer_parseBer] at h))
          (f := segStep acc ap fun h i => parseSegmented acc e ap leaf n h i) (by
          intro s a b s' hs
          unfold segStep at hs
          split at hs
          · injection hs with hs; injection hs with _ hs
            subst hs; omega
          · split at hs
            · cases hs
            · split at hs
              · injection hs with hs; injection hs with _ hs
                subst hs; omega
              · simp only at hs
                cases hc : parseSegmented acc e ap leaf n a.header a.data with
                | error e => rw [hc] at hs; cases hs
                | ok x =>
                  rw [hc] at hs
                  injection hs with hs; injection hs with _ hs
                  subst hs
                  have := ih _ _ _ _ hc
                  have := ha s x.2
                  omega) _ _ _ _ _ h2
        simp only [AnyIter.new] at this
        omega
      · obtain ⟨⟨rem, data⟩, h1, hs⟩ := bind_eq_ok.mp hs
        obtain ⟨⟨x, v'⟩, h2, hs⟩ := bind_eq_ok.mp hs
        injection hs with hs; injection hs with _ hs
        subst hs
        have := inside_len (berContent_data h1)
        have := hl _ _ _ _ h2
        omega

/-! ### The universal types -/

theorem octetLeaf_len {h : Header} {i r : Input} {v : Bytes} (hl : octetLeaf h i = .ok (r, v)) :
    v.length ≤ i.data.length := by
  obtain ⟨⟨x, d⟩, h1, h2⟩ := bind_eq_ok.mp hl
  injection h2 with h2; injection h2 with _ h2
  subst h2
  exact inside_len (takeSplit_data h1)

theorem octetSegs_len {n : Nat} {h : Header} {i r : Input} {v : Bytes} {acc : Nat → Bool}
    (hs : parseSegmented acc [] (· ++ ·) octetLeaf n h i = .ok (r, v)) : v.length ≤ i.data.length :=
  segmented_weight (w := List.length) rfl (fun x y => by rw [List.length_append]; omega)
    (fun _ _ _ _ => octetLeaf_len) n h i r v hs

theorem octet_len {h : Header} {i r : Input} {v : Bytes} (hc : octetContent h i = .ok (r, v)) :
    v.length ≤ i.data.length := by
  unfold octetContent at hc
  split at hc
  · exact octetLeaf_len hc
  · exact octetSegs_len hc

theorem bits_len (v : BitString) : v.bits.length ≤ 8 * v.raw.length := by
  have : (v.raw.flatMap byteBits).length = 8 * v.raw.length := by
    induction v.raw with
    | nil => rfl
    | cons b l ih =>
      rw [List.flatMap_cons, List.length_append, ih, List.length_cons]
      show 8 + _ = _
      omega
  rw [BitString.bits, List.length_take, this]
  omega

theorem bitPrimitive_len {r0 i r : Input} {v : BitString} (h : bitPrimitive r0 i = .ok (r, v)) :
    v.raw.length ≤ i.data.length := by
  unfold bitPrimitive at h
  split at h
  · cases h
  · rename_i b bytes hd
    split at h
    · split at h
      · injection h with h; injection h with _ h
        subst h
        rw [hd, List.length_cons]
        show bytes.length ≤ _
        omega
      · cases h
    · cases h

theorem bitLeaf_len {h : Header} {i r : Input} {v : BitString} (hl : bitLeaf h i = .ok (r, v)) :
    v.raw.length ≤ i.data.length := by
  obtain ⟨⟨x, d⟩, h1, h2⟩ := bind_eq_ok.mp hl
  have := bitPrimitive_len h2
  have := inside_len (berContent_data h1)
  omega

theorem bit_len {h : Header} {i r : Input} {v : BitString} (hc : bitContent h i = .ok (r, v)) :
    v.raw.length ≤ i.data.length := by
  unfold bitContent at hc
  split at hc
  · exact bitLeaf_len hc
  · refine segmented_weight (w := fun v => v.raw.length) rfl (fun x y => ?_) (fun _ _ _ _ => bitLeaf_len) _ _ _ _ _ hc
    show (packN (((x.bits ++ y.bits).length + 7) / 8) _).length ≤ _
    rw [packN_length, List.length_append]
    have := bits_len x
    have := bits_len y
    omega

theorem fromUtf8_len {bs : Bytes} {s : Text} (h : fromUtf8 bs = some s) : Text.byteLen s = bs.length := by
  rw [Text.byteLen, utf8_fromUtf8 bs s h]

theorem utf8Whole_len {i r : Input} {v : Text} (h : utf8Whole i = .ok (r, v)) :
    Text.byteLen v ≤ i.data.length := by
  obtain ⟨⟨x, d⟩, h1, h2⟩ := bind_eq_ok.mp h
  simp only at h2
  have := inside_len (takeSplit_data h1)
  split at h2
  · rename_i s hs
    injection h2 with h2; injection h2 with _ h2
    subst h2
    rw [fromUtf8_len hs]
    exact this
  · cases h2

theorem str_len {k : StrKind} {h : Header} {i r : Input} {v : Text} (hc : strBerContent k h i = .ok (r, v)) :
    Text.byteLen v ≤ i.data.length := by
  obtain ⟨⟨x, d⟩, h1, h2⟩ := bind_eq_ok.mp hc
  have hd : d.length ≤ i.data.length := by
    unfold strBytes at h1
    split at h1
    · obtain ⟨⟨x', d'⟩, h3, h4⟩ := bind_eq_ok.mp h1
      injection h4 with h4; injection h4 with _ h4
      subst h4
      exact inside_len (takeSplit_data h3)
    · exact octetSegs_len h1
  have h2' : strOfBytes k x d = .ok (r, v) := h2
  unfold strOfBytes at h2'
  split at h2'
  · cases h2'
  · split at h2'
    · rename_i s hs
      injection h2' with h2'; injection h2' with _ h2'
      subst h2'
      rw [fromUtf8_len hs]
      exact hd
    · cases h2'

theorem wide_len {h : Header} {i r : Input} {v : Bytes} (hc : wideBytes h i = .ok (r, v)) :
    v.length ≤ i.data.length := by
  unfold wideBytes at hc
  split at hc
  · obtain ⟨⟨x', d'⟩, h3, h4⟩ := bind_eq_ok.mp hc
    injection h4 with h4; injection h4 with _ h4
    subst h4
    exact inside_len (takeSplit_data h3)
  · exact octetSegs_len hc

theorem units16_len : ∀ bs : Bytes, 2 * (units16 bs).length ≤ bs.length + 1
  | [] => by simp [units16]
  | [a] => by simp [units16]
  | a :: b :: r => by
    have := units16_len r
    simp only [units16, List.length_cons]
    omega

theorem utf8EncodeChar_len (c : Char) : (String.utf8EncodeChar c).length ≤ 3 * (utf16Char c).length ∧
    (String.utf8EncodeChar c).length ≤ 4 := by
  unfold utf16Char
  have h : (String.utf8EncodeChar c).length = c.utf8Size := String.length_utf8EncodeChar c
  rw [h]
  have h3 : c.toNat < 0x10000 → c.utf8Size ≤ 3 := by
    intro hc
    unfold Char.utf8Size
    have : c.val ≤ 0xffff := by
      show c.toNat ≤ 0xffff
      omega
    dsimp only
    split
    · omega
    · split
      · omega
      · split
        · omega
        · exact absurd this ‹_›
  have h4 : c.utf8Size ≤ 4 := Char.utf8Size_le_four c
  split
  · exact ⟨by simpa using h3 ‹_›, h4⟩
  · exact ⟨by simp; omega, h4⟩

theorem byteLen_utf16 (s : Text) : Text.byteLen s ≤ 3 * (Text.utf16 s).length := by
  induction s with
  | nil => exact Nat.le_refl _
  | cons c s ih =>
    unfold Text.byteLen Text.utf8 Text.utf16 at ih ⊢
    rw [List.flatMap_cons, List.flatMap_cons, List.length_append, List.length_append]
    have := (utf8EncodeChar_len c).1
    omega

theorem byteLen_ucs4 (s : Text) : Text.byteLen s ≤ (ucs4 s).length := by
  induction s with
  | nil => exact Nat.le_refl _
  | cons c s ih =>
    unfold Text.byteLen Text.utf8 ucs4 at ih ⊢
    rw [List.flatMap_cons, List.flatMap_cons, List.length_append, List.length_append]
    have := (utf8EncodeChar_len c).2
    have : (be16 (c.toNat / 65536) ++ be16 (c.toNat % 65536)).length = 4 := rfl
    omega

theorem bmp_len {h : Header} {i r : Input} {v : Text} (hc : bmpBerContent h i = .ok (r, v)) :
    2 * Text.byteLen v ≤ 3 * i.data.length + 4 := by
  obtain ⟨⟨x, d⟩, h1, h2⟩ := bind_eq_ok.mp hc
  have hd := wide_len h1
  have h2' : bmpOfBytes x d = .ok (r, v) := h2
  unfold bmpOfBytes at h2'
  split at h2'
  · rename_i s hs
    injection h2' with h2'; injection h2' with _ h2'
    subst h2'
    have he := (fromUtf16_iff (units16_lt d)).mp hs
    have h3 := units16_len d
    have := byteLen_utf16 s
    rw [he] at h3
    omega
  · cases h2'

theorem univ_len {h : Header} {i r : Input} {v : Text} (hc : univBerContent h i = .ok (r, v)) :
    Text.byteLen v ≤ i.data.length := by
  obtain ⟨⟨x, d⟩, h1, h2⟩ := bind_eq_ok.mp hc
  have hd := wide_len h1
  have h2' : univOfBytes x d = .ok (r, v) := h2
  unfold univOfBytes at h2'
  split at h2'
  · cases h2'
  · split at h2'
    · cases h2'
    · cases h2'
    · rename_i s hs
      injection h2' with h2'; injection h2' with _ h2'
      subst h2'
      have := (chars32_ok _ _).mp hs
      have := byteLen_ucs4 s
      simp_all
      omega

theorem integer_len {h : Header} {i r : Input} {v : Integer} (hc : integerContent h i = .ok (r, v)) :
    v.data.length ≤ i.data.length := by
  obtain ⟨_, _, hc⟩ := bind_eq_ok.mp hc
  obtain ⟨⟨x, d⟩, h1, h2⟩ := bind_eq_ok.mp hc
  simp only at h2
  have := inside_len (derContent_data h1)
  split at h2
  · cases h2
  · injection h2 with h2; injection h2 with _ h2
    subst h2
    exact this

theorem oid_len {h : Header} {i r : Input} {v : Oid} (hc : oidContent h i = .ok (r, v)) :
    v.asn1.length ≤ i.data.length := by
  obtain ⟨_, _, hc⟩ := bind_eq_ok.mp hc
  split at hc
  · cases hc
  · obtain ⟨⟨x, d⟩, h1, h2⟩ := bind_eq_ok.mp hc
    injection h2 with h2; injection h2 with _ h2
    subst h2
    exact inside_len (takeSplit_data h1)

theorem slice_len {h : Header} {i r : Input} {v : Bytes} (hc : sliceContent h i = .ok (r, v)) :
    v.length ≤ i.data.length := by
  unfold sliceContent at hc
  split at hc
  · cases hc
  · obtain ⟨⟨x, d⟩, h1, h2⟩ := bind_eq_ok.mp hc
    injection h2 with h2; injection h2 with _ h2
    subst h2
    exact inside_len (takeSplit_data h1)

theorem any_len {h : Header} {i r : Input} {v : Any} (hc : anyBer.content h i = .ok (r, v)) :
    v.data.data.length ≤ i.data.length := by
  unfold anyBer at hc
  simp only at hc
  cases hl : h.length with
  | definite n =>
    rw [hl] at hc
    obtain ⟨⟨x, d⟩, h1, h2⟩ := bind_eq_ok.mp hc
    injection h2 with h2; injection h2 with _ h2
    subst h2
    exact inside_len (takeS_data h1)
  | indefinite =>
    rw [hl] at hc
    obtain ⟨⟨x, d⟩, h1, h2⟩ := bind_eq_ok.mp hc
    injection h2 with h2; injection h2 with _ h2
    subst h2
    exact inside_len (takeS_data h1)

theorem compact_of_len {w : α → Nat} {p : Parser α}
    (h : ∀ h i r v, p.content h i = .ok (r, v) → w v ≤ i.data.length) : Compact w p := by
  intro hd i r v hc
  have := h _ _ _ _ hc
  omega

/-- A check before the content. -/
theorem compact_check {w : α → Nat} {p q : Parser α} {e : Header → Input → Except PErr Unit}
    (hq : ∀ h i, q.content h i = e h i >>= fun _ => p.content h i) (hp : Compact w p) : Compact w q := by
  intro h i r v hc
  rw [hq] at hc
  obtain ⟨_, _, hc⟩ := bind_eq_ok.mp hc
  exact hp _ _ _ _ hc

theorem compact_primitive {w : α → Nat} {p q : Parser α}
    (hq : ∀ h i, q.content h i = h.assertPrimitive i >>= fun _ => p.content h i) (hp : Compact w p) :
    Compact w q := compact_check hq hp

/-! ### EMBEDDED PDV -/

theorem compact_implicit {w : α → Nat} {p : Parser α} (cls : Class) (tag : Nat) (hp : Compact w p) :
    Compact (fun t => w t.inner) (implicitP cls tag p) := by
  intro h i r v hc
  have hc' : (if h.cls ≠ cls then nomErr i (.unexpectedClass (some cls) h.cls)
      else p.content h i >>= fun x => (.ok (x.1, ⟨x.2⟩) : PRes (TaggedValue α))) = .ok (r, v) := hc
  split at hc'
  · cases hc'
  · obtain ⟨⟨x, d⟩, h1, h2⟩ := bind_eq_ok.mp hc'
    injection h2 with h2; injection h2 with _ h2
    subst h2
    exact hp _ _ _ _ h1

theorem compact_oid : Compact (fun v => v.asn1.length) oidP := compact_of_len fun _ _ _ _ => oid_len
theorem compact_integer : Compact (fun v => v.data.length) integerBer := compact_of_len fun _ _ _ _ => integer_len
theorem compact_any : Compact (fun v => v.data.data.length) anyBer := compact_of_len fun _ _ _ _ => any_len
theorem compact_slice : Compact List.length sliceBer := compact_of_len fun _ _ _ _ => slice_len
theorem compact_str (k : StrKind) : Compact Text.byteLen (strBer k) := compact_of_len fun _ _ _ _ => str_len

theorem pdvPair_weight {v : α → Nat} {w : β → Nat} {p : Parser α} {q : Parser β} (hp : Compact v p)
    (hq : Compact w q) {i : Input} {x : α × β} (h : pdvPair p q i = .ok x) :
    2 * (v x.1 + w x.2) ≤ 3 * i.data.length := by
  obtain ⟨⟨r, y⟩, h1, h⟩ := bind_eq_ok.mp h
  obtain ⟨⟨r', z⟩, h2, h⟩ := bind_eq_ok.mp h
  injection h with h
  subst h
  have := frugal_ber (compact_implicit .contextSpecific 0 hp) _ _ _ h1
  have := frugal_ber (compact_implicit .contextSpecific 1 hq) _ _ _ h2
  simp only at *
  omega

theorem map_eq_ok {ε γ δ : Type} {e : Except ε γ} {f : γ → δ} {x : δ} (h : e.map f = .ok x) :
    ∃ c, e = .ok c ∧ x = f c := by
  cases e with
  | error e => cases h
  | ok c => injection h with h; exact ⟨c, rfl, h.symm⟩

theorem pdvId_weight {a : Any} {x : PdvIdentification} (h : pdvIdentification a = .ok x) :
    2 * pdvIdWeight x ≤ 3 * a.data.data.length + 4 := by
  unfold pdvIdentification at h
  split at h
  · obtain ⟨c, hc, rfl⟩ := map_eq_ok h
    have := pdvPair_weight compact_oid compact_oid hc
    simp only [pdvIdWeight]; omega
  · obtain ⟨c, hc, rfl⟩ := map_eq_ok h
    exact compact_oid _ _ _ _ hc
  · obtain ⟨c, hc, rfl⟩ := map_eq_ok h
    exact compact_integer _ _ _ _ hc
  · obtain ⟨c, hc, rfl⟩ := map_eq_ok h
    have := pdvPair_weight compact_integer compact_oid hc
    simp only [pdvIdWeight]; omega
  · obtain ⟨c, hc, rfl⟩ := map_eq_ok h
    exact compact_oid _ _ _ _ hc
  · injection h with h; subst h
    exact Nat.zero_le _
  · cases h

theorem frugal_option {w : α → Nat} {m : Rules} {p : Parser α} (hp : Compact w p) :
    Frugal (optionWeight w) (optionParse m.header p) := by
  intro i r v h
  rcases optionParse_ok.mp h with ⟨x, rfl, h, _⟩ | ⟨rfl, rfl, _⟩
  · exact frugal_parse hp _ _ _ h
  · simp [optionWeight]

theorem compact_pdv : Compact (fun v => pdvIdWeight v.identification +
    optionWeight Text.byteLen v.dataValueDescriptor + v.dataValue.length) pdvP := by
  intro h i r v hc
  obtain ⟨⟨r0, t0⟩, h0, hc⟩ := bind_eq_ok.mp hc
  obtain ⟨x, hx, hc⟩ := bind_eq_ok.mp hc
  obtain ⟨⟨r1, t1⟩, h1, hc⟩ := bind_eq_ok.mp hc
  obtain ⟨⟨r2, t2⟩, h2, hc⟩ := bind_eq_ok.mp hc
  injection hc with hc; injection hc with _ hc
  subst hc
  have e0 : 2 + r0.data.length + t0.inner.data.data.length ≤ i.data.length := by
    obtain ⟨a, y, g1, _, g2⟩ := parseBer_ok.mp h0
    have := berAny_len g1
    have : t0.inner.data.data.length ≤ a.data.data.length := by
      have g3 : (if a.header.cls ≠ .contextSpecific then
          nomErr a.data (.unexpectedClass (some .contextSpecific) a.header.cls)
        else anyBer.content a.header a.data >>= fun x => (.ok (x.1, ⟨x.2⟩) : PRes (TaggedValue Any))) =
          .ok (y, t0) := g2
      split at g3
      · cases g3
      · obtain ⟨⟨x, d⟩, g4, g5⟩ := bind_eq_ok.mp g3
        injection g5 with g5; injection g5 with _ g5
        subst g5
        exact any_len g4
    omega
  have e1 := pdvId_weight hx
  have e2 := frugal_option (m := .ber) (compact_implicit .contextSpecific 1 (compact_str objectDescriptorK)) _ _ _ h1
  have e3 := frugal_ber (compact_implicit .contextSpecific 2 compact_slice) _ _ _ h2
  have e4 : optionWeight Text.byteLen (t1.map (·.inner)) =
      optionWeight (fun t : TaggedValue Text => Text.byteLen t.inner) t1 := by cases t1 <;> rfl
  simp only at e2 e3 e4 ⊢
  rw [e4]
  omega

/-! ### Containers -/

theorem compact_vec {w : α → Nat} {p : Parser α} (hp : Compact w p) (m : Rules) :
    Compact (itemsWeight w) (vecP m.any p) := by
  intro h i r v hc
  obtain ⟨_, _, hc⟩ := bind_eq_ok.mp hc
  split at hc
  · injection hc with hc; injection hc with _ hc
    subst hc
    exact Nat.zero_le _
  · have := collect_weight hp m hc
    omega

theorem compact_setItems {w : α → Nat} {p : Parser α} (hp : Compact w p) (m : Rules) :
    Compact (itemsWeight w) (setItemsP m.any p) := by
  intro h i r v hc
  obtain ⟨_, _, hc⟩ := bind_eq_ok.mp hc
  have := collect_weight hp m hc
  omega

theorem compact_sequenceOf {w : α → Nat} {p : Parser α} (hp : Compact w p) (m : Rules) :
    Compact (fun s => itemsWeight w s.items) (sequenceOfP m.any p) := by
  intro h i r v hc
  obtain ⟨⟨x, d⟩, h1, h2⟩ := bind_eq_ok.mp hc
  injection h2 with h2; injection h2 with _ h2
  subst h2
  exact compact_vec hp m _ _ _ _ h1

theorem compact_array {w : α → Nat} {p : Parser α} (hp : Compact w p) (m : Rules) (N : Nat) :
    Compact (fun s => itemsWeight w s.val) (arrayP N m.any p) := by
  intro h i r v hc
  obtain ⟨⟨x, d⟩, h1, h2⟩ := bind_eq_ok.mp hc
  simp only at h2
  split at h2
  · injection h2 with h2; injection h2 with _ h2
    subst h2
    exact compact_vec hp m _ _ _ _ h1
  · cases h2

theorem compact_raw (tag : Nat) : Compact (fun s => s.content.length) (rawP tag) := by
  refine compact_of_len fun h i r v hc => ?_
  obtain ⟨_, _, hc⟩ := bind_eq_ok.mp hc
  obtain ⟨⟨x, d⟩, h1, h2⟩ := bind_eq_ok.mp hc
  injection h2 with h2; injection h2 with _ h2
  subst h2
  exact inside_len (takeSplit_data h1)

/-- Without repetitions, there is no more in a list than in one with the same members. -/
theorem itemsWeight_nodup (w : α → Nat) : ∀ l l' : List α, l.Nodup → (∀ x ∈ l, x ∈ l') →
    itemsWeight w l ≤ itemsWeight w l' := by
  intro l
  induction l with
  | nil => intro l' _ _; exact Nat.zero_le _
  | cons x l ih =>
    intro l' hn hm
    obtain ⟨a, b, rfl⟩ := List.append_of_mem (hm x List.mem_cons_self)
    have hn' := List.nodup_cons.mp hn
    have := ih (a ++ b) hn'.2 (by
      intro y hy
      have := hm y (List.mem_cons_of_mem _ hy)
      have hne : y ≠ x := fun h => hn'.1 (h ▸ hy)
      simp only [List.mem_append, List.mem_cons] at this ⊢
      rcases this with h | h | h
      · exact .inl h
      · exact absurd h hne
      · exact .inr h)
    simp only [itemsWeight_append, itemsWeight] at this ⊢
    omega

theorem compact_explicit {w : α → Nat} {f : Input → PRes α} (cls : Class) (tag : Nat) (hf : Frugal w f) :
    Compact (fun t => w t.inner) (explicitP cls tag f) := by
  intro h i r v hc
  obtain ⟨_, _, hc⟩ := bind_eq_ok.mp hc
  split at hc
  · cases hc
  · split at hc
    · cases hc
    · obtain ⟨⟨x, d⟩, h1, h2⟩ := bind_eq_ok.mp hc
      injection h2 with h2; injection h2 with _ h2
      subst h2
      have := hf _ _ _ h1
      simp only at this ⊢
      omega

/-! ### Fields -/

theorem frugal_tagged {w : α → Nat} {m : Rules} {p : Parser (TaggedValue α)} (hp : Compact (fun t => w t.inner) p) :
    Frugal w (taggedField m p) := by
  intro i r v h
  obtain ⟨⟨x, d⟩, h1, h2⟩ := bind_eq_ok.mp h
  injection h2 with h2; injection h2 with h2 h3
  subst h2 h3
  exact frugal_parse hp _ _ _ h1

theorem frugal_required {w : α → Nat} {m : Rules} {p : Parser α} (tag : FieldTag) (hp : Compact w p) :
    Frugal w (requiredField m tag p) := by
  cases tag with
  | untagged => exact frugal_parse hp
  | explicit cls n => exact frugal_tagged (compact_explicit cls n (frugal_parse hp))
  | implicit cls n => exact frugal_tagged (compact_implicit cls n hp)

theorem frugal_optTagged {w : α → Nat} {m : Rules} {n : Nat} {p : Parser (TaggedValue α)}
    (hp : Compact (fun t => w t.inner) p) : Frugal (optionWeight w) (optTaggedField m n p) := by
  intro i r v h
  unfold optTaggedField at h
  split at h
  · injection h with h; injection h with h2 h3
    subst h2 h3
    simp [optionWeight]
  · obtain ⟨⟨x, d⟩, h1, h⟩ := bind_eq_ok.mp h
    simp only at h
    split at h
    · obtain ⟨⟨x, d⟩, h1, h2⟩ := bind_eq_ok.mp h
      injection h2 with h2; injection h2 with h2 h3
      subst h2 h3
      exact frugal_parse hp _ _ _ h1
    · injection h with h; injection h with h2 h3
      subst h2 h3
      simp [optionWeight]

theorem frugal_optional {w : α → Nat} {m : Rules} {p : Parser α} (tag : FieldTag) (hp : Compact w p) :
    Frugal (optionWeight w) (optionalField m tag p) := by
  cases tag with
  | untagged => exact frugal_option hp
  | explicit cls n => exact frugal_optTagged (compact_explicit cls n (frugal_parse hp))
  | implicit cls n => exact frugal_optTagged (compact_implicit cls n hp)

theorem frugal_default {w : α → Nat} {m : Rules} {p : Parser α} (tag : FieldTag) {x : α} (hx : w x = 0)
    (hp : Compact w p) : Frugal w ((Field.default tag p x).parse m) := by
  intro i r v h
  obtain ⟨⟨r1, o⟩, h1, h2⟩ := bind_eq_ok.mp h
  injection h2 with h2; injection h2 with h2 h3
  subst h2 h3
  have := frugal_optional tag hp _ _ _ h1
  cases o with
  | none => simp only [Option.getD_none, hx]; simp only [optionWeight] at this; omega
  | some y => exact this

theorem frugal_nil : Frugal (fun _ => 0) (TupFns.nil).run := by
  intro i r v h
  injection h with h; injection h with h _
  subst h
  simp

theorem frugal_cons {T : Type} {Ts : List Type} {f : Input → PRes T} {fs : TupFns Ts} {w : T → Nat}
    {ws : Tup Ts → Nat} (hf : Frugal w f) (hfs : Frugal ws fs.run) :
    Frugal (fun t : Tup (T :: Ts) => w t.1 + ws t.2) (TupFns.cons f fs).run := by
  intro i r v h
  obtain ⟨⟨r1, x⟩, h1, h⟩ := bind_eq_ok.mp h
  obtain ⟨⟨r2, y⟩, h2, h⟩ := bind_eq_ok.mp h
  injection h with h; injection h with h h3
  subst h h3
  have := hf _ _ _ h1
  have := hfs _ _ _ h2
  simp only
  omega

theorem compact_run {Ts : List Type} {fs : TupFns Ts} {w : Tup Ts → Nat} (h : Frugal w fs.run) :
    Compact w (tupleP fs) := by
  intro hd i r v hc
  have := h _ _ _ hc
  omega

theorem compact_struct {Ts : List Type} {m : Rules} {fs : Fields Ts} {w : Tup Ts → Nat} (tag : Nat)
    (h : Frugal w (fs.fns m).run) : Compact w (structP m tag fs) := by
  intro hd i r v hc
  obtain ⟨_, _, hc⟩ := bind_eq_ok.mp hc
  have := h _ _ _ hc
  omega

theorem compact_variant {T : Type} {m : Rules} {k : ChoiceKind} {p : Parser T} {w : T → Nat} (hp : Compact w p)
    {h : Header} {i r : Input} {v : T} (hc : variantContent m k p h i = .ok (r, v)) :
    2 * w v ≤ 3 * i.data.length + 4 := by
  cases k
  · have := frugal_parse hp _ _ _ hc
    omega
  · exact hp _ _ _ _ hc
  · exact hp _ _ _ _ hc

/-- The same of the branches of a CHOICE. -/
def CompactAll {Ts : List Type} (w : HSum Ts → Nat) (m : Rules) (vs : Variants Ts) : Prop :=
  ∀ k h i r v, vs.content m k h i = .ok (r, v) → 2 * w v ≤ 3 * i.data.length + 4

theorem compactAll_cons {T : Type} {Ts : List Type} {m : Rules} {p : Parser T} {vs : Variants Ts} {w : T → Nat}
    {ws : HSum Ts → Nat} (tag : Nat) (hp : Compact w p) (hvs : CompactAll ws m vs) :
    CompactAll (Ts := T :: Ts) (eitherWeight w ws) m (.cons tag p vs) := by
  intro k h i r v hc
  unfold Variants.content at hc
  split at hc
  · obtain ⟨⟨x, d⟩, h1, h2⟩ := bind_eq_ok.mp hc
    injection h2 with h2; injection h2 with _ h2
    subst h2
    exact compact_variant hp h1
  · obtain ⟨⟨x, d⟩, h1, h2⟩ := bind_eq_ok.mp hc
    injection h2 with h2; injection h2 with _ h2
    subst h2
    exact hvs _ _ _ _ _ h1

theorem compact_choice {Ts : List Type} {m : Rules} {vs : Variants Ts} {w : HSum Ts → Nat} (k : ChoiceKind)
    (hvs : CompactAll w m vs) : Compact w (choiceP m k vs) := by
  intro h i r v hc
  cases k
  · obtain ⟨_, _, hc⟩ := bind_eq_ok.mp hc
    exact hvs _ _ _ _ _ hc
  · exact hvs _ _ _ _ _ hc
  · exact hvs _ _ _ _ _ hc

/-! ### All types -/

theorem rulesAny_ber : anyBer.parseBer = Rules.ber.any := anyBer_parseBer
theorem rulesAny_der : anyDer.parseDer = Rules.der.any := anyDer_parseDer

theorem compact_weighed {pb pd : Parser α} {w : α → Nat} (h : Weighed pb pd w) : Compact w pb ∧ Compact w pd := by
  refine Weighed.rec
    (motive_1 := fun pb pd w _ => Compact w pb ∧ Compact w pd)
    (motive_2 := fun fb fd w _ => Frugal w fb.run ∧ Frugal w fd.run)
    (motive_3 := fun fb fd w _ => Frugal w (fb.fns .ber).run ∧ Frugal w (fd.fns .der).run)
    (motive_4 := fun vb vd w _ => CompactAll w .ber vb ∧ CompactAll w .der vd)
    ?_ ?_ ?_ ?_ ?_ ?_ ?_ ?_ ?_ ?_ ?_ ?_ ?_ ?_ ?_ ?_ ?_ ?_ ?_ ?_ ?_ ?_ ?_ ?_ ?_ ?_ ?_ ?_ ?_ ?_ ?_ ?_ ?_ ?_ ?_ ?_ ?_ ?_ h
  · exact fun _ => ⟨compact_zero, compact_zero⟩
  · exact ⟨compact_integer, compact_check (fun _ _ => rfl) compact_integer⟩
  · have : Compact List.length octetBer := compact_of_len fun _ _ _ _ => octet_len
    exact ⟨this, compact_primitive (fun _ _ => rfl) this⟩
  · have : Compact (fun v => v.raw.length) bitBer := compact_of_len fun _ _ _ _ => bit_len
    exact ⟨this, compact_primitive (fun _ _ => rfl) this⟩
  · exact ⟨compact_oid, compact_oid⟩
  · exact fun _ => ⟨compact_str _, compact_primitive (fun _ _ => rfl) (compact_str _)⟩
  · refine ⟨compact_of_len fun h i r v hc => ?_, compact_of_len fun h i r v hc => ?_⟩
    · have hc' : (if h.constructed then nomErr i .lifetimeError else utf8Whole i) = .ok (r, v) := hc
      split at hc'
      · cases hc'
      · exact utf8Whole_len hc'
    · obtain ⟨_, _, hc⟩ := bind_eq_ok.mp hc
      exact utf8Whole_len hc
  · refine ⟨compact_of_len fun h i r v hc => str_len hc, compact_of_len fun h i r v hc => ?_⟩
    obtain ⟨_, _, hc⟩ := bind_eq_ok.mp hc
    exact utf8Whole_len hc
  · have : Compact Text.byteLen bmpBer := fun _ _ _ _ => bmp_len
    exact ⟨this, compact_primitive (fun _ _ => rfl) this⟩
  · have : Compact Text.byteLen univBer := compact_of_len fun _ _ _ _ => univ_len
    exact ⟨this, compact_primitive (fun _ _ => rfl) this⟩
  · exact fun _ => ⟨compact_zero, compact_zero⟩
  · exact fun _ => ⟨compact_zero, compact_zero⟩
  · exact fun _ => ⟨compact_zero, compact_zero⟩
  · exact ⟨compact_zero, compact_zero⟩
  · exact ⟨compact_slice, compact_primitive (fun _ _ => rfl) compact_slice⟩
  · refine ⟨compact_any, compact_of_len fun h i r v hc => ?_⟩
    obtain ⟨⟨x, d⟩, h1, h2⟩ := bind_eq_ok.mp hc
    injection h2 with h2; injection h2 with _ h2
    subst h2
    exact inside_len (derContent_data h1)
  · exact ⟨compact_pdv, compact_pdv⟩
  · intro α pb pd w _ ih
    unfold vecBer vecDer
    rw [rulesAny_ber, rulesAny_der]
    exact ⟨compact_vec ih.1 _, compact_vec ih.2 _⟩
  · intro α pb pd w _ ih
    rw [rulesAny_ber, rulesAny_der]
    exact ⟨compact_sequenceOf ih.1 _, compact_sequenceOf ih.2 _⟩
  · intro α pb pd w _ ih
    rw [rulesAny_ber, rulesAny_der]
    exact ⟨compact_map (compact_setItems ih.1 _), compact_map (compact_setItems ih.2 _)⟩
  · intro α σ pb pd w S _ ih
    rw [rulesAny_ber, rulesAny_der]
    have key : ∀ {p : Parser (List α)}, Compact (itemsWeight w) p →
        Compact (fun s => itemsWeight w (S.toList s)) (p.map S.ofList) := by
      intro p hp
      refine compact_map fun h i r v hc => ?_
      have := hp _ _ _ _ hc
      have := itemsWeight_nodup w (S.toList (S.ofList v)) v (S.nodup _) fun x hx => (S.mem v x).mp hx
      show 2 * itemsWeight w (S.toList (S.ofList v)) ≤ _
      omega
    exact ⟨key (compact_setItems ih.1 _), key (compact_setItems ih.2 _)⟩
  · intro α pb pd w N _ ih
    rw [rulesAny_ber, rulesAny_der]
    exact ⟨compact_array ih.1 _ N, compact_array ih.2 _ N⟩
  · exact fun _ ih => ⟨compact_run ih.1, compact_run ih.2⟩
  · exact fun tag => ⟨compact_raw tag, compact_raw tag⟩
  · exact fun cls tag _ ih => ⟨compact_explicit cls tag (frugal_ber ih.1), compact_explicit cls tag (frugal_der ih.2)⟩
  · exact fun cls tag _ ih => ⟨compact_implicit cls tag ih.1, compact_implicit cls tag ih.2⟩
  · exact fun tag _ ih => ⟨compact_struct tag ih.1, compact_struct tag ih.2⟩
  · exact fun k _ ih => ⟨compact_choice k ih.1, compact_choice k ih.2⟩
  · exact fun _ => ⟨compact_zero, compact_zero⟩
  · intro α pb pd w _ ih
    have key : ∀ {p : Parser α}, Compact w p → Compact (fun v => w v.inner) (aliasP p) := by
      intro p hp h i r v hc
      obtain ⟨⟨x, d⟩, h1, h2⟩ := bind_eq_ok.mp hc
      injection h2 with h2; injection h2 with _ h2
      subst h2
      exact hp _ _ _ _ h1
    exact ⟨key ih.1, key ih.2⟩
  · exact ⟨frugal_nil, frugal_nil⟩
  · exact fun _ _ ih iht => ⟨frugal_cons (frugal_ber ih.1) iht.1, frugal_cons (frugal_der ih.2) iht.2⟩
  · exact ⟨frugal_nil, frugal_nil⟩
  · exact fun tag _ _ ih iht => ⟨frugal_cons (frugal_required tag ih.1) iht.1,
      frugal_cons (frugal_required tag ih.2) iht.2⟩
  · exact fun tag _ _ ih iht => ⟨frugal_cons (frugal_optional tag ih.1) iht.1,
      frugal_cons (frugal_optional tag ih.2) iht.2⟩
  · exact fun tag _ hx _ _ ih iht => ⟨frugal_cons (frugal_default tag hx ih.1) iht.1,
      frugal_cons (frugal_default tag hx ih.2) iht.2⟩
  · exact ⟨by rintro k h i r v ⟨⟩, by rintro k h i r v ⟨⟩⟩
  · exact fun tag _ _ ih iht => ⟨compactAll_cons tag ih.1 iht.1, compactAll_cons tag ih.2 iht.2⟩

end Asn1

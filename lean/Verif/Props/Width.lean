import Verif.Proofs.Width
/-!
# C134: targets whose `usize` has fewer than 64 bits
-/
namespace Asn1
open Asn1.Spec

variable {α : Type} {w : Nat}

/-- **C134** For an input that fits in memory, the decoder of a type without OPTIONAL fields gives the same
answer on a target whose `usize` has `w` bits as on one where it has 64; or both refuse the input, the former with
`InvalidLength`. -/
theorem C134_required (hw : 8 ≤ w) {m : Rules} {p p' : Parser α} (h : Compiled w m false p p') (i : Input)
    (hi : i.data.length < 2 ^ w) : SameOrTooLong (m.parse p i) (m.parseW w p' i) :=
  answers_strict ((parseW_same hw m (compiled_same hw h)).same i hi)

/-- **C134** So both accept the same objects, with the same values. -/
theorem C134_required_accepts (hw : 8 ≤ w) {m : Rules} {p p' : Parser α} (h : Compiled w m false p p') (i : Input)
    (hi : i.data.length < 2 ^ w) (r : Input) (v : α) :
    m.parseW w p' i = .ok (r, v) ↔ m.parse p i = .ok (r, v) := by
  rcases C134_required hw h i hi with h1 | ⟨⟨e, h1⟩, j, h2⟩
  · rw [h1]
  · rw [h1, h2]
    constructor <;> intro h <;> cases h

/-- **C134** (partial) With OPTIONAL fields too, the answer is the same or `InvalidLength`. Missing: that what is
accepted with 64 bits is accepted with `w` bits, which does not hold (`C134_optional_deviation`). -/
theorem C134_width_partial (hw : 8 ≤ w) {m : Rules} {o : Bool} {p p' : Parser α} (h : Compiled w m o p p') (i : Input)
    (hi : i.data.length < 2 ^ w) : SameOrRefused (m.parse p i) (m.parseW w p' i) :=
  answers_refused ((parseW_same hw m (compiled_same hw h)).same i hi)

/-- **C134** The same for `Any` and for headers: the header parsers differ on the headers that announce a length
which does not fit, and on no others. -/
theorem C134_headers (hw : 8 ≤ w) (i : Input) :
    parseHeaderW w i = match parseHeader i with
      | .ok (r, h) =>
        match h.length with
        | .definite l => if l < 2 ^ w then .ok (r, h) else .error (.error i .invalidLength)
        | .indefinite => .ok (r, h)
      | .error e => .error e := by
  rcases parseHeaderW_cases hw i with ⟨h1, h2⟩ | ⟨r, h, l, h1, h2, h3, h4⟩
  · rw [h1]
    cases hp : parseHeader i with
    | error e => rfl
    | ok x =>
      obtain ⟨r, h⟩ := x
      simp only
      cases hl : h.length with
      | indefinite => rfl
      | definite l => simp only [if_pos (h2 r h l hp hl)]
  · rw [h1, h4]
    simp only [h2]
    rw [if_neg (by omega)]

/-- **C134** -/
theorem C134_any (hw : 8 ≤ w) (m : Rules) (i : Input) (hi : i.data.length < 2 ^ w) :
    SameOrTooLong (m.any i) (m.anyW w i) :=
  answers_strict (anyW_same hw m i hi)

/-! ### 64 bits -/

theorem parseLengthW_64 : parseLengthW 64 = parseLength := by
  funext i c b r
  rw [parseLengthW_eq (by decide)]
  unfold parseLength
  by_cases h1 : b = 0x80
  · rw [if_pos h1]
    cases c <;> rfl
  rw [if_neg h1]
  by_cases h2 : b &&& 0x80 = 0
  · rw [if_pos h2]
    have hb := b.toNat_lt
    simp only [bind_ok]
    rw [if_pos (by omega)]
  rw [if_neg h2]
  by_cases h3 : b = 0xff
  · rw [if_pos h3]; rfl
  rw [if_neg h3]
  cases takeS (b &&& 0x7f).toNat r with
  | error e => rfl
  | ok x =>
    obtain ⟨r, lb⟩ := x
    simp only [bind_ok]
    rw [bytesToU64_zero]
    by_cases h4 : beNat lb.data < 2 ^ 64
    · rw [if_pos h4]
      simp only [bind_ok, pure_ok]
      rw [if_pos h4]
    · rw [if_neg h4]; rfl

theorem parseHeaderW_64 : parseHeaderW 64 = parseHeader := by
  funext i
  unfold parseHeaderW parseHeader
  rw [parseLengthW_64]
  rfl

theorem parseHeaderDerW_64 : parseHeaderDerW 64 = parseHeaderDer := by
  funext i
  unfold parseHeaderDerW parseHeaderDer
  rw [parseHeaderW_64]

theorem skipLoopW_64 (skip : Input → Header → PRes Bool) (fuel : Nat) (i : Input) :
    skipLoopW 64 skip fuel i = skipLoop skip fuel i := by
  induction fuel generalizing i with
  | zero => rfl
  | succ n ih =>
    unfold skipLoopW skipLoop
    rw [parseHeaderW_64]
    simp only [ih]

theorem skipContentW_64 (d : Nat) (i : Input) (h : Header) : skipContentW 64 d i h = skipContent d i h := by
  induction d generalizing i h with
  | zero => rfl
  | succ n ih =>
    unfold skipContentW skipContent
    simp only [ih, skipLoopW_64]
    rfl

theorem berContentW_64 (h : Header) (i : Input) (d : Nat) : berContentW 64 h i d = berContent h i d := by
  unfold berContentW berContent
  rw [skipContentW_64]

theorem headerW_64 (m : Rules) : m.headerW 64 = m.header := by
  cases m
  · exact parseHeaderW_64
  · exact parseHeaderDerW_64

theorem parseW_64 (m : Rules) (p : Parser α) : m.parseW 64 p = m.parse p := by
  funext i
  cases m
  · show p.parseBerW 64 i = p.parseBer i
    unfold Parser.parseBerW Parser.parseBer
    simp only [parseHeaderW_64, berContentW_64]
  · show p.parseDerW 64 i = p.parseDer i
    unfold Parser.parseDerW Parser.parseDer
    simp only [parseHeaderDerW_64]

theorem anyParseW_64 (m : Rules) : m.anyParseW 64 = itemsOf m := by
  cases m
  · exact parseW_64 .ber anyBer
  · exact parseW_64 .der anyDer

theorem parseSegmentedW_64 (acceptTag : Nat → Bool) (empty : α) (append : α → α → α)
    (leaf : Header → Input → PRes α) (limit : Nat) (h : Header) (i : Input) :
    parseSegmentedW 64 acceptTag empty append leaf limit h i = parseSegmented acceptTag empty append leaf limit h i := by
  induction limit generalizing h i with
  | zero => rfl
  | succ n ih =>
    unfold parseSegmentedW parseSegmented segContentW segContent berGetContent
    have h1 : anyBer.parseBerW 64 = anyBer.parseBer := parseW_64 .ber anyBer
    simp only [ih, h1, berContentW_64]

theorem stringsW_64 {c : Codec α} {p' : Parser α} (h : StringsBer 64 c p') : p' = c.ber := by
  cases h with
  | octet => unfold octetBerW; simp only [parseSegmentedW_64]; rfl
  | bit => unfold bitBerW; simp only [parseSegmentedW_64]; rfl
  | str k => unfold strBerW strBytesW; simp only [parseSegmentedW_64]; rfl
  | string => unfold strBerW strBytesW; simp only [parseSegmentedW_64]; rfl
  | bmp => unfold bmpBerW wideBytesW; simp only [parseSegmentedW_64]; rfl
  | univ => unfold univBerW wideBytesW; simp only [parseSegmentedW_64]; rfl

theorem requiredFieldW_64 (m : Rules) (tag : FieldTag) (p : Parser α) :
    requiredFieldW 64 m tag p = requiredField m tag p := by
  cases tag with
  | untagged => exact parseW_64 m p
  | explicit cls n => funext i; simp only [requiredFieldW, taggedFieldW, parseW_64]; rfl
  | implicit cls n => funext i; simp only [requiredFieldW, taggedFieldW, parseW_64]; rfl

theorem optionalFieldW_64 (m : Rules) (tag : FieldTag) (p : Parser α) :
    optionalFieldW 64 m tag p = optionalField m tag p := by
  cases tag with
  | untagged =>
    funext i
    show optionParseW 64 m p i = optionParse m.header p i
    unfold optionParseW optionParse optionContentW optionContent
    simp only [headerW_64, berContentW_64]
  | explicit cls n => funext i; simp only [optionalFieldW, optTaggedFieldW, parseW_64, headerW_64]; rfl
  | implicit cls n => funext i; simp only [optionalFieldW, optTaggedFieldW, parseW_64, headerW_64]; rfl

/-- **C134** The decoders for 64 bits are those of the other modules. -/
theorem C134_64 {m : Rules} {o : Bool} {p p' : Parser α} (h : Compiled 64 m o p p') :
    p' = p ∧ m.parseW 64 p' = m.parse p ∧ m.anyW 64 = m.any ∧ m.headerW 64 = m.header := by
  have key : p' = p := by
    refine Compiled.rec (w := 64) (m := m) (o := o)
      (motive_1 := fun {α} p p' _ => p' = p)
      (motive_2 := fun {Ts} vs vs' _ => vs' = vs ∧ ∀ k h i, vs'.contentW 64 m k h i = vs.content m k h i)
      (motive_3 := fun {Ts} fs fs' _ => fs'.fnsW 64 m = fs.fns m)
      ?_ ?_ ?_ ?_ ?_ ?_ ?_ ?_ ?_ ?_ ?_ ?_ ?_ ?_ ?_ ?_ ?_ ?_ ?_ ?_ ?_ h
    · intro _ _ _ _; rfl
    · intro _ _ _ _; rfl
    · intro _ _ _ h _; exact stringsW_64 h
    · intro _ _; rfl
    · intro _ _; rfl
    · intro _; rfl
    · intro _; rfl
    · intro _ _ _ _ ih; rw [ih, anyParseW_64]
    · intro _ _ _ N _ ih; rw [ih, anyParseW_64]
    · intro _ _ _ _ ih; rw [ih, anyParseW_64]
    · intro _ _ _ _ S _ ih; rw [ih, anyParseW_64]
    · intro _ _ _ cls n _ ih; rw [ih, parseW_64]
    · intro _ _ _ cls n _ ih; rw [ih]
    · intro Ts fs fs' tag _ ih
      unfold structW structP
      rw [ih]
    · intro Ts vs vs' k _ ih
      unfold choiceW choiceP
      simp only [ih.2]
      rw [ih.1]
      rfl
    · exact ⟨rfl, fun _ _ _ => rfl⟩
    · intro T Ts t p p' vs vs' _ _ ih iht
      subst ih
      obtain ⟨h1, h2⟩ := iht
      subst h1
      refine ⟨rfl, fun k h i => ?_⟩
      unfold Variants.contentW Variants.content
      rw [h2]
      cases k with
      | explicit => simp only [variantContentW, variantContent, parseW_64]
      | implicit => rfl
      | untagged => rfl
    · rfl
    · intro T Ts p p' fs fs' tag _ _ ih iht
      subst ih
      show TupFns.cons (Field.parseW 64 m (.required tag p')) (fs'.fnsW 64 m) = _
      rw [iht]
      show TupFns.cons (requiredFieldW 64 m tag p') _ = _
      rw [requiredFieldW_64]
      rfl
    · intro T Ts p p' fs fs' tag _ _ _ ih iht
      subst ih
      show TupFns.cons (Field.parseW 64 m (.optional tag p')) (fs'.fnsW 64 m) = _
      rw [iht]
      show TupFns.cons (optionalFieldW 64 m tag p') _ = _
      rw [optionalFieldW_64]
      rfl
    · intro T Ts p p' x fs fs' tag _ _ _ ih iht
      subst ih
      show TupFns.cons (fun r => optionalFieldW 64 m tag p' r >>= _) (fs'.fnsW 64 m) = _
      rw [iht, optionalFieldW_64]
      rfl
  refine ⟨key, by rw [key, parseW_64], ?_, headerW_64 m⟩
  funext i
  cases m
  · show parseBerAnyW 64 i = parseBerAny i
    unfold parseBerAnyW parseBerAny
    simp only [parseHeaderW_64, berContentW_64]
  · show parseDerAnyW 64 i = parseDerAny i
    unfold parseDerAnyW parseDerAny
    simp only [parseHeaderDerW_64]

/-! ### Byte slices -/

theorem wrap_same {β : Type} {f g : Input → PRes β} {bytes : Bytes}
    (h : SameOrTooLong (f (Input.fromSlice bytes)) (g (Input.fromSlice bytes))) :
    SameOrTooLongS (wrapBerParser f bytes) (wrapBerParser g bytes) := by
  unfold wrapBerParser
  rcases h with h | ⟨⟨e, h1⟩, j, h2⟩
  · rw [h]; exact .inl rfl
  · rw [h1, h2]; exact .inr ⟨⟨_, rfl⟩, rfl⟩

theorem tooLongS_bind {β γ : Type} {f g : Except SErr β} {k k' : β → Except SErr γ} (h : SameOrTooLongS f g)
    (hk : ∀ x, f = .ok x → SameOrTooLongS (k x) (k' x)) : SameOrTooLongS (f >>= k) (g >>= k') := by
  rcases h with rfl | ⟨⟨e, rfl⟩, rfl⟩
  · cases hf : g with
    | error e => exact .inl rfl
    | ok x => exact hk x hf
  · exact .inr ⟨⟨e, rfl⟩, rfl⟩

theorem tryFromAnyW_same (hw : 8 ≤ w) {p p' : Parser α} (h : Compiled w .ber false p p') (a : Any)
    (ha : a.data.data.length < 2 ^ w) : SameOrTooLongS (tryFromAny p a) (tryFromAny p' a) := by
  have hs := compiled_same hw h
  unfold tryFromAny
  rw [hs.accept]
  cases p.acceptTag a.header.tag with
  | false => exact .inl rfl
  | true =>
    simp only [Bool.not_true, Bool.false_eq_true, if_false]
    rcases answers_strict (hs.content a.header a.data ha) with h1 | ⟨⟨e, h1⟩, j, h2⟩
    · rw [h1]; exact .inl rfl
    · rw [h1, h2]; exact .inr ⟨⟨_, rfl⟩, rfl⟩

/-- **C134** The same for `from_ber` and `from_der` of the types that have them from `TryFrom<Any>`: integers, strings,
times and so on. -/
theorem C134_slices (hw : 8 ≤ w) {p p' : Parser α} (h : Compiled w .ber false p p')
    (check : Any → Except SErr Unit) (bytes : Bytes) (hi : bytes.length < 2 ^ w) :
    SameOrTooLongS (fromBer p bytes) (fromBerW w p' bytes) ∧
    SameOrTooLongS (fromDer p check bytes) (fromDerW w p' check bytes) := by
  constructor
  · refine tooLongS_bind (wrap_same (C134_any hw .ber (Input.fromSlice bytes) hi)) fun x hx => ?_
    obtain ⟨i, a⟩ := x
    obtain ⟨r, hr, _⟩ := wrapBerParser_ok.mp hx
    have hl : a.data.data.length ≤ bytes.length := by
      have := berAny_len hr
      simp only [Input.fromSlice] at this
      omega
    exact tooLongS_bind (tryFromAnyW_same hw h a (by omega)) fun _ _ => .inl rfl
  · refine tooLongS_bind (wrap_same (C134_any hw .der (Input.fromSlice bytes) hi)) fun x hx => ?_
    obtain ⟨i, a⟩ := x
    obtain ⟨r, hr, _⟩ := wrapBerParser_ok.mp hx
    have hl : a.data.data.length ≤ bytes.length := by
      have := derAny_len hr
      simp only [Input.fromSlice] at this
      omega
    refine tooLongS_bind (.inl rfl) fun _ _ => ?_
    exact tooLongS_bind (tryFromAnyW_same hw h a (by omega)) fun _ _ => .inl rfl

/-- **C134** (deviation) Before an object of another type that announces a length which does not fit `usize`, an
OPTIONAL field is absent with 64 bits and an error with `w`. -/
theorem C134_optional_deviation (hw : 8 ≤ w) {m : Rules} {p p' : Parser α} {o : Bool} (h : Compiled w m o p p')
    (i r : Input) (hd : Header) (l : Nat) (hi : i.data ≠ []) (hh : m.header i = .ok (r, hd))
    (hl : hd.length = .definite l) (hbig : 2 ^ w ≤ l) (ht : p.acceptTag hd.tag = false) :
    Field.parse m (.optional .untagged p) i = .ok (i, none) ∧
    Field.parseW w m (.optional .untagged p') i = .error (.error i .invalidLength) := by
  have he : i.isEmpty = false := by
    cases hx : i.data with
    | nil => exact absurd hx hi
    | cons b bs => simp [Input.isEmpty, hx]
  have h0 : parseHeader i = .ok (r, hd) := by
    cases m
    · exact hh
    · exact (parseHeaderDer_ok.mp hh).1
  have h1 : parseHeaderW w i = .error (.error i .invalidLength) := by
    rw [C134_headers hw, h0]
    simp only [hl]
    rw [if_neg (by omega)]
  constructor
  · show optionParse m.header p i = _
    unfold optionParse
    rw [he, hh]
    simp only [Bool.false_eq_true, if_false, bind_ok, ht, Bool.not_false, if_true]
  · show optionParseW w m p' i = _
    unfold optionParseW
    rw [he]
    simp only [Bool.false_eq_true, if_false]
    cases m
    · show (parseHeaderW w i >>= _) = _
      rw [h1]; rfl
    · show (parseHeaderDerW w i >>= _) = _
      unfold parseHeaderDerW
      rw [h1]; rfl

/-- `struct S { a: Vec<u8>, b: [3] EXPLICIT i16 }`. -/
example : Compiled 32 .der false
    (structP .der 16 (.cons (.required .untagged (vecP (itemsOf .der) (uintC 1).der))
      (.cons (.required (.explicit .contextSpecific 3) (intC 2).der) .nil)))
    (structW 32 .der 16 (.cons (.required .untagged (vecP (Rules.der.anyParseW 32) (uintC 1).der))
      (.cons (.required (.explicit .contextSpecific 3) (intC 2).der) .nil))) :=
  .struct (.required (.vec (.der (.plain (.uint 1)) rfl)) (.required (.der (.plain (.int 2)) rfl) .nil))

/-- `struct S { a: Option<u8> }` of an object that holds the header of an OCTET STRING of 2^32 bytes. -/
example :
    (Rules.ber.parse (structP .ber 16 (.cons (.optional .untagged (uintC 1).ber) .nil))
      (Input.fromSlice [0x30, 7, 4, 0x85, 1, 0, 0, 0, 0])).isOk = true ∧
    (Rules.ber.parseW 32 (structW 32 .ber 16 (.cons (.optional .untagged (uintC 1).ber) .nil))
      (Input.fromSlice [0x30, 7, 4, 0x85, 1, 0, 0, 0, 0])).isOk = false ∧
    (Rules.ber.parseW 33 (structW 33 .ber 16 (.cons (.optional .untagged (uintC 1).ber) .nil))
      (Input.fromSlice [0x30, 7, 4, 0x85, 1, 0, 0, 0, 0])).isOk = true := by
  decide +kernel

/-- The header of an OCTET STRING of 2^16 bytes, of which one is there: `InvalidLength` with 16 bits, with
64 the content is missing. -/
example : (parseHeaderW 16 (Input.fromSlice [4, 0x83, 1, 0, 0, 7])).isOk = false ∧
    (parseHeader (Input.fromSlice [4, 0x83, 1, 0, 0, 7])).isOk = true ∧
    (Rules.der.parse octetC.der (Input.fromSlice [4, 0x83, 1, 0, 0, 7])).isOk = false := by
  decide +kernel

/-- A CHOICE of an OCTET STRING and a text, in BER. -/
example : Compiled 32 .ber false
    (choiceP .ber .explicit (.cons 0 octetC.ber (.cons 1 (strC utf8StringK).ber .nil)))
    (choiceW 32 .ber .explicit (.cons 0 (octetBerW 32) (.cons 1 (strBerW 32 utf8StringK.tag utf8StringK) .nil))) :=
  .choice (.cons (.strings .octet rfl) (.cons (.strings (.str _) rfl) .nil))

/-- A constructed OCTET STRING with a segment that announces 2^16 bytes. -/
example : (fromBer octetC.ber [0x24, 7, 4, 0x83, 1, 0, 0, 7, 7]).isOk = false ∧
    (fromBerW 16 (octetBerW 16) [0x24, 7, 4, 0x83, 1, 0, 0, 7, 7]).isOk = false ∧
    (fromBerW 16 (octetBerW 16) [0x24, 7, 4, 0x83, 0, 0, 2, 7, 7]).isOk = true := by
  decide +kernel

end Asn1

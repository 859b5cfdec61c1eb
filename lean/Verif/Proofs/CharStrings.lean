import Verif.Spec.CharStrings
import Verif.Proofs.Text
import Verif.Props.Time
/-!
# Content parsers of the character strings
-/
namespace Asn1
open Spec Wr

variable {α : Type}

/-! ### Objects accepted by a parser, from its contents -/

/-- What the content parser accepts on consistent headers. -/
def Contents (p : Parser α) (P : Bool → Bytes → α → Prop) : Prop :=
  ∀ h i v, Consistent h i → ((∃ r, p.content h i = .ok (r, v)) ↔ P h.constructed i.data v)

theorem consistent_der {i r : Input} {a : Any} (h : parseDerAny i = .ok (r, a)) :
    Consistent a.header a.data := consistent_ber (C11_der_subset_ber_any _ _ _ h)

theorem accepts_ber {p : Parser α} {tag : Nat} {P : Bool → Bytes → α → Prop}
    (hacc : ∀ t, p.acceptTag t = true ↔ t = tag) (hc : Contents p P) (i r : Input) (v : α) :
    p.parseBer i = .ok (r, v) ↔ ∃ a, parseBerAny i = .ok (r, a) ∧ a.header.tag = tag ∧
      P a.header.constructed a.data.data v := by
  rw [parseBer_ok]
  constructor
  · rintro ⟨a, x, h1, h2, h3⟩
    exact ⟨a, h1, (hacc _).mp h2, (hc _ _ _ (consistent_ber h1)).mp ⟨x, h3⟩⟩
  · rintro ⟨a, h1, h2, h3⟩
    obtain ⟨x, hx⟩ := (hc _ _ _ (consistent_ber h1)).mpr h3
    exact ⟨a, x, h1, (hacc _).mpr h2, hx⟩

theorem accepts_der {p : Parser α} {tag : Nat} {P : Bool → Bytes → α → Prop}
    (hacc : ∀ t, p.acceptTag t = true ↔ t = tag) (hc : Contents p P) (i r : Input) (v : α) :
    p.parseDer i = .ok (r, v) ↔ ∃ a, parseDerAny i = .ok (r, a) ∧ a.header.tag = tag ∧
      P a.header.constructed a.data.data v := by
  rw [parseDer_ok]
  constructor
  · rintro ⟨a, x, h1, h2, h3⟩
    exact ⟨a, h1, (hacc _).mp h2, (hc _ _ _ (consistent_der h1)).mp ⟨x, h3⟩⟩
  · rintro ⟨a, h1, h2, h3⟩
    obtain ⟨x, hx⟩ := (hc _ _ _ (consistent_der h1)).mpr h3
    exact ⟨a, x, h1, (hacc _).mpr h2, hx⟩

theorem accepts_fromBer {p : Parser α} {tag : Nat} {P : Bool → Bytes → α → Prop}
    (hacc : ∀ t, p.acceptTag t = true ↔ t = tag) (hc : Contents p P) (bytes rem : Bytes) (v : α) :
    fromBer p bytes = .ok (rem, v) ↔ ∃ r a, parseBerAny (Input.fromSlice bytes) = .ok (r, a) ∧
      r.data = rem ∧ a.header.tag = tag ∧ P a.header.constructed a.data.data v := by
  rw [fromBer_ok]
  constructor
  · rintro ⟨r, a, x, h1, h0, h2, h3⟩
    exact ⟨r, a, h1, h0, (hacc _).mp h2, (hc _ _ _ (consistent_ber h1)).mp ⟨x, h3⟩⟩
  · rintro ⟨r, a, h1, h0, h2, h3⟩
    obtain ⟨x, hx⟩ := (hc _ _ _ (consistent_ber h1)).mpr h3
    exact ⟨r, a, x, h1, h0, (hacc _).mpr h2, hx⟩

/-- For types whose DER check asks for a primitive object. -/
theorem accepts_fromDer {p : Parser α} {check : Any → Except SErr Unit} {tag : Nat}
    {P : Bool → Bytes → α → Prop}
    (hacc : ∀ t, p.acceptTag t = true ↔ t = tag) (hc : Contents p P)
    (hk : ∀ a, check a = .ok () ↔ a.header.constructed = false) (bytes rem : Bytes) (v : α) :
    fromDer p check bytes = .ok (rem, v) ↔
      ∃ r a, parseDerAny (Input.fromSlice bytes) = .ok (r, a) ∧
      r.data = rem ∧ a.header.tag = tag ∧ a.header.constructed = false ∧ P false a.data.data v := by
  rw [fromDer_ok]
  constructor
  · rintro ⟨r, a, x, h1, h0, h4, h2, h3⟩
    have hp := (hk a).mp h4
    exact ⟨r, a, h1, h0, (hacc _).mp h2, hp, hp ▸ (hc _ _ _ (consistent_der h1)).mp ⟨x, h3⟩⟩
  · rintro ⟨r, a, h1, h0, h2, h4, h3⟩
    obtain ⟨x, hx⟩ := (hc _ _ _ (consistent_der h1)).mpr (h4.symm ▸ h3)
    exact ⟨r, a, x, h1, h0, (hk a).mpr h4, (hacc _).mpr h2, hx⟩

/-- A DER parser that checks the primitive bit, then does what the BER one does. -/
theorem contents_primitive {p q : Parser α} {P : Bool → Bytes → α → Prop} (hc : Contents p P)
    (hq : ∀ h i, q.content h i = (h.assertPrimitive i >>= fun _ => p.content h i)) :
    Contents q (fun constructed bs v => constructed = false ∧ P false bs v) := by
  intro h i v hh
  have hc := hc h i v hh
  constructor
  · rintro ⟨r, hr⟩
    rw [hq] at hr
    obtain ⟨_, h1, h2⟩ := bind_eq_ok.mp hr
    have hp := assertPrimitive_ok.mp h1
    rw [hp] at hc
    exact ⟨hp, hc.mp ⟨r, h2⟩⟩
  · rintro ⟨h1, h2⟩
    rw [h1] at hc
    obtain ⟨r, hr⟩ := hc.mpr h2
    exact ⟨r, by rw [hq]; exact bind_eq_ok.mpr ⟨(), assertPrimitive_ok.mpr h1, hr⟩⟩

theorem strCheck_ok (a : Any) : strCheck a = .ok () ↔ a.header.constructed = false := by
  unfold strCheck assertPrimitiveS
  cases a.header.constructed <;> simp

theorem consistent_of {h : Header} {i : Input} (hl : h.length = .definite i.data.length) :
    Consistent h i :=
  ⟨fun n hn => by rw [hl] at hn; injection hn with hn; exact hn.symm, fun _ => hl⟩

theorem decodes_of {p : Parser α} {P : Bool → Bytes → α → Prop} (hc : Contents p P) {cs : Bytes} {v : α}
    {constructed : Bool} (h : P constructed cs v) : Decodes p constructed cs v := by
  intro hd i h1 h2 h3
  have := (hc hd i v (consistent_of (by rw [h2, h3]))).mpr (by rw [h1, h3]; exact h)
  exact this

/-! ### The types of the macro -/

theorem allBytes_ok {f : UInt8 → Bool} {bs : Bytes} :
    allBytes f bs = .ok () ↔ bs.all f = true := by
  unfold allBytes
  cases bs.all f <;> simp

theorem charset_of {f : UInt8 → Bool} {A : Char → Bool}
    (hA : ∀ n, n < 128 → f (UInt8.ofNat n) = A (Char.ofNat n))
    (hAlt : ∀ c, A c = true → c.toNat < 128) (hf : ∀ b, f b = true → b.toNat < 0x80)
    (bs : Bytes) (s : Text) :
    (allBytes f bs = .ok () ∧ fromUtf8 bs = some s) ↔ bs = Text.utf8 s ∧ ∀ c ∈ s, A c = true := by
  rw [allBytes_ok, fromUtf8_iff]
  have key : ∀ c : Char, (c.toNat < 0x80 ∧ f (UInt8.ofNat c.toNat) = true) ↔ A c = true := by
    intro c
    constructor
    · rintro ⟨h1, h2⟩
      rw [hA _ h1, Char.ofNat_toNat] at h2; exact h2
    · intro h
      have h1 := hAlt c h
      exact ⟨h1, by rw [hA _ h1, Char.ofNat_toNat]; exact h⟩
  constructor
  · rintro ⟨h1, rfl⟩
    refine ⟨rfl, fun c hc => (key c).mp ?_⟩
    exact (utf8_all hf).mp h1 c hc
  · rintro ⟨rfl, h1⟩
    exact ⟨(utf8_all hf).mpr fun c hc => (key c).mpr (h1 c hc), rfl⟩

theorem char_le {c d : Char} : c ≤ d ↔ c.toNat ≤ d.toNat := by
  show c.val ≤ d.val ↔ _
  exact UInt32.le_iff_toNat_le

theorem ofNat_lt128 : ∀ n, n < 128 → isNumeric (UInt8.ofNat n) = numericChar (Char.ofNat n) ∧
    isPrintable (UInt8.ofNat n) = printableChar (Char.ofNat n) ∧
    isVisibleChar (UInt8.ofNat n) = visibleChar (Char.ofNat n) ∧
    isAscii (UInt8.ofNat n) = asciiChar (Char.ofNat n) := by decide +kernel

theorem byte_tests : ∀ b : UInt8, (isNumeric b = true → b.toNat < 0x80) ∧
    (isPrintable b = true → b.toNat < 0x80) ∧ (isVisibleChar b = true → b.toNat < 0x80) ∧
    (isAscii b = true → b.toNat < 0x80) := by
  refine forall_byte ?_
  decide +kernel

theorem numericChar_lt {c : Char} (h : numericChar c = true) : c.toNat < 128 := by
  simp [numericChar, char_le] at h
  rcases h with ⟨_, h⟩ | rfl
  · have : ('9' : Char).toNat = 57 := rfl
    omega
  · decide

theorem printableChar_lt {c : Char} (h : printableChar c = true) : c.toNat < 128 := by
  simp only [printableChar, Bool.or_eq_true, Bool.and_eq_true, decide_eq_true_eq, char_le,
    List.contains_iff_mem] at h
  rcases h with ((⟨_, h⟩ | ⟨_, h⟩) | ⟨_, h⟩) | h
  · have : ('Z' : Char).toNat = 90 := rfl
    omega
  · have : ('z' : Char).toNat = 122 := rfl
    omega
  · have : ('9' : Char).toNat = 57 := rfl
    omega
  · simp only [List.mem_cons, List.not_mem_nil, or_false] at h
    rcases h with rfl | rfl | rfl | rfl | rfl | rfl | rfl | rfl | rfl | rfl | rfl | rfl <;> decide

/-- The charset test and `from_utf8` accept exactly the texts over the alphabet. -/
theorem charset_ok {k : StrKind} {tag : Nat} {A : Char → Bool} (hk : StringType k tag A) (bs : Bytes)
    (s : Text) : (k.testValidCharset bs = .ok () ∧ fromUtf8 bs = some s) ↔
      bs = Text.utf8 s ∧ ∀ c ∈ s, A c = true := by
  have hv : ∀ bs s, (allBytes isVisibleChar bs = .ok () ∧ fromUtf8 bs = some s) ↔
      bs = Text.utf8 s ∧ ∀ c ∈ s, visibleChar c = true :=
    charset_of (fun n hn => (ofNat_lt128 n hn).2.2.1)
      (fun c h => by have := of_decide_eq_true h; omega) (fun b => (byte_tests b).2.2.1)
  have ha : ∀ bs s, (allBytes isAscii bs = .ok () ∧ fromUtf8 bs = some s) ↔
      bs = Text.utf8 s ∧ ∀ c ∈ s, asciiChar c = true :=
    charset_of (fun n hn => (ofNat_lt128 n hn).2.2.2)
      (fun c h => by have := of_decide_eq_true h; omega) (fun b => (byte_tests b).2.2.2)
  cases hk with
  | utf8 =>
    simp only [utf8StringK, fromUtf8_iff]
    constructor
    · rintro ⟨_, h⟩; exact ⟨h, fun _ _ => trivial⟩
    · rintro ⟨h, _⟩
      refine ⟨?_, h⟩
      rw [fromUtf8_iff.mpr h]
  | numeric =>
    exact charset_of (fun n hn => (ofNat_lt128 n hn).1) (fun c => numericChar_lt)
      (fun b => (byte_tests b).1) bs s
  | printable =>
    exact charset_of (fun n hn => (ofNat_lt128 n hn).2.1) (fun c => printableChar_lt)
      (fun b => (byte_tests b).2.1) bs s
  | teletex => exact hv bs s
  | videotex => exact hv bs s
  | visible => exact hv bs s
  | ia5 => exact ha bs s
  | graphic => exact ha bs s
  | general => exact ha bs s
  | objectDescriptor => exact ha bs s

theorem Spec.StringType.tag_eq {k : StrKind} {tag : Nat} {A : Char → Bool} (hk : StringType k tag A) :
    k.tag = tag := by cases hk <;> rfl

theorem strBytes_eq (h : Header) (i : Input) : strBytes h i = octetContent h i := rfl

theorem strBytes_ok {h : Header} {i : Input} {bs : Bytes} (hh : Consistent h i) :
    (∃ r, strBytes h i = .ok (r, bs)) ↔ StringBytes h.constructed i.data bs := by
  rw [strBytes_eq]
  unfold StringBytes
  cases hc : h.constructed with
  | false => simp [octetContent_prim hc]
  | true =>
    have := octetContent_constr (v := bs) hc hh
    simp only [Bool.true_eq_false, false_and, false_or, true_and]
    exact this

theorem strOfBytes_ok {k : StrKind} {rem r : Input} {bs : Bytes} {s : Text} :
    strOfBytes k rem bs = .ok (r, s) ↔
      r = rem ∧ k.testValidCharset bs = .ok () ∧ fromUtf8 bs = some s := by
  unfold strOfBytes
  cases h1 : k.testValidCharset bs with
  | error e => simp [nomErr]
  | ok u =>
    cases h2 : fromUtf8 bs with
    | none => simp [nomErr]
    | some t => simp [eq_comm]

theorem str_contents {k : StrKind} {tag : Nat} {A : Char → Bool} (hk : StringType k tag A) :
    Contents (strBer k) (fun constructed cs s => StringBytes constructed cs (Text.utf8 s) ∧
      ∀ c ∈ s, A c = true) := by
  intro h i s hh
  show (∃ r, (strBytes h i >>= fun x => strOfBytes k x.1 x.2) = .ok (r, s)) ↔ _
  constructor
  · rintro ⟨r, hr⟩
    obtain ⟨⟨x, bs⟩, h1, h2⟩ := bind_eq_ok.mp hr
    obtain ⟨_, h3⟩ := strOfBytes_ok.mp h2
    obtain ⟨rfl, h4⟩ := (charset_ok hk _ _).mp h3
    exact ⟨(strBytes_ok hh).mp ⟨x, h1⟩, h4⟩
  · rintro ⟨h1, h2⟩
    obtain ⟨x, hx⟩ := (strBytes_ok hh).mpr h1
    exact ⟨x, bind_eq_ok.mpr ⟨_, hx, strOfBytes_ok.mpr ⟨rfl, (charset_ok hk _ _).mpr ⟨rfl, h2⟩⟩⟩⟩

theorem strDer_contents {k : StrKind} {tag : Nat} {A : Char → Bool} (hk : StringType k tag A) :
    Contents (strDer k) (fun constructed cs s => constructed = false ∧ cs = Text.utf8 s ∧
      ∀ c ∈ s, A c = true) := by
  intro h i s hh
  rw [contents_primitive (str_contents hk) (q := strDer k) (fun _ _ => rfl) h i s hh]
  simp only [StringBytes, true_and, Bool.false_eq_true, false_and, or_false]
  constructor <;> rintro ⟨h1, h2, h3⟩ <;> exact ⟨h1, h2.symm, h3⟩

theorem str_acc (k : StrKind) : (∀ t, (strBer k).acceptTag t = true ↔ t = k.tag) ∧
    (∀ t, (strDer k).acceptTag t = true ↔ t = k.tag) := ⟨fun _ => tagIs_iff, fun _ => tagIs_iff⟩

theorem str_encodes {tag : Nat} (ht : tag < 31) (s : Text) : Encodes (strToBer tag) s (Text.utf8 s) :=
  ⟨((writes_writeAll (Text.utf8 s)).bind (f := fun _ => (pure (Text.byteLen s) : Wr Nat))
    (writes_pure _)).congr (by simp) rfl, rfl, by show tag < 2 ^ 32; omega, rfl⟩

theorem Spec.StringType.tag_lt {k : StrKind} {tag : Nat} {A : Char → Bool} (hk : StringType k tag A) :
    tag < 31 ∧ tag ≠ 0 := by cases hk <;> decide

/-! ### `&str`, `String` -/

theorem utf8Whole_ok {i r : Input} {s : Text} :
    utf8Whole i = .ok (r, s) ↔ r = after i i.data.length ∧ i.data = Text.utf8 s := by
  unfold utf8Whole
  rw [takeSplit_eq, if_pos (by simp [Input.len]), bind_ok]
  simp only [Input.len, first_data, List.take_length]
  rw [← fromUtf8_iff]
  cases fromUtf8 i.data <;> simp [nomErr, eq_comm]

theorem refStr_contents : Contents refStrBer (fun constructed cs s =>
    constructed = false ∧ cs = Text.utf8 s) := by
  intro h i s _
  show (∃ r, (if h.constructed then nomErr i .lifetimeError else utf8Whole i) = .ok (r, s)) ↔ _
  cases h.constructed with
  | true => simp [nomErr]
  | false => simp [utf8Whole_ok]

theorem refStrDer_content {h : Header} {i r : Input} {s : Text} :
    refStrDer.content h i = .ok (r, s) ↔
      h.constructed = false ∧ r = after i i.data.length ∧ i.data = Text.utf8 s := by
  show (h.assertPrimitive i >>= fun _ => utf8Whole i) = _ ↔ _
  rw [bind_eq_ok]
  constructor
  · rintro ⟨_, h1, h2⟩
    exact ⟨assertPrimitive_ok.mp h1, utf8Whole_ok.mp h2⟩
  · rintro ⟨h1, h2⟩
    exact ⟨(), assertPrimitive_ok.mpr h1, utf8Whole_ok.mpr h2⟩

theorem refStrDer_contents : Contents refStrDer (fun constructed cs s =>
    constructed = false ∧ cs = Text.utf8 s) := by
  intro h i s _
  simp [refStrDer_content]

theorem string_contents : Contents stringBer (fun constructed cs s =>
    StringBytes constructed cs (Text.utf8 s)) := by
  intro h i s hh
  have := str_contents StringType.utf8 h i s hh
  simp only [implies_true, and_true] at this
  exact this

/-! ### BMPString -/

theorem wideBytes_ok {h : Header} {i : Input} {bs : Bytes} (hh : Consistent h i) :
    (∃ r, wideBytes h i = .ok (r, bs)) ↔ bs = i.data ∧ (h.constructed = false → i.data ≠ []) := by
  unfold wideBytes
  cases hc : h.constructed with
  | true =>
    simp only [if_true]
    rw [takeSplit_eq, if_pos (by simp [Input.len]), bind_ok]
    simp [Input.len, eq_comm]
  | false =>
    simp only [Bool.false_eq_true, if_false, forall_const]
    have := parseSegmented_ok (acceptTag := tagIs tagOctetString) (empty := ([] : Bytes))
      (append := (· ++ ·)) (leaf := octetLeaf) (tag := 4) (Leaf := fun bs v => v = bs)
      (join := List.flatten) (fun t => tagIs_iff) foldl_append_eq
      (fun h i w _ _ => by simp [octetLeaf_ok, eq_comm]) 5 h i bs hh
    rw [hc] at this
    rw [show OCTETSTRING_MAX_RECURSION = 5 from rfl, this, Segs]
    exact And.comm

theorem units16_lt : ∀ bs : Bytes, ∀ u ∈ units16 bs, u < 0x10000
  | [], u, h => by simp [units16] at h
  | [a], u, h => by
    simp [units16] at h; have := a.toNat_lt; omega
  | a :: b :: r, u, h => by
    simp only [units16, List.mem_cons] at h
    rcases h with rfl | h
    · have := a.toNat_lt; have := b.toNat_lt; omega
    · exact units16_lt r u h

theorem unitBytes_append (us vs : List Nat) : unitBytes (us ++ vs) = unitBytes us ++ unitBytes vs := by
  simp [unitBytes]

/-- The units of some bytes. -/
theorem units16_eq : ∀ (bs : Bytes) (us : List Nat), (∀ u ∈ us, u < 0x10000) →
    (units16 bs = us ↔ bs = unitBytes us ∨
      ∃ (us' : List Nat) (a : UInt8), us = us' ++ [a.toNat] ∧ bs = unitBytes us' ++ [a])
  | [], us, _ => by
    constructor
    · rintro rfl; exact .inl rfl
    · rintro (h | ⟨us', a, _, h⟩)
      · cases us with
        | nil => rfl
        | cons u us => simp [unitBytes] at h
      · simp at h
  | [a], us, hu => by
    constructor
    · rintro rfl; exact .inr ⟨[], a, rfl, rfl⟩
    · rintro (h | ⟨us', b, rfl, h⟩)
      · cases us with
        | nil => simp [unitBytes] at h
        | cons u us => simp [unitBytes] at h
      · cases us' with
        | nil => simp [unitBytes] at h; subst h; rfl
        | cons u us => simp [unitBytes] at h
  | a :: b :: r, us, hu => by
    have ha := a.toNat_lt
    have hb := b.toNat_lt
    cases us with
    | nil =>
      simp only [units16, reduceCtorEq, false_iff]
      rintro (h | ⟨us', c, h, _⟩)
      · simp [unitBytes] at h
      · simp at h
    | cons u us =>
      have hu1 := hu u List.mem_cons_self
      have ih := units16_eq r us fun v hv => hu v (List.mem_cons_of_mem _ hv)
      have hub : ∀ us, unitBytes (u :: us) = UInt8.ofNat (u / 256) :: UInt8.ofNat (u % 256) :: unitBytes us :=
        fun _ => rfl
      have hab : a.toNat * 256 + b.toNat = u ↔ a = UInt8.ofNat (u / 256) ∧ b = UInt8.ofNat (u % 256) := by
        constructor
        · intro h; exact ⟨byte_eq (by omega), byte_eq (by omega)⟩
        · rintro ⟨h1, h2⟩
          rw [h1, h2, ofNat_byte (by omega), ofNat_byte (by omega)]; omega
      simp only [units16, List.cons.injEq]
      rw [ih, hab, hub]
      simp only [List.cons.injEq]
      constructor
      · rintro ⟨⟨h1, h2⟩, h3 | ⟨us', c, rfl, h3⟩⟩
        · exact .inl ⟨h1, h2, h3⟩
        · exact .inr ⟨u :: us', c, rfl, by rw [hub, h3, h1, h2]; rfl⟩
      · rintro (⟨h1, h2, h3⟩ | ⟨us', c, h3, h4⟩)
        · exact ⟨⟨h1, h2⟩, .inl h3⟩
        · cases us' with
          | nil => simp [unitBytes] at h4
          | cons w us' =>
            rw [List.cons_append, List.cons.injEq] at h3
            obtain ⟨rfl, rfl⟩ := h3
            rw [hub, List.cons_append, List.cons_append] at h4
            simp only [List.cons.injEq] at h4
            exact ⟨⟨h4.1, h4.2.1⟩, .inr ⟨us', c, rfl, h4.2.2⟩⟩

theorem unitBytes_utf16 (s : Text) : unitBytes (Text.utf16 s) = utf16be s := by
  induction s with
  | nil => rfl
  | cons c s ih =>
    rw [utf16_cons, unitBytes_append, ih]
    show _ = (if c.toNat ≤ 0xffff then _ else _) ++ utf16be s
    congr 1
    unfold utf16Char
    by_cases h : c.toNat < 0x10000
    · rw [if_pos h, if_pos (by omega)]; rfl
    · rw [if_neg h, if_neg (by omega)]; rfl

theorem byteChar_toNat (a : UInt8) : (Char.ofNat a.toNat).toNat = a.toNat :=
  toNat_charOfNat (by have := a.toNat_lt; omega)

theorem utf16_snoc (us : List Nat) (hus : ∀ u ∈ us, u < 0x10000) (a : UInt8) (s : Text) :
    Text.utf16 s = us ++ [a.toNat] ↔ ∃ s', s = s' ++ [Char.ofNat a.toNat] ∧ us = Text.utf16 s' := by
  have hch : Text.utf16 [Char.ofNat a.toNat] = [a.toNat] := by
    have := a.toNat_lt
    rw [utf16_cons, utf16_nil, List.append_nil, utf16Char, byteChar_toNat, if_pos (by omega)]
  constructor
  · intro h
    rcases List.eq_nil_or_concat s with rfl | ⟨s', c, rfl⟩
    · simp [utf16_nil] at h
    · rw [List.concat_eq_append] at h ⊢
      rw [utf16_append, utf16_cons, utf16_nil, List.append_nil, utf16Char] at h
      have ha := a.toNat_lt
      split at h
      · have := List.append_inj' h rfl
        obtain ⟨h1, h2⟩ := this
        injection h2 with h2
        exact ⟨s', by rw [← h2, Char.ofNat_toNat], h1.symm⟩
      · generalize 0xd800 + (c.toNat - 0x10000) / 0x400 = x at h
        generalize hy : 0xdc00 + (c.toNat - 0x10000) % 0x400 = y at h
        have h := congrArg List.getLast? h
        simp at h
        omega
  · rintro ⟨s', rfl, rfl⟩
    rw [utf16_append, hch]

theorem bmpOfBytes_ok {rem r : Input} {bs : Bytes} {s : Text} :
    bmpOfBytes rem bs = .ok (r, s) ↔ r = rem ∧ BmpText bs s := by
  have key : fromUtf16 (units16 bs) = some s ↔ BmpText bs s := by
    rw [fromUtf16_iff (units16_lt bs), units16_eq bs _ (utf16_lt s), unitBytes_utf16]
    unfold BmpText
    constructor
    · rintro (h | ⟨us', a, h1, h2⟩)
      · exact .inl h
      · have hlt : ∀ u ∈ us', u < 0x10000 := fun u hu => utf16_lt s u (by rw [h1]; simp [hu])
        obtain ⟨s', h3, rfl⟩ := (utf16_snoc us' hlt a s).mp h1
        exact .inr ⟨s', a, h3, by rw [h2, unitBytes_utf16]⟩
    · rintro (h | ⟨s', a, h1, h2⟩)
      · exact .inl h
      · exact .inr ⟨Text.utf16 s', a, (utf16_snoc _ (utf16_lt s') a s).mpr ⟨s', h1, rfl⟩,
          by rw [h2, unitBytes_utf16]⟩
  unfold bmpOfBytes
  rw [← key]
  cases fromUtf16 (units16 bs) <;> simp [nomErr, eq_comm]

theorem bmp_contents : Contents bmpBer (fun constructed cs s =>
    (constructed = false → cs ≠ []) ∧ BmpText cs s) := by
  intro h i s hh
  show (∃ r, (wideBytes h i >>= fun x => bmpOfBytes x.1 x.2) = .ok (r, s)) ↔ _
  constructor
  · rintro ⟨r, hr⟩
    obtain ⟨⟨x, bs⟩, h1, h2⟩ := bind_eq_ok.mp hr
    obtain ⟨rfl, h3⟩ := (wideBytes_ok hh).mp ⟨x, h1⟩
    exact ⟨h3, (bmpOfBytes_ok.mp h2).2⟩
  · rintro ⟨h1, h2⟩
    obtain ⟨x, hx⟩ := (wideBytes_ok hh).mpr ⟨rfl, h1⟩
    exact ⟨x, bind_eq_ok.mpr ⟨_, hx, bmpOfBytes_ok.mpr ⟨rfl, h2⟩⟩⟩

theorem bmpDer_contents : Contents bmpDer (fun constructed cs s =>
    constructed = false ∧ cs ≠ [] ∧ BmpText cs s) := by
  intro h i s hh
  rw [contents_primitive bmp_contents (q := bmpDer) (fun _ _ => rfl) h i s hh]
  simp

theorem unitBytes_length (us : List Nat) : (unitBytes us).length = us.length * 2 := by
  induction us with
  | nil => rfl
  | cons u us ih =>
    show ([_, _] ++ unitBytes us).length = _
    rw [List.length_append, ih, List.length_cons]
    simp only [List.length_cons, List.length_nil]; omega

theorem bmp_encodes (s : Text) : Encodes bmpToBer s (utf16be s) := by
  refine ⟨?_, ?_, (by decide : (30 : Nat) < 2 ^ 32), rfl⟩
  · rw [← unitBytes_utf16]
    exact ((writes_writeAll _).bind
      (f := fun _ => (pure (unitBytes (Text.utf16 s)).length : Wr Nat)) (writes_pure _)).congr
      (by simp) rfl
  · show Length.definite _ = _
    rw [← unitBytes_utf16, unitBytes_length]

/-! ### UniversalString -/

theorem be32_ucs4 (c : Char) : beBytes32 c.toNat = be16 (c.toNat / 65536) ++ be16 (c.toNat % 65536) := by
  unfold beBytes32 be16
  simp only [List.cons_append, List.nil_append]
  have h1 : c.toNat / 65536 / 256 = c.toNat / 16777216 := by omega
  have h2 : c.toNat % 65536 / 256 = c.toNat / 256 % 256 := by omega
  have h3 : c.toNat % 65536 % 256 = c.toNat % 256 := by omega
  rw [h1, h2, h3]

theorem ucs4_cons (c : Char) (s : Text) : ucs4 (c :: s) = beBytes32 c.toNat ++ ucs4 s := by
  rw [be32_ucs4]; rfl

theorem be32_eq {a b c d : UInt8} {n : Nat} (hn : n < 2 ^ 32) :
    ((a.toNat * 256 + b.toNat) * 256 + c.toNat) * 256 + d.toNat = n ↔
      [a, b, c, d] = beBytes32 n := by
  have ha := a.toNat_lt
  have hb := b.toNat_lt
  have hc := c.toNat_lt
  have hd := d.toNat_lt
  unfold beBytes32
  constructor
  · intro h
    rw [← byte_eq (b := a) (by omega), ← byte_eq (b := b) (by omega), ← byte_eq (b := c) (by omega),
      ← byte_eq (b := d) (by omega)]
  · intro h
    simp only [List.cons.injEq, and_true] at h
    obtain ⟨rfl, rfl, rfl, rfl⟩ := h
    rw [ofNat_byte (by omega), ofNat_byte (by omega), ofNat_byte (by omega), ofNat_byte (by omega)]
    omega

theorem chars32_ok : ∀ (bs : Bytes) (s : Text), chars32 bs = .ok (some s) ↔ bs = ucs4 s
  | [], s => by
    cases s with
    | nil => simp [chars32, ucs4]
    | cons c s => simp [chars32, ucs4_cons, beBytes32]
  | [a], s => by
    cases s with
    | nil => simp [chars32, ucs4]
    | cons c s => simp [chars32, ucs4_cons, beBytes32]
  | [a, b], s => by
    cases s with
    | nil => simp [chars32, ucs4]
    | cons c s => simp [chars32, ucs4_cons, beBytes32]
  | [a, b, c], s => by
    cases s with
    | nil => simp [chars32, ucs4]
    | cons c s => simp [chars32, ucs4_cons, beBytes32]
  | a :: b :: c :: d :: r, s => by
    cases s with
    | nil =>
      simp only [chars32, ucs4, List.flatMap_nil, reduceCtorEq, iff_false]
      cases chars32 r with
      | error e => simp
      | ok o =>
        simp only [Except.ok.injEq]
        cases charFromU32 (((a.toNat * 256 + b.toNat) * 256 + c.toNat) * 256 + d.toNat) with
        | none => simp
        | some ch => cases o <;> simp
    | cons ch s =>
      have ih := chars32_ok r s
      have hr := char_range ch
      rw [ucs4_cons, show a :: b :: c :: d :: r = [a, b, c, d] ++ r from rfl]
      have hsplit : [a, b, c, d] ++ r = beBytes32 ch.toNat ++ ucs4 s ↔
          [a, b, c, d] = beBytes32 ch.toNat ∧ r = ucs4 s :=
        ⟨fun h => List.append_inj h (by simp [beBytes32]), fun h => by rw [h.1, h.2]⟩
      rw [hsplit, ← be32_eq (by omega), ← ih, ← charFromU32_iff]
      simp only [List.cons_append, List.nil_append, chars32]
      cases chars32 r with
      | error e => simp
      | ok o =>
        simp only [Except.ok.injEq]
        cases charFromU32 (((a.toNat * 256 + b.toNat) * 256 + c.toNat) * 256 + d.toNat) with
        | none => simp
        | some ch' => cases o <;> simp

theorem chars32_noPanic : ∀ (bs : Bytes), bs.length % 4 = 0 → ∃ o, chars32 bs = .ok o
  | [], _ => ⟨_, rfl⟩
  | [a], h => by simp at h
  | [a, b], h => by simp at h
  | [a, b, c], h => by simp at h
  | a :: b :: c :: d :: r, h => by
    obtain ⟨o, ho⟩ := chars32_noPanic r (by simp only [List.length_cons] at h; omega)
    exact ⟨_, by rw [chars32, ho]⟩

theorem ucs4_length (s : Text) : (ucs4 s).length = s.length * 4 := by
  induction s with
  | nil => rfl
  | cons c s ih =>
    rw [ucs4_cons, List.length_append, ih, List.length_cons]
    simp only [beBytes32, List.length_cons, List.length_nil]; omega

theorem univOfBytes_ok {rem r : Input} {bs : Bytes} {s : Text} :
    univOfBytes rem bs = .ok (r, s) ↔ r = rem ∧ bs = ucs4 s := by
  unfold univOfBytes
  by_cases h : bs.length % 4 = 0
  · rw [if_neg (by simp [h]), ← chars32_ok]
    cases chars32 bs with
    | error e => simp
    | ok o => cases o <;> simp [nomErr, eq_comm]
  · rw [if_pos h]
    simp only [nomErr, reduceCtorEq, false_iff, not_and]
    rintro _ rfl
    rw [ucs4_length] at h; omega

theorem univ_contents : Contents univBer (fun constructed cs s =>
    (constructed = false → cs ≠ []) ∧ cs = ucs4 s) := by
  intro h i s hh
  show (∃ r, (wideBytes h i >>= fun x => univOfBytes x.1 x.2) = .ok (r, s)) ↔ _
  constructor
  · rintro ⟨r, hr⟩
    obtain ⟨⟨x, bs⟩, h1, h2⟩ := bind_eq_ok.mp hr
    obtain ⟨rfl, h3⟩ := (wideBytes_ok hh).mp ⟨x, h1⟩
    exact ⟨h3, (univOfBytes_ok.mp h2).2⟩
  · rintro ⟨h1, h2⟩
    obtain ⟨x, hx⟩ := (wideBytes_ok hh).mpr ⟨rfl, h1⟩
    exact ⟨x, bind_eq_ok.mpr ⟨_, hx, univOfBytes_ok.mpr ⟨rfl, h2⟩⟩⟩

theorem univDer_contents : Contents univDer (fun constructed cs s =>
    constructed = false ∧ cs ≠ [] ∧ cs = ucs4 s) := by
  intro h i s hh
  rw [contents_primitive univ_contents (q := univDer) (fun _ _ => rfl) h i s hh]
  simp

theorem ucs4_pieces (s : Text) : (s.map fun c => beBytes32 c.toNat).flatten = ucs4 s := by
  induction s with
  | nil => rfl
  | cons c s ih => rw [List.map_cons, List.flatten_cons, ih, ucs4_cons]

theorem univ_writes (s : Text) :
    Writes (univToBer.writeContent s) (ucs4 s) (Text.byteLen s * 4) := by
  rw [← ucs4_pieces]
  exact ((writes_pieces _).bind (f := fun _ => (pure (Text.byteLen s * 4) : Wr Nat))
    (writes_pure _)).congr (by simp) rfl

theorem byteLen_ascii {s : Text} : (∀ c ∈ s, c.toNat < 0x80) ↔ Text.byteLen s = s.length := by
  unfold Text.byteLen
  induction s with
  | nil => simp [utf8_nil]
  | cons c s ih =>
    have hc := utf8_char_length c
    rw [utf8_cons, List.length_append, List.forall_mem_cons, ih, List.length_cons, ← hc.2.2]
    have hle : s.length ≤ (Text.utf8 s).length := by
      clear ih
      induction s with
      | nil => simp
      | cons d s ih =>
        have := utf8_char_length d
        rw [utf8_cons, List.length_append, List.length_cons]; omega
    omega

theorem byteLen_ge (s : Text) : s.length ≤ Text.byteLen s := by
  unfold Text.byteLen
  induction s with
  | nil => simp
  | cons d s ih =>
    have := utf8_char_length d
    rw [utf8_cons, List.length_append, List.length_cons]; omega

theorem univ_encodes {s : Text} (h : ∀ c ∈ s, c.toNat < 0x80) : Encodes univToBer s (ucs4 s) := by
  have hl := byteLen_ascii.mp h
  refine ⟨?_, ?_, (by decide : (28 : Nat) < 2 ^ 32), rfl⟩
  · have := univ_writes s
    rw [ucs4_length, ← hl]; exact this
  · show Length.definite _ = _
    rw [ucs4_length, hl]

/-! ### No panic -/

theorem noPanic_wideBytes (h : Header) (i : Input) : NoPanic (wideBytes h i) := by
  unfold wideBytes
  split
  · exact NoPanic.bind (noPanic_takeAll i) fun _ _ => noPanic_ok _
  · exact parseSegmented_safe (fun h i => by rw [octetLeaf_ok]; exact noPanic_ok _) _ h i

theorem safe_str (k : StrKind) : (strBer k).Safe ∧ (strDer k).Safe := by
  have hb : (strBer k).Safe := by
    intro h i
    show NoPanic (strBytes h i >>= fun x => strOfBytes k x.1 x.2)
    refine NoPanic.bind (by rw [strBytes_eq]; exact safe_octet.1 h i) fun x _ => ?_
    unfold strOfBytes
    repeat' split
    all_goals first | exact noPanic_ok _ | exact noPanic_nomErr _ _
  exact ⟨hb, fun h i => NoPanic.bind (safe_assertPrimitive h i) fun _ _ => hb h i⟩

theorem noPanic_utf8Whole (i : Input) : NoPanic (utf8Whole i) := by
  unfold utf8Whole
  refine NoPanic.bind (noPanic_takeAll i) fun x _ => ?_
  simp only
  split
  · exact noPanic_ok _
  · exact noPanic_nomErr _ _

theorem safe_refStr : refStrBer.Safe ∧ refStrDer.Safe ∧ stringBer.Safe := by
  refine ⟨fun h i => ?_, fun h i => ?_, (safe_str utf8StringK).1⟩
  · show NoPanic (if h.constructed then nomErr i .lifetimeError else utf8Whole i)
    split
    · exact noPanic_nomErr _ _
    · exact noPanic_utf8Whole i
  · exact NoPanic.bind (safe_assertPrimitive h i) fun _ _ => noPanic_utf8Whole i

theorem safe_bmp : bmpBer.Safe ∧ bmpDer.Safe := by
  have hb : bmpBer.Safe := by
    intro h i
    show NoPanic (wideBytes h i >>= fun x => bmpOfBytes x.1 x.2)
    refine NoPanic.bind (noPanic_wideBytes h i) fun x _ => ?_
    unfold bmpOfBytes
    split
    · exact noPanic_ok _
    · exact noPanic_nomErr _ _
  exact ⟨hb, fun h i => NoPanic.bind (safe_assertPrimitive h i) fun _ _ => hb h i⟩

theorem safe_univ : univBer.Safe ∧ univDer.Safe := by
  have hb : univBer.Safe := by
    intro h i
    show NoPanic (wideBytes h i >>= fun x => univOfBytes x.1 x.2)
    refine NoPanic.bind (noPanic_wideBytes h i) fun x _ => ?_
    unfold univOfBytes
    by_cases hl : x.2.length % 4 = 0
    · rw [if_neg (by simp [hl])]
      obtain ⟨o, ho⟩ := chars32_noPanic x.2 hl
      rw [ho]
      cases o
      · exact noPanic_nomErr _ _
      · exact noPanic_ok _
    · rw [if_pos hl]; exact noPanic_nomErr _ _
  exact ⟨hb, fun h i => NoPanic.bind (safe_assertPrimitive h i) fun _ _ => hb h i⟩

theorem safe_strCheck (a : Any) : NoPanicS (strCheck a) := by
  unfold strCheck assertPrimitiveS NoPanicS; split <;> simp

end Asn1

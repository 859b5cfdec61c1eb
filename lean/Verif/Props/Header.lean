import Verif.Proofs.Encoder
import Verif.Proofs.BerLang
/-!
# C01, C02, C03: headers
-/
namespace Asn1
open Spec Wr

/-- The header writer on any encodable header: what it writes. -/
theorem headerVec_eq (cls : Class) (p : Bool) (tag : Nat) (len : Length) (htag : tag < 2 ^ 32)
    (hlen : ∀ n, len = .definite n → n < 2 ^ 64) :
    Writes (headerToBer.writeHeader (Header.new cls p tag len))
      (identOctets cls p tag ++ lenOctets len)
      ((identOctets cls p tag).length + (lenOctets len).length) := by
  have h1 := (writeTag_spec cls p tag htag).1
  have h2 := (writeLength_spec len hlen).1
  have := h1.bind (f := fun n1 => writeLength len >>= fun n2 => pure (n1 + n2))
    (h2.bind (writes_pure _))
  simpa [ToBer.writeHeader, headerToBer, Header.new, EncoderKind.writeTagInfo] using this

theorem headerToVec (cls : Class) (p : Bool) (tag : Nat) (len : Length) (htag : tag < 2 ^ 32)
    (hlen : ∀ n, len = .definite n → n < 2 ^ 64) :
    headerToBer.toVec (Header.new cls p tag len) = .ok (identOctets cls p tag ++ lenOctets len) := by
  have h := (headerVec_eq cls p tag len htag hlen).bind
    (f := fun n1 => headerToBer.writeContent (Header.new cls p tag len) >>= fun n2 => pure (n1 + n2))
    (bs := identOctets cls p tag ++ lenOctets len) (cs := []) (b := _) ((writes_pure 0).bind (writes_pure _))
  unfold ToBer.toVec ToBer.encode
  unfold Writes at h
  rw [h]; simp

/-- **C01** Header round-trip. For every class, constructed flag, 32-bit tag number and
(64-bit) length — indefinite only for constructed encodings — the writer produces bytes which,
followed by anything, parse back to the same four fields and the identifier octets written, leaving exactly
what follows. -/
theorem C01_header_roundtrip (cls : Class) (constructed : Bool) (tag : Nat) (len : Length)
    (htag : tag < 2 ^ 32) (hlen : ∀ n, len = .definite n → n < 2 ^ 64)
    (hind : len = .indefinite → constructed = true) :
    ∃ bs, headerToBer.toVec (Header.new cls constructed tag len) = .ok bs ∧
      ∀ (i : Input) (rest : Bytes), i.data = bs ++ rest →
        ∃ rem h, parseHeader i = .ok (rem, h) ∧ h.cls = cls ∧ h.constructed = constructed ∧
          h.tag = tag ∧ h.length = len ∧ rem.data = rest ∧ rem.start = i.start + bs.length ∧
          rem.stop = i.stop ∧ (∃ id, h.rawTag = some id ∧ id <+: bs) := by
  refine ⟨_, headerToVec cls constructed tag len htag hlen, fun i rest hi => ?_⟩
  refine ⟨after i ((identOctets cls constructed tag).length + (lenOctets len).length),
    ⟨cls, constructed, tag, len, some (identOctets cls constructed tag),
      some (first i ((identOctets cls constructed tag).length + (lenOctets len).length))⟩,
    parseHeader_ok.mpr ⟨_, _, identOctets_ident cls constructed htag, lenOctets_len hlen hind,
      ?_, rfl, rfl, rfl⟩, rfl, rfl, rfl, rfl, ?_, ?_, rfl,
    _, rfl, List.prefix_append _ _⟩
  · simp [hi]
  · simp [hi]
  · simp

/-- A header with a five-septet tag and a long length meets the hypotheses. -/
example : headerToBer.toVec (Header.new .priv true 0xfedcba98 (.definite 300))
    = .ok [0xff, 0x8f, 0xf6, 0xf2, 0xf5, 0x18, 0x82, 0x01, 0x2c] := by decide +kernel

/-- **C02** The header writer's output is the shortest one: every input accepted by the header
parser with the same fields consumes at least as many bytes; the tag number has no leading zero
septet and the length no leading zero byte. -/
theorem C02_header_minimal (cls : Class) (constructed : Bool) (tag : Nat) (len : Length)
    (htag : tag < 2 ^ 32) (hlen : ∀ n, len = .definite n → n < 2 ^ 64) :
    ∃ id l, headerToBer.toVec (Header.new cls constructed tag len) = .ok (id ++ l) ∧
      (∀ (i rem : Input) (h : Header), parseHeader i = .ok (rem, h) → h.cls = cls →
        h.constructed = constructed → h.tag = tag → h.length = len →
        (id ++ l).length ≤ i.data.length - rem.data.length) ∧
      (31 ≤ tag → ∃ b x xs, id = b :: x :: xs ∧ x.toNat ≠ 128) ∧
      (tag < 31 → id.length = 1) ∧
      (∀ n, len = .definite n → 128 ≤ n → ∃ b x xs, l = b :: x :: xs ∧ x.toNat ≠ 0) ∧
      (∀ n, len = .definite n → n < 128 → l.length = 1) := by
  refine ⟨identOctets cls constructed tag, lenOctets len,
    headerToVec cls constructed tag len htag hlen, ?_, ?_, ?_, ?_, ?_⟩
  · intro i rem h hp h1 h2 h3 h4
    obtain ⟨id, l, hi, hl, hd, hr, _⟩ := parseHeader_ok.mp hp
    rw [h1, h2, h3] at hi
    rw [h2, h4] at hl
    have a := identOctets_minimal htag hi
    have b := lenOctets_minimal hlen hl
    rw [hd]; simp only [List.length_append]; omega
  · intro h31
    rcases (writeTag_spec cls constructed tag htag).2 with ⟨h, _⟩ |
      ⟨_, b, hi, last, e, hb, g1, g2, g3, g4⟩
    · omega
    · cases hi with
      | nil => exact ⟨b, last, [], by simpa using e, by omega⟩
      | cons x xs =>
        refine ⟨b, x, xs ++ [last], by simpa using e, ?_⟩
        intro hx
        rcases g4 with g4 | g4
        · simp at g4
        · rw [← g3, List.cons_append, base128_cons, hx] at g4
          simp only [Nat.mod_self, Nat.zero_mul, Nat.zero_add] at g4
          have := base128_lt (xs ++ [last])
          simp only [List.length_append, List.length_cons, List.length_nil, Nat.zero_add] at this g4
          omega
  · intro h31
    rcases (writeTag_spec cls constructed tag htag).2 with ⟨h, b, e, _⟩ | ⟨h, _⟩
    · rw [e]; rfl
    · omega
  · intro n hn h128
    rcases (writeLength_spec len hlen).2 with ⟨h, _⟩ | ⟨m, hm, ⟨hlt, _⟩ |
      ⟨hge, b, x, xs, e, hb, hx, _⟩⟩
    · simp [h] at hn
    · rw [hn] at hm; simp at hm; omega
    · exact ⟨b, x, xs, e, hx⟩
  · intro n hn h128
    rcases (writeLength_spec len hlen).2 with ⟨h, _⟩ | ⟨m, hm, ⟨hlt, b, e, _⟩ | ⟨hge, _⟩⟩
    · simp [h] at hn
    · rw [e]; rfl
    · rw [hn] at hm; simp at hm; omega

/-- A longer, still accepted, header with the same fields exists: the bound is not vacuous. -/
example : (parseHeader (Input.fromSlice [0x1f, 0x80, 0x1f, 0x82, 0x00, 0x80])).map
      (fun x => (x.2.tag, x.2.length)) = .ok (31, .definite 128) ∧
    headerToBer.toVec (Header.new .universal false 31 (.definite 128))
      = .ok [0x1f, 0x1f, 0x81, 0x80] := by decide +kernel

/-- **C03** (soundness and completeness with respect to the grammar actually accepted.)
The header parser succeeds exactly when the input starts with identifier octets and length
octets of `Spec.Ident` and `Spec.Len`, and then returns what they denote, the rest of the
input, and the raw bytes. What separates this from X.690 is in `C03_deviations`. -/
theorem C03_header_grammar_partial (i rem : Input) (h : Header) :
    parseHeader i = .ok (rem, h) ↔
      ∃ ident len, Ident h.cls h.constructed h.tag ident ∧ Len h.constructed h.length len ∧
        i.data = ident ++ len ++ rem.data ∧ rem = after i (ident.length + len.length) ∧
        h.rawTag = some ident ∧ h.rawHeader = some (first i (ident.length + len.length)) :=
  parseHeader_ok

/-- A case: a header with a tag above 30 and a length in the long form. -/
example : ∃ ident len, Ident .contextSpecific true 200 ident ∧ Len true (.definite 300) len ∧
    ident = [0xbf, 0x81, 0x48] ∧ len = [0x82, 0x01, 0x2c] := by
  have h : parseHeader (Input.fromSlice [0xbf, 0x81, 0x48, 0x82, 0x01, 0x2c, 7]) =
      .ok (⟨[7], 6, 7⟩, ⟨.contextSpecific, true, 200, .definite 300, some [0xbf, 0x81, 0x48],
        some ⟨[0xbf, 0x81, 0x48, 0x82, 0x01, 0x2c], 0, 6⟩⟩) := by decide +kernel
  obtain ⟨ident, len, h1, h2, h3, _, h5, _⟩ := (C03_header_grammar_partial _ _ _).mp h
  obtain rfl := Option.some.inj h5
  refine ⟨_, len, h1, h2, rfl, ?_⟩
  simp only [Input.fromSlice, List.cons_append, List.nil_append, List.cons.injEq, true_and] at h3
  exact (List.append_cancel_right (as := [0x82, 0x01, 0x2c]) (bs := [7]) (cs := len) h3).symm

/-- A base-128 group without leading zero digit denoting a number below `2^32` has at most five
bytes. -/
theorem group_length {bs : Bytes} (hz : ∀ x xs, bs = x :: xs → x.toNat ≠ 128)
    (hg : IsGroup bs) (hv : base128 bs < 2 ^ 32) : bs.length ≤ 5 := by
  obtain ⟨init, last, rfl, hi, hl⟩ := hg
  cases init with
  | nil => simp
  | cons x xs =>
    have hx := hz x (xs ++ [last]) (by simp)
    have hx' := hi x (by simp)
    have hb := byte_lt x
    rw [List.cons_append, base128_cons] at hv
    simp only [List.cons_append, List.length_cons, List.length_append, List.length_nil, Nat.zero_add] at *
    have : 1 * 128 ^ (xs.length + 1) ≤ x.toNat % 128 * 128 ^ (xs.length + 1) :=
      Nat.mul_le_mul_right _ (by omega)
    by_cases hlt : xs.length + 1 ≤ 4
    · omega
    · exfalso
      have : 128 ^ 5 ≤ 128 ^ (xs.length + 1) := Nat.pow_le_pow_right (by omega) (by omega)
      omega

/-- **C03** (completeness with respect to X.690.) Every X.690 header whose tag number fits 32
bits and whose length fits 64 bits is accepted with what it denotes. -/
theorem C03_x690_headers_accepted (i : Input) (c : Class) (p : Bool) (tag : Nat) (l : Length)
    (ident len rest : Bytes) (hi : X690Ident c p tag ident) (hl : Len p l len)
    (ht : tag < 2 ^ 32) (hd : i.data = ident ++ len ++ rest) :
    ∃ rem h, parseHeader i = .ok (rem, h) ∧ rem.data = rest ∧ h.cls = c ∧ h.constructed = p ∧
      h.tag = tag ∧ h.length = l := by
  have hid : Ident c p tag ident := by
    cases hi with
    | low b h hb => exact .low b h hb
    | high b bs hb hg h31 htag hz =>
      refine .high b bs hb hg (group_length hz hg (by omega)) ?_
      rw [← htag, Nat.mod_eq_of_lt ht]
  refine ⟨after i (ident.length + len.length), ⟨c, p, tag, l, some ident,
    some (first i (ident.length + len.length))⟩, parseHeader_ok.mpr
    ⟨ident, len, hid, hl, by simp [hd], rfl, rfl, rfl⟩, ?_, rfl, rfl, rfl, rfl⟩
  simp [hd]

/-- A case: the header of `[200]` with a content of 300 bytes. -/
example : ∃ rem h, parseHeader (Input.fromSlice [0xbf, 0x81, 0x48, 0x82, 0x01, 0x2c, 7]) = .ok (rem, h) ∧
    rem.data = [7] ∧ h.cls = .contextSpecific ∧ h.constructed = true ∧ h.tag = 200 ∧ h.length = .definite 300 :=
  C03_x690_headers_accepted _ .contextSpecific true 200 (.definite 300) [0xbf, 0x81, 0x48] [0x82, 0x01, 0x2c] [7]
    (.high _ _ (by decide) ⟨[0x81], 0x48, rfl, by decide, by decide⟩ (by decide) (by decide)
      (by intro x xs h; cases h; decide))
    (.long _ _ (by decide) (by decide) (by decide) (by decide) (by decide)) (by decide) rfl

/-- **C03** (deviations.) The parser accepts identifier octets that X.690 forbids: a leading zero
digit, the long form for a small tag number, and a tag number of `2^32`, returned as 0. -/
theorem C03_deviations :
    (parseHeader (Input.fromSlice [0x1f, 0x80, 0x1f, 0x00])).map (fun x => x.2.tag) = .ok 31 ∧
    (parseHeader (Input.fromSlice [0x1f, 0x02, 0x00])).map (fun x => x.2.tag) = .ok 2 ∧
    (parseHeader (Input.fromSlice [0x1f, 0x90, 0x80, 0x80, 0x80, 0x00, 0x00])).map
      (fun x => x.2.tag) = .ok 0 ∧
    ¬ X690Ident .universal false 31 [0x1f, 0x80, 0x1f] ∧
    ¬ X690Ident .universal false 2 [0x1f, 0x02] ∧
    (∀ t, X690Ident .universal false t [0x1f, 0x90, 0x80, 0x80, 0x80, 0x00] → t = 2 ^ 32) := by
  refine ⟨by decide +kernel, by decide +kernel, by decide +kernel, ?_, ?_, ?_⟩
  · intro h
    cases h with
    | high b bs hb hg h31 ht hz => exact hz _ _ rfl rfl
  · intro h
    cases h with
    | high b bs hb hg h31 ht hz => omega
  · intro t h
    cases h with
    | high b bs hb hg h31 ht hz => rw [ht]; decide +kernel

/-- The X.690 hypotheses are met by a long-form tag with a long-form length. -/
example : X690Ident .contextSpecific true 201 [0xbf, 0x81, 0x49] ∧
    Len true (.definite 435) [0x82, 0x01, 0xb3] := by
  refine ⟨.high _ _ (by decide) ⟨[0x81], 0x49, rfl, by decide, by decide⟩ (by decide)
    (by decide) ?_, .long _ _ (by decide) (by decide) (by decide) (by decide) (by decide)⟩
  intro x xs h; simp at h; rw [← h.1]; decide

end Asn1

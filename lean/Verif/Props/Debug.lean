import Verif.Proofs.Forward
import Verif.Props.Built
/-!
# C94: the feature `debug` changes no result
-/
namespace Asn1
open Spec
variable {α : Type}

theorem trace_eq {f : Input → PRes α} (h : ∀ i, Ahead i (f i)) : traceInput f = f := by
  funext i
  unfold traceInput
  have := h i
  cases hf : f i with
  | error e => rfl
  | ok x =>
    obtain ⟨k, hk, hr⟩ := this x.1 x.2 hf
    have : ¬ x.1.start < i.start := by rw [hr, after_start]; omega
    simp only [if_neg this]

theorem headerDebug_eq (m : Rules) : m.headerDebug = m.header := trace_eq (ahead_header m)

/-- **C94** What a content parser of a type leaves is a suffix of what it was given: `from_ber_content` and
`from_der_content` of every built type, REAL included. -/
theorem C94_content_suffix {real : Bool} {pb pd : Parser α} (hp : Built real pb pd) (h : Header) (i r : Input)
    (v : α) (hv : pb.content h i = .ok (r, v) ∨ pd.content h i = .ok (r, v)) :
    r.data <:+ i.data ∧ r.start = i.start + (i.data.length - r.data.length) ∧ r.stop = i.stop := by
  have key : ∃ k, k ≤ i.data.length ∧ r = after i k := by
    rcases hv with hv | hv
    · exact (forward_built hp).1 h i r v hv
    · exact (forward_built hp).2 h i r v hv
  obtain ⟨k, hk, rfl⟩ := key
  refine ⟨List.drop_suffix _ _, ?_, rfl⟩
  rw [after_start, after_data, List.length_drop]
  omega

/-- A case: the content of an INTEGER. -/
example : ((uintBer 2).content ⟨.universal, false, 2, .definite 1, none, none⟩ ⟨[5], 2, 3⟩).map (fun x => (x.1, x.2)) =
    .ok (⟨[], 3, 3⟩, 5) := by decide +kernel

/-- **C94** With the feature `debug`, `parse_ber` and `parse_der` of a built type return what they return
without it, and so do `from_ber_content` and `from_der_content` under `trace_input`: no assertion fails. -/
theorem C94_parse {real : Bool} {pb pd : Parser α} (hp : Built real pb pd) :
    pb.parseBerDebug = pb.parseBer ∧ pd.parseDerDebug = pd.parseDer ∧
    ∀ h, traceInput (pb.content h) = pb.content h ∧ traceInput (pd.content h) = pd.content h := by
  have hc : ∀ h, traceInput (pb.content h) = pb.content h ∧ traceInput (pd.content h) = pd.content h :=
    fun h => ⟨trace_eq ((forward_built hp).1 h), trace_eq ((forward_built hp).2 h)⟩
  refine ⟨?_, ?_, hc⟩
  · unfold Parser.parseBerDebug
    simp only [headerDebug_eq, (hc _).1]
    exact trace_eq (f := pb.parseBer) ahead_ber
  · unfold Parser.parseDerDebug
    simp only [headerDebug_eq, (hc _).2]
    exact trace_eq (f := pd.parseDer) ahead_der

theorem ahead_berAsInput (p : Parser α) (i : Input) : Ahead i (p.parseBerAsInput i) := by
  refine Ahead.bind (ahead_header .ber i) fun r h _ => ?_
  simp only
  split
  · exact ahead_nomErr
  · exact Ahead.bind (ahead_berContent _ _ _) fun _ _ _ => ahead_same

theorem ahead_derAsInput (p : Parser α) (i : Input) : Ahead i (p.parseDerAsInput i) := by
  refine Ahead.bind (ahead_header .der i) fun r h _ => ?_
  simp only
  split
  · exact ahead_nomErr
  · exact Ahead.bind (ahead_derContent _ _) fun _ _ _ => ahead_same

/-- **C94** The same for `Header` and `Any`, and, whatever the type, for `parse_ber_as_input`,
`parse_der_as_input` and for `Option<T>`. -/
theorem C94_others (m : Rules) (p : Parser α) :
    m.headerDebug = m.header ∧ traceInput parseBerAny = parseBerAny ∧ traceInput parseDerAny = parseDerAny ∧
    p.parseBerAsInputDebug = p.parseBerAsInput ∧ p.parseDerAsInputDebug = p.parseDerAsInput ∧
    optionParseDebug m p = optionParse m.header p := by
  refine ⟨headerDebug_eq m, trace_eq good_parseBerAny.adv, trace_eq good_parseDerAny.adv, ?_, ?_, ?_⟩
  · unfold Parser.parseBerAsInputDebug
    simp only [headerDebug_eq]
    exact trace_eq (f := p.parseBerAsInput) (ahead_berAsInput p)
  · unfold Parser.parseDerAsInputDebug
    simp only [headerDebug_eq]
    exact trace_eq (f := p.parseDerAsInput) (ahead_derAsInput p)
  · unfold optionParseDebug
    rw [headerDebug_eq]
    exact trace_eq (ahead_optionParse m p)

/-- **C94** The same for `Any::from_der` under `trace`, as in `from_der` of the containers. -/
theorem C94_from_der : traceBytes (wrapBerParser parseDerAny) = wrapBerParser parseDerAny := by
  funext bs
  unfold traceBytes
  cases hf : wrapBerParser parseDerAny bs with
  | error e => rfl
  | ok x =>
    obtain ⟨rem, a⟩ := x
    obtain ⟨r, h1, h2⟩ := wrapBerParser_ok.mp hf
    obtain ⟨k, hk, hr⟩ := good_parseDerAny.adv _ _ _ h1
    have : ¬ bs.length < rem.length := by
      rw [← h2, hr, after_data, List.length_drop]
      show ¬ bs.length < bs.length - k
      omega
    simp only [if_neg this]

/-- The two hexadecimal digits of a byte. -/
def hexByte (b : UInt8) : List Char := [Nat.digitChar (b.toNat / 16), Nat.digitChar (b.toNat % 16)]

theorem hexChars_get : ∀ n, n < 16 → hexChars[n]? = some (Nat.digitChar n) := by decide

theorem hexLoop_eq : ∀ (bs : Bytes) (s : List Char),
    hexLoop bs s = some (s ++ bs.flatMap fun b => hexByte b ++ [' '])
  | [], s => by simp [hexLoop]
  | b :: bs, s => by
    have hlt : b.toNat < 256 := b.toNat_lt
    have h1 : (b >>> 4).toNat = b.toNat / 16 := by
      rw [UInt8.toNat_shiftRight]; simp [Nat.shiftRight_eq_div_pow]
    have h2 : (b &&& 0xf).toNat = b.toNat % 16 := by
      rw [UInt8.toNat_and]; exact Nat.and_two_pow_sub_one_eq_mod b.toNat 4
    unfold hexLoop
    rw [h1, h2, hexChars_get _ (by omega), hexChars_get _ (by omega)]
    show hexLoop bs _ = _
    rw [hexLoop_eq bs]
    simp [hexByte, List.append_assoc]

/-- **C94** The dump logged when a parser fails: the first `max_len` bytes in hexadecimal, separated by
spaces. Its loop never indexes out of bounds. -/
theorem C94_hex_dump (bytes : Bytes) (maxLen : Nat) :
    hexDump bytes maxLen = some ([' '].intercalate ((bytes.take maxLen).map hexByte),
      decide (maxLen < bytes.length)) := by
  unfold hexDump
  rw [hexLoop_eq]
  have ht : bytes.take (min bytes.length maxLen) = bytes.take maxLen := by
    rcases Nat.le_total bytes.length maxLen with h | h
    · rw [Nat.min_eq_left h, List.take_length, List.take_of_length_le h]
    · rw [Nat.min_eq_right h]
  rw [ht]
  have key : ∀ l : Bytes, (l.flatMap fun b => hexByte b ++ [' ']).dropLast =
      [' '].intercalate (l.map hexByte) := by
    intro l
    induction l with
    | nil => rfl
    | cons b l ih =>
      cases l with
      | nil => simp [List.intercalate, hexByte]
      | cons c l =>
        rw [List.flatMap_cons, List.dropLast_append_of_ne_nil (by simp [hexByte]), ih]
        simp [List.intercalate, hexByte]
  simp only [Option.map_some, List.nil_append, key]

/-! The assertion is not empty: it fails for a content parser that returns an input of its own. Cases of the
theorems: a nested type, and a dump. -/

/-- A content parser that does not return a suffix of its input. -/
def badP : Parser Unit := ⟨tagIs 4, fun _ _ => .ok (Input.fromSlice [], ())⟩

example : badP.parseBer (Input.fromSlice [4, 1, 0]) = .ok (⟨[], 3, 3⟩, ()) ∧
    badP.parseBerDebug (Input.fromSlice [4, 1, 0]) = .error .panic := by decide +kernel

example : nestedOutcome (nestedDer.parseDerDebug (Input.fromSlice
      [0x30, 13, 2, 1, 7, 0xa0, 8, 0x30, 6, 2, 1, 0xfb, 12, 1, 0x41, 0xee])) = ([0xee], 7, true, false) := by
  rw [(C94_parse (nested_built false)).2.1]
  decide +kernel

example : hexDump [0x30, 0xff, 5] 2 = some ("30 ff".toList, true) := by decide +kernel

end Asn1

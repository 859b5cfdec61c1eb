import Verif.Spec.Message
import Verif.Props.Fault
import Verif.Props.Real32
/-!
# C123: the message of an invalid value
-/
namespace Asn1
open Spec

/-! ### Digits -/

theorem allDigits_iff {c : Bytes} : AllDigits c ↔ c.all isDigit = true := by
  simp [AllDigits, isDigit]

theorem allDigits_two {n : Nat} (h : n < 100) : AllDigits (two n) := by
  rw [allDigits_iff]
  simp [two, isDigit_digit (show n / 10 < 10 by omega), isDigit_digit (show n % 10 < 10 by omega)]

theorem allDigits_append {c d : Bytes} : AllDigits (c ++ d) ↔ AllDigits c ∧ AllDigits d := by
  simp [allDigits_iff, List.all_append]

theorem decimal_or (tag : Nat) (a b : UInt8) :
    (∃ n, n < 100 ∧ [a, b] = two n ∧ decodeDecimal tag a b = .ok n) ∨
    (¬ AllDigits [a, b] ∧ decodeDecimal tag a b = .error (.invalidValue tag "expected digit")) := by
  cases h : decodeDecimal tag a b with
  | ok n =>
    obtain ⟨h1, h2⟩ := decodeDecimal_ok.mp h
    exact .inl ⟨n, h1, h2, rfl⟩
  | error e =>
    right
    unfold decodeDecimal at h
    split at h
    · cases h
    · rename_i hd
      cases h
      refine ⟨fun h1 => hd ?_, rfl⟩
      rw [allDigits_iff] at h1
      simpa using h1

theorem decimal_two {tag n : Nat} {a b : UInt8} (hn : n < 100) (h : [a, b] = two n) :
    decodeDecimal tag a b = .ok n := decodeDecimal_ok.mpr ⟨hn, h⟩

theorem decimal_bad {tag : Nat} {a b : UInt8} (h : ¬ AllDigits [a, b]) :
    decodeDecimal tag a b = .error (.invalidValue tag "expected digit") := by
  rcases decimal_or tag a b with ⟨n, h1, h2, _⟩ | ⟨_, h1⟩
  · exact (h (h2 ▸ allDigits_two h1)).elim
  · exact h1

theorem digits_pair {a b : UInt8} (h : AllDigits [a, b]) : ∃ n, n < 100 ∧ [a, b] = two n := by
  rcases decimal_or 0 a b with ⟨n, h1, h2, _⟩ | ⟨h1, _⟩
  · exact ⟨n, h1, h2⟩
  · exact (h1 h).elim

/-! ### Zones -/

theorem ascii_signs : ascii "+-" = [0x2b, 0x2d] := by decide +kernel
theorem ascii_ends : ascii "Z+-" = [0x5a, 0x2b, 0x2d] := by decide +kernel
theorem ascii_seps : ascii ".," = [0x2e, 0x2c] := by decide +kernel
theorem ascii_zulu : ascii "Z" = [0x5a] := by decide +kernel

theorem zone_fault {tag : Nat} {z : Bytes} {msg : String} (h : ZoneFault z msg) :
    decodeZone tag z = .error (.invalidValue tag msg) := by
  cases h with
  | noZone h0 hz hs =>
    unfold decodeZone
    rw [ascii_zulu] at hz
    rw [ascii_signs] at hs
    split
    · rename_i c
      rw [if_neg (fun h => hz (by rw [h]))]
    · rename_i c h1 h2 m1 m2
      rw [if_neg (fun h => hs ⟨c, [h1, h2, m1, m2], by simp [h], rfl, rfl⟩),
        if_neg (fun h => hs ⟨c, [h1, h2, m1, m2], by simp [h], rfl, rfl⟩)]
    · rfl
  | @digits sign ds hs hl hd =>
    rw [ascii_signs] at hs
    match ds, hl with
    | [h1, h2, m1, m2], _ =>
      have hd' : ¬ (AllDigits [h1, h2] ∧ AllDigits [m1, m2]) := by
        rw [← allDigits_append]; exact hd
      have key : (decodeDecimal tag h1 h2 >>= fun _ => decodeDecimal tag m1 m2) =
          .error (.invalidValue tag "expected digit") := by
        rcases decimal_or tag h1 h2 with ⟨n, h3, h4, h5⟩ | ⟨_, h5⟩
        · rw [h5, decimal_bad (fun h => hd' ⟨h4 ▸ allDigits_two h3, h⟩)]; rfl
        · rw [h5]; rfl
      unfold decodeZone
      simp only
      rcases decimal_or tag h1 h2 with ⟨n, h3, h4, h5⟩ | ⟨_, h5⟩
      · rw [h5, decimal_bad (fun h => hd' ⟨h4 ▸ allDigits_two h3, h⟩)]
        simp only [List.mem_cons, List.not_mem_nil, or_false] at hs
        rcases hs with rfl | rfl <;> rfl
      · rw [h5]
        simp only [List.mem_cons, List.not_mem_nil, or_false] at hs
        rcases hs with rfl | rfl <;> rfl

theorem zone_or (tag : Nat) {z : Bytes} (h0 : z ≠ []) : (∃ tz, decodeZone tag z = .ok tz) ∨ ∃ msg, ZoneFault z msg := by
  by_cases hz : z = ascii "Z"
  · left; rw [hz, ascii_zulu]; exact ⟨.z, rfl⟩
  · by_cases hs : ∃ sign ds, sign ∈ ascii "+-" ∧ z = sign :: ds ∧ ds.length = 4
    · obtain ⟨sign, ds, hs, rfl, hl⟩ := hs
      by_cases hd : AllDigits ds
      · left
        match ds, hl with
        | [h1, h2, m1, m2], _ =>
          obtain ⟨hd1, hd2⟩ := allDigits_append (c := [h1, h2]) (d := [m1, m2]).mp hd
          obtain ⟨n, h3, h4⟩ := digits_pair hd1
          obtain ⟨n', h3', h4'⟩ := digits_pair hd2
          rw [ascii_signs] at hs
          unfold decodeZone
          simp only [decimal_two h3 h4, decimal_two h3' h4']
          simp only [List.mem_cons, List.not_mem_nil, or_false] at hs
          rcases hs with rfl | rfl <;> exact ⟨_, rfl⟩
      · exact .inr ⟨_, .digits hs hl hd⟩
    · exact .inr ⟨_, .noZone h0 hz hs⟩

theorem zoneFault_ne {z : Bytes} {msg : String} (h : ZoneFault z msg) : z ≠ [] := by
  cases h with
  | noZone h _ _ => exact h
  | digits => simp

/-! ### Seconds -/

theorem seconds_text {tag : Nat} {rest tail : Bytes} {s : Nat} (h : SecondsText rest s tail) :
    rest ≠ [] ∧ decodeSeconds tag rest = .ok (s, tail) := by
  cases h with
  | absent b => exact ⟨by simp, rfl⟩
  | @present s tail hs =>
    refine ⟨by simp [two], ?_⟩
    show (decodeDecimal tag _ _ >>= fun x => .ok (x, tail)) = _
    rw [decimal_two hs rfl]; rfl

theorem seconds_or {rest : Bytes} (h0 : rest ≠ []) : (∃ s tail, SecondsText rest s tail) ∨
    ∃ a b tail, rest = a :: b :: tail ∧ ¬ AllDigits [a, b] := by
  match rest with
  | [b] => exact .inl ⟨_, _, .absent b⟩
  | a :: b :: tail =>
    by_cases hd : AllDigits [a, b]
    · obtain ⟨n, h1, h2⟩ := digits_pair hd
      have : a :: b :: tail = two n ++ tail := by rw [← h2]; rfl
      rw [this]
      exact .inl ⟨_, _, .present h1⟩
    · exact .inr ⟨a, b, tail, rfl, hd⟩

theorem seconds_bad {tag : Nat} {a b : UInt8} {tail : Bytes} (h : ¬ AllDigits [a, b]) :
    decodeSeconds tag (a :: b :: tail) = .error (.invalidValue tag "expected digit") := by
  show (decodeDecimal tag a b >>= fun x => .ok (x, tail)) = _
  rw [decimal_bad h]; rfl

theorem inRange_iff {mo d h mi s : Nat} : badComponents mo d h mi s = false ↔ TimeInRange mo d h mi s := by
  simp [badComponents, TimeInRange]; omega

theorem inRange_not {mo d h mi s : Nat} (hr : ¬ TimeInRange mo d h mi s) : badComponents mo d h mi s = true := by
  cases hb : badComponents mo d h mi s with
  | true => rfl
  | false => exact (hr (inRange_iff.mp hb)).elim

/-- The parts of `YYMMDDhhmm` or `YYYYMMDDhhmm`. -/
theorem head_parts {y : Nat} {head : Bytes} (hl : head.length = y + 8) (hd : AllDigits head) :
    ∃ year mo d h mi, head = year ++ two mo ++ two d ++ two h ++ two mi ∧ year.length = y ∧ AllDigits year ∧
      mo < 100 ∧ d < 100 ∧ h < 100 ∧ mi < 100 := by
  have h1 : (head.drop y).length = 8 := by simp; omega
  have h2 : head = head.take y ++ head.drop y := (List.take_append_drop ..).symm
  have hy : (head.take y).length = y := by simp; omega
  rw [h2] at hd ⊢
  generalize head.take y = year at *
  generalize head.drop y = rest at *
  match rest, h1 with
  | [mo1, mo2, d1, d2, h1, h2, mi1, mi2], _ =>
    obtain ⟨hy', hd⟩ := allDigits_append.mp hd
    obtain ⟨ha, hd⟩ := allDigits_append (c := [mo1, mo2]) (d := [d1, d2, h1, h2, mi1, mi2]).mp hd
    obtain ⟨hb, hd⟩ := allDigits_append (c := [d1, d2]) (d := [h1, h2, mi1, mi2]).mp hd
    obtain ⟨hc, hd⟩ := allDigits_append (c := [h1, h2]) (d := [mi1, mi2]).mp hd
    obtain ⟨mo, hmo, ea⟩ := digits_pair ha
    obtain ⟨d, hdd, eb⟩ := digits_pair hb
    obtain ⟨h, hh, ec⟩ := digits_pair hc
    obtain ⟨mi, hmi, ed⟩ := digits_pair hd
    refine ⟨year, mo, d, h, mi, ?_, hy, hy', hmo, hdd, hh, hmi⟩
    rw [← ea, ← eb, ← ec, ← ed]
    simp

/-! ### UTCTime -/

theorem utc_year {year : Bytes} {mo d h mi : Nat} (hl : year.length = 2) (hd : AllDigits year) (hmo : mo < 100)
    (hdd : d < 100) (hh : h < 100) (hmi : mi < 100) :
    ∃ y, ∀ rest, utcFromBytes (year ++ two mo ++ two d ++ two h ++ two mi ++ rest) = utcRest y mo d h mi rest := by
  match year, hl with
  | [y1, y2], _ =>
    obtain ⟨y, hy, e⟩ := digits_pair hd
    refine ⟨y, fun rest => ?_⟩
    show (decodeDecimal _ _ _ >>= fun _ => decodeDecimal _ _ _ >>= fun _ => decodeDecimal _ _ _ >>= fun _ =>
      decodeDecimal _ _ _ >>= fun _ => decodeDecimal _ _ _ >>= fun _ => utcRest _ _ _ _ _ _) = _
    rw [decimal_two hy e, decimal_two hmo rfl, decimal_two hdd rfl, decimal_two hh rfl, decimal_two hmi rfl]
    rfl

theorem utc_head {head : Bytes} (hl : head.length = 2 + 8) (hd : AllDigits head) :
    ∃ y mo d h mi, ∀ rest, utcFromBytes (head ++ rest) = utcRest y mo d h mi rest := by
  obtain ⟨year, mo, d, h, mi, rfl, hy, hyd, hmo, hdd, hhh, hmi⟩ := head_parts hl hd
  obtain ⟨y, he⟩ := utc_year hy hyd hmo hdd hhh hmi
  exact ⟨y, mo, d, h, mi, he⟩

theorem utcRest_fault (y : Nat) {mo d h mi s : Nat} {rest tail : Bytes} (hs : SecondsText rest s tail) :
    (¬ TimeInRange mo d h mi s →
      utcRest y mo d h mi rest = .error (.invalidValue 23 "time components with invalid values")) ∧
    (TimeInRange mo d h mi s → ∀ msg, UtcTail tail msg → utcRest y mo d h mi rest = .error (.invalidValue 23 msg)) ∧
    (TimeInRange mo d h mi s → (∃ t, utcRest y mo d h mi rest = .ok t) ∨ ∃ msg, UtcTail tail msg) := by
  obtain ⟨h0, h1⟩ := seconds_text (tag := tagUtcTime) hs
  have he : utcRest y mo d h mi rest =
      if badComponents mo d h mi s then .error (.invalidValue 23 "time components with invalid values")
      else if tail = [] then .error (.invalidValue 23 "malformed time string")
      else decodeZone tagUtcTime tail >>= fun tz => .ok ⟨y, mo, d, h, mi, s, none, tz⟩ := by
    unfold utcRest
    rw [if_neg h0, h1]; rfl
  rw [he]
  refine ⟨fun hr => ?_, fun hr msg hm => ?_, fun hr => ?_⟩
  · rw [inRange_not hr]; rfl
  · rw [inRange_iff.mpr hr, if_neg (by decide)]
    cases hm with
    | ends => rfl
    | zone hz => rw [if_neg (zoneFault_ne hz), zone_fault hz]; rfl
  · rw [inRange_iff.mpr hr, if_neg (by decide)]
    by_cases ht : tail = []
    · subst ht; exact .inr ⟨_, .ends⟩
    · rcases zone_or tagUtcTime ht with ⟨tz, hz⟩ | ⟨msg, hz⟩
      · rw [if_neg ht, hz]
        exact .inl ⟨_, rfl⟩
      · exact .inr ⟨msg, .zone hz⟩

theorem utc_fault {c : Bytes} {msg : String} (h : TimeFault 2 UtcTail c msg) :
    utcFromBytes c = .error (.invalidValue 23 msg) := by
  cases h with
  | short hl =>
    unfold utcFromBytes
    split
    · simp at hl; omega
    · rfl
  | @digit head rest hl hd =>
    match head, hl with
    | [y1, y2, mo1, mo2, d1, d2, h1, h2, mi1, mi2], _ =>
      have hd' : ¬ (AllDigits [y1, y2] ∧ AllDigits [mo1, mo2] ∧ AllDigits [d1, d2] ∧ AllDigits [h1, h2] ∧
          AllDigits [mi1, mi2]) := by
        simp only [← allDigits_append]; exact hd
      show (decodeDecimal _ _ _ >>= fun _ => decodeDecimal _ _ _ >>= fun _ => decodeDecimal _ _ _ >>= fun _ =>
        decodeDecimal _ _ _ >>= fun _ => decodeDecimal _ _ _ >>= fun _ => utcRest _ _ _ _ _ _) = _
      rcases decimal_or tagUtcTime y1 y2 with ⟨n1, a1, b1, e1⟩ | ⟨_, e1⟩ <;> rw [e1]
      · rcases decimal_or tagUtcTime mo1 mo2 with ⟨n2, a2, b2, e2⟩ | ⟨_, e2⟩ <;> rw [e2]
        · rcases decimal_or tagUtcTime d1 d2 with ⟨n3, a3, b3, e3⟩ | ⟨_, e3⟩ <;> rw [e3]
          · rcases decimal_or tagUtcTime h1 h2 with ⟨n4, a4, b4, e4⟩ | ⟨_, e4⟩ <;> rw [e4]
            · rcases decimal_or tagUtcTime mi1 mi2 with ⟨n5, a5, b5, e5⟩ | ⟨_, e5⟩ <;> rw [e5]
              · exact (hd' ⟨b1 ▸ allDigits_two a1, b2 ▸ allDigits_two a2, b3 ▸ allDigits_two a3,
                  b4 ▸ allDigits_two a4, b5 ▸ allDigits_two a5⟩).elim
              · rfl
            · rfl
          · rfl
        · rfl
      · rfl
  | ends hl hd =>
    obtain ⟨y, mo, d, h, mi, he⟩ := utc_head hl hd
    have := he []
    rw [List.append_nil] at this
    rw [this]; rfl
  | second hl hd hb =>
    obtain ⟨y, mo, d, h, mi, he⟩ := utc_head hl hd
    rw [he]
    unfold utcRest
    rw [if_neg (by simp), seconds_bad hb]; rfl
  | @range year rest tail mo d h mi s hl hd hmo hdd hh hmi hs hr =>
    obtain ⟨y, he⟩ := utc_year hl hd hmo hdd hh hmi
    rw [he]
    exact (utcRest_fault y hs).1 hr
  | @rest year rest tail mo d h mi s msg hl hd hs hr hm =>
    obtain ⟨y, he⟩ := utc_year hl hd (show mo < 100 from by have := hr.1; omega)
      (show d < 100 from by have := hr.2.1; omega) (show h < 100 from by have := hr.2.2.1; omega)
      (show mi < 100 from by have := hr.2.2.2.1; omega)
    rw [he]
    exact (utcRest_fault y hs).2.1 hr msg hm

theorem utc_or (c : Bytes) : (∃ t, utcFromBytes c = .ok t) ∨ ∃ msg, TimeFault 2 UtcTail c msg := by
  by_cases hl : c.length < 10
  · exact .inr ⟨_, .short hl⟩
  · obtain ⟨head, rest, rfl, hh⟩ : ∃ head rest, c = head ++ rest ∧ head.length = 10 :=
      ⟨c.take 10, c.drop 10, (List.take_append_drop ..).symm, by simp; omega⟩
    by_cases hd : AllDigits head
    · by_cases h0 : rest = []
      · subst h0; rw [List.append_nil]; exact .inr ⟨_, .ends hh hd⟩
      · rcases seconds_or h0 with ⟨s, tail, hs⟩ | ⟨a, b, tail, rfl, hb⟩
        · obtain ⟨year, mo, d, h, mi, rfl, hy, hyd, hmo, hdd, hhh, hmi⟩ := head_parts (y := 2) hh hd
          by_cases hr : TimeInRange mo d h mi s
          · obtain ⟨y, he⟩ := utc_year hy hyd hmo hdd hhh hmi
            rcases (utcRest_fault y hs).2.2 hr with ⟨t, ht⟩ | ⟨msg, hm⟩
            · exact .inl ⟨t, (he rest).trans ht⟩
            · exact .inr ⟨msg, .rest hy hyd hs hr hm⟩
          · exact .inr ⟨_, .range hy hyd hmo hdd hhh hmi hs hr⟩
        · exact .inr ⟨_, .second hh hd hb⟩
    · exact .inr ⟨_, .digit hh hd⟩

/-! ### GeneralizedTime -/

theorem frac_nil (n idx f : Nat) : fracLoop (n + 1) idx [] f =
    if idx = 0 then .error (.invalidValue 24 "malformed time string (dot or comma but no digits)")
    else .ok (f, idx, []) := rfl

theorem frac_cons (n idx f : Nat) (c : UInt8) (rest : Bytes) : fracLoop (n + 1) idx (c :: rest) f =
    if idx = 4 then .error (.invalidValue 24 "malformed time string (invalid milliseconds)")
    else if isDigit c then fracLoop n (idx + 1) rest (f * 10 + (c.toNat - 48))
    else if c = 0x5a || c = 0x2b || c = 0x2d then .ok (f, idx, c :: rest)
    else .error (.invalidValue 24 "malformed time string (invalid milliseconds/timezone)") := rfl

theorem frac_digits : ∀ (ds : Bytes) (n idx : Nat) (rest : Bytes) (f : Nat), AllDigits ds → ds.length ≤ n →
    idx + ds.length ≤ 4 → ∃ f', fracLoop n idx (ds ++ rest) f = fracLoop (n - ds.length) (idx + ds.length) rest f'
  | [], n, idx, rest, f, _, _, _ => ⟨f, by simp⟩
  | c :: ds, n, idx, rest, f, hd, hn, hi => by
    obtain ⟨hc, hd⟩ := allDigits_append (c := [c]) (d := ds).mp hd
    match n, hn with
    | n + 1, hn =>
      simp only [List.length_cons] at hn hi
      obtain ⟨f', he⟩ := frac_digits ds n (idx + 1) rest (f * 10 + (c.toNat - 48)) hd (by omega) (by omega)
      refine ⟨f', ?_⟩
      have hc' : isDigit c = true := by rw [allDigits_iff] at hc; simpa using hc
      rw [List.cons_append, frac_cons]
      rw [if_neg (by omega), if_pos hc', he]
      simp only [List.length_cons]
      congr 1 <;> omega

theorem isDigit_not {c : UInt8} (h : ¬ AllDigits [c]) : isDigit c = false := by
  cases hc : isDigit c with
  | false => rfl
  | true => exact (h (allDigits_iff.mpr (by simp [hc]))).elim

theorem frac_fault {t : Bytes} {msg : String} (h : FractionFault t msg) :
    fracLoop 5 0 t 0 = .error (.invalidValue 24 msg) := by
  cases h with
  | empty => rfl
  | @long ds c rest hd hl =>
    obtain ⟨f, he⟩ := frac_digits ds 5 0 (c :: rest) 0 hd (by omega) (by omega)
    rw [he, hl]; rfl
  | @octet ds c rest hd hl hc hz =>
    obtain ⟨f, he⟩ := frac_digits ds 5 0 (c :: rest) 0 hd (by omega) (by omega)
    rw [he, show 5 - ds.length = (4 - ds.length) + 1 by omega, frac_cons]
    rw [ascii_ends] at hz
    rw [if_neg (by omega), isDigit_not hc, if_neg (by decide), if_neg (by simpa [and_assoc] using hz)]

/-- The digits in front. -/
theorem digits_front : ∀ (t : Bytes), ∃ ds rest, t = ds ++ rest ∧ AllDigits ds ∧ (∀ c r, rest = c :: r → ¬ AllDigits [c])
  | [] => ⟨[], [], rfl, fun _ h => (nomatch h), fun _ _ h => (nomatch h)⟩
  | c :: t => by
    by_cases hc : AllDigits [c]
    · obtain ⟨ds, rest, rfl, hd, hr⟩ := digits_front t
      exact ⟨c :: ds, rest, rfl, allDigits_append (c := [c]) (d := ds).mpr ⟨hc, hd⟩, hr⟩
    · exact ⟨[], c :: t, rfl, fun _ h => (nomatch h), fun c' r h => by cases h; exact hc⟩

/-- A fraction is faulty; or it is the end; or it is followed by what starts like a time zone. -/
theorem frac_or (t : Bytes) : (∃ msg, FractionFault t msg) ∨ (∃ f k, fracLoop 5 0 t 0 = .ok (f, k, [])) ∨
    ∃ ds z f k, t = ds ++ z ∧ AllDigits ds ∧ ds.length < 4 ∧ (∃ b ∈ ascii "Z+-", z.head? = some b) ∧
      fracLoop 5 0 t 0 = .ok (f, k, z) := by
  obtain ⟨ds, rest, rfl, hd, hr⟩ := digits_front t
  by_cases h4 : ds.length ≤ 4
  · obtain ⟨f, he⟩ := frac_digits ds 5 0 rest 0 hd (by omega) (by omega)
    rw [he, show 5 - ds.length = (4 - ds.length) + 1 by omega, Nat.zero_add]
    cases rest with
    | nil =>
      by_cases h0 : ds.length = 0
      · rw [List.length_eq_zero_iff.mp h0]; exact .inl ⟨_, .empty⟩
      · rw [frac_nil, if_neg h0]
        exact .inr (.inl ⟨_, _, rfl⟩)
    | cons c rest =>
      have hc := hr c rest rfl
      by_cases h4' : ds.length = 4
      · exact .inl ⟨_, .long hd h4'⟩
      · by_cases hz : c ∈ ascii "Z+-"
        · refine .inr (.inr ⟨ds, c :: rest, f, ds.length, rfl, hd, by omega, ⟨c, hz, rfl⟩, ?_⟩)
          rw [ascii_ends] at hz
          rw [frac_cons, if_neg h4', isDigit_not hc, if_neg (by decide), if_pos (by simpa [or_assoc] using hz)]
        · exact .inl ⟨_, .octet hd (by omega) hc hz⟩
  · left
    have h1 : ds ++ rest = ds.take 4 ++ (ds.drop 4 ++ rest) := by
      rw [← List.append_assoc, List.take_append_drop]
    have h2 : AllDigits (ds.take 4) := fun b hb => hd b (List.mem_of_mem_take hb)
    have h3 : (ds.take 4).length = 4 := by simp; omega
    cases h5 : ds.drop 4 with
    | nil => have : (ds.drop 4).length = 0 := by rw [h5]; rfl
             simp at this; omega
    | cons c r => rw [h1, h5]; exact ⟨_, .long h2 h3⟩

theorem genRest_fault (y mo d h mi s : Nat) (tail : Bytes) :
    (∀ msg, GenTail tail msg → genRest y mo d h mi s tail = .error (.invalidValue 24 msg)) ∧
    ((∃ t, genRest y mo d h mi s tail = .ok t) ∨ ∃ msg, GenTail tail msg) := by
  constructor
  · intro msg hm
    unfold genRest
    cases hm with
    | zone h1 h2 hz =>
      rw [if_neg (zoneFault_ne hz)]
      have he : decodeFraction tail = .ok (none, tail) := by
        cases tail with
        | nil => rfl
        | cons c t =>
          unfold decodeFraction
          simp only
          rw [if_neg]
          simp only [List.head?_cons, ne_eq, Option.some.injEq] at h1 h2
          simp; exact ⟨h1, h2⟩
      rw [he]
      show (if tail = [] then _ else _) = _
      rw [if_neg (zoneFault_ne hz), zone_fault hz]; rfl
    | @fraction sep t _ hs hf =>
      rw [if_neg (by simp)]
      have he : decodeFraction (sep :: t) = .error (.invalidValue 24 msg) := by
        unfold decodeFraction
        simp only
        rw [ascii_seps] at hs
        rw [if_pos (by simpa using hs), frac_fault hf]; rfl
      rw [he]; rfl
    | @zoneAfter sep ds z _ hs hd hl hb hz =>
      rw [if_neg (by simp)]
      have he : ∃ ms, decodeFraction (sep :: (ds ++ z)) = .ok (ms, z) := by
        unfold decodeFraction
        simp only
        rw [ascii_seps] at hs
        rw [if_pos (by simpa using hs)]
        obtain ⟨f, he⟩ := frac_digits ds 5 0 z 0 hd (by omega) (by omega)
        rw [he, show 5 - ds.length = (4 - ds.length) + 1 by omega, Nat.zero_add]
        obtain ⟨b, hb, hh⟩ := hb
        cases z with
        | nil => cases hh
        | cons c r =>
          cases hh
          rw [ascii_ends] at hb
          have hc : isDigit b = false := by
            simp only [List.mem_cons, List.not_mem_nil, or_false] at hb
            rcases hb with rfl | rfl | rfl <;> decide
          rw [frac_cons, if_neg (by omega), hc, if_neg (by decide), if_pos (by simpa [or_assoc] using hb)]
          exact ⟨_, rfl⟩
      obtain ⟨ms, he⟩ := he
      rw [he]
      show (if z = [] then _ else _) = _
      rw [if_neg (zoneFault_ne hz), zone_fault hz]; rfl
  · by_cases h0 : tail = []
    · left; unfold genRest; rw [if_pos h0]; exact ⟨_, rfl⟩
    · have hz : ∀ ms z, decodeFraction tail = .ok (ms, z) → z = [] ∨ (∃ tz, decodeZone tagGeneralizedTime z = .ok tz) →
          ∃ t, genRest y mo d h mi s tail = .ok t := by
        intro ms z he hz
        unfold genRest
        rw [if_neg h0, he]
        by_cases hn : z = []
        · subst hn; exact ⟨_, rfl⟩
        · rcases hz with hz | ⟨tz, hz⟩
          · exact (hn hz).elim
          · have : (if z = [] then .ok ⟨y, mo, d, h, mi, s, ms, .undefined⟩ else
                decodeZone tagGeneralizedTime z >>= fun tz => .ok ⟨y, mo, d, h, mi, s, ms, tz⟩ : Except Error DateTime) =
                .ok ⟨y, mo, d, h, mi, s, ms, tz⟩ := by rw [if_neg hn, hz]; rfl
            exact ⟨_, this⟩
      match tail, h0 with
      | c :: t, h0 =>
        by_cases hs : c ∈ ascii ".,"
        · have hf : ∀ f k z, fracLoop 5 0 t 0 = .ok (f, k, z) → ∃ ms, decodeFraction (c :: t) = .ok (ms, z) := by
            intro f k z he
            unfold decodeFraction
            simp only
            have hs' := hs
            rw [ascii_seps] at hs'
            rw [if_pos (by simpa using hs'), he]
            exact ⟨_, rfl⟩
          rcases frac_or t with ⟨msg, h1⟩ | ⟨f, k, h1⟩ | ⟨ds, z, f, k, rfl, hd, hl, hb, h1⟩
          · exact .inr ⟨msg, .fraction hs h1⟩
          · obtain ⟨ms, he⟩ := hf _ _ _ h1
            exact .inl (hz ms [] he (.inl rfl))
          · obtain ⟨ms, he⟩ := hf _ _ _ h1
            have hz0 : z ≠ [] := by
              rintro rfl
              obtain ⟨_, _, hb⟩ := hb
              cases hb
            rcases zone_or tagGeneralizedTime hz0 with h2 | ⟨msg, h2⟩
            · exact .inl (hz ms z he (.inr h2))
            · exact .inr ⟨msg, .zoneAfter hs hd hl hb h2⟩
        · have he : decodeFraction (c :: t) = .ok (none, c :: t) := by
            unfold decodeFraction
            simp only
            have hs' := hs
            rw [ascii_seps] at hs'
            rw [if_neg (by simpa using hs')]
          rcases zone_or tagGeneralizedTime h0 with h2 | ⟨msg, h2⟩
          · exact .inl (hz none _ he (.inr h2))
          · rw [ascii_seps] at hs
            simp only [List.mem_cons, List.not_mem_nil, or_false, not_or] at hs
            exact .inr ⟨msg, .zone (by simpa using hs.1) (by simpa using hs.2) h2⟩

theorem genTime_fault (y : Nat) {mo d h mi s : Nat} {rest tail : Bytes} (hs : SecondsText rest s tail) :
    (¬ TimeInRange mo d h mi s →
      genTime y mo d h mi rest = .error (.invalidValue 24 "time components with invalid values")) ∧
    (TimeInRange mo d h mi s → ∀ msg, GenTail tail msg → genTime y mo d h mi rest = .error (.invalidValue 24 msg)) ∧
    (TimeInRange mo d h mi s → (∃ t, genTime y mo d h mi rest = .ok t) ∨ ∃ msg, GenTail tail msg) := by
  obtain ⟨h0, h1⟩ := seconds_text (tag := tagGeneralizedTime) hs
  have he : genTime y mo d h mi rest =
      if badComponents mo d h mi s then .error (.invalidValue 24 "time components with invalid values")
      else genRest y mo d h mi s tail := by
    unfold genTime
    rw [if_neg h0, h1]; rfl
  rw [he]
  refine ⟨fun hr => ?_, fun hr => ?_, fun hr => ?_⟩
  · rw [inRange_not hr]; rfl
  · rw [inRange_iff.mpr hr, if_neg (by decide)]
    exact (genRest_fault y mo d h mi s tail).1
  · rw [inRange_iff.mpr hr, if_neg (by decide)]
    exact (genRest_fault y mo d h mi s tail).2

theorem gen_year {year : Bytes} {mo d h mi : Nat} (hl : year.length = 4) (hd : AllDigits year) (hmo : mo < 100)
    (hdd : d < 100) (hh : h < 100) (hmi : mi < 100) :
    ∃ y, ∀ rest, genFromBytes (year ++ two mo ++ two d ++ two h ++ two mi ++ rest) = genTime y mo d h mi rest := by
  match year, hl with
  | [y1, y2, y3, y4], _ =>
    obtain ⟨hd1, hd2⟩ := allDigits_append (c := [y1, y2]) (d := [y3, y4]).mp hd
    obtain ⟨y, hy, e⟩ := digits_pair hd1
    obtain ⟨y', hy', e'⟩ := digits_pair hd2
    refine ⟨y * 100 + y', fun rest => ?_⟩
    show (decodeDecimal _ _ _ >>= fun _ => decodeDecimal _ _ _ >>= fun _ => decodeDecimal _ _ _ >>= fun _ =>
      decodeDecimal _ _ _ >>= fun _ => decodeDecimal _ _ _ >>= fun _ => decodeDecimal _ _ _ >>= fun _ =>
      genTime _ _ _ _ _ _) = _
    rw [decimal_two hy e, decimal_two hy' e', decimal_two hmo rfl, decimal_two hdd rfl, decimal_two hh rfl,
      decimal_two hmi rfl]
    rfl

theorem gen_head {head : Bytes} (hl : head.length = 4 + 8) (hd : AllDigits head) :
    ∃ y mo d h mi, ∀ rest, genFromBytes (head ++ rest) = genTime y mo d h mi rest := by
  obtain ⟨year, mo, d, h, mi, rfl, hy, hyd, hmo, hdd, hhh, hmi⟩ := head_parts hl hd
  obtain ⟨y, he⟩ := gen_year hy hyd hmo hdd hhh hmi
  exact ⟨y, mo, d, h, mi, he⟩

theorem gen_fault {c : Bytes} {msg : String} (h : TimeFault 4 GenTail c msg) :
    genFromBytes c = .error (.invalidValue 24 msg) := by
  cases h with
  | short hl =>
    unfold genFromBytes
    split
    · simp at hl; omega
    · rfl
  | @digit head rest hl hd =>
    match head, hl with
    | [y1, y2, y3, y4, mo1, mo2, d1, d2, h1, h2, mi1, mi2], _ =>
      have hd' : ¬ (AllDigits [y1, y2] ∧ AllDigits [y3, y4] ∧ AllDigits [mo1, mo2] ∧ AllDigits [d1, d2] ∧
          AllDigits [h1, h2] ∧ AllDigits [mi1, mi2]) := by
        simp only [← allDigits_append]; exact hd
      show (decodeDecimal _ _ _ >>= fun _ => decodeDecimal _ _ _ >>= fun _ => decodeDecimal _ _ _ >>= fun _ =>
        decodeDecimal _ _ _ >>= fun _ => decodeDecimal _ _ _ >>= fun _ => decodeDecimal _ _ _ >>= fun _ =>
        genTime _ _ _ _ _ _) = _
      rcases decimal_or tagGeneralizedTime y1 y2 with ⟨n1, a1, b1, e1⟩ | ⟨_, e1⟩ <;> rw [e1]
      · rcases decimal_or tagGeneralizedTime y3 y4 with ⟨n6, a6, b6, e6⟩ | ⟨_, e6⟩ <;> rw [e6]
        · rcases decimal_or tagGeneralizedTime mo1 mo2 with ⟨n2, a2, b2, e2⟩ | ⟨_, e2⟩ <;> rw [e2]
          · rcases decimal_or tagGeneralizedTime d1 d2 with ⟨n3, a3, b3, e3⟩ | ⟨_, e3⟩ <;> rw [e3]
            · rcases decimal_or tagGeneralizedTime h1 h2 with ⟨n4, a4, b4, e4⟩ | ⟨_, e4⟩ <;> rw [e4]
              · rcases decimal_or tagGeneralizedTime mi1 mi2 with ⟨n5, a5, b5, e5⟩ | ⟨_, e5⟩ <;> rw [e5]
                · exact (hd' ⟨b1 ▸ allDigits_two a1, b6 ▸ allDigits_two a6, b2 ▸ allDigits_two a2,
                    b3 ▸ allDigits_two a3, b4 ▸ allDigits_two a4, b5 ▸ allDigits_two a5⟩).elim
                · rfl
              · rfl
            · rfl
          · rfl
        · rfl
      · rfl
  | ends hl hd =>
    obtain ⟨y, mo, d, h, mi, he⟩ := gen_head hl hd
    have := he []
    rw [List.append_nil] at this
    rw [this]; rfl
  | second hl hd hb =>
    obtain ⟨y, mo, d, h, mi, he⟩ := gen_head hl hd
    rw [he]
    unfold genTime
    rw [if_neg (by simp), seconds_bad hb]; rfl
  | @range year rest tail mo d h mi s hl hd hmo hdd hh hmi hs hr =>
    obtain ⟨y, he⟩ := gen_year hl hd hmo hdd hh hmi
    rw [he]
    exact (genTime_fault y hs).1 hr
  | @rest year rest tail mo d h mi s msg hl hd hs hr hm =>
    obtain ⟨y, he⟩ := gen_year hl hd (show mo < 100 from by have := hr.1; omega)
      (show d < 100 from by have := hr.2.1; omega) (show h < 100 from by have := hr.2.2.1; omega)
      (show mi < 100 from by have := hr.2.2.2.1; omega)
    rw [he]
    exact (genTime_fault y hs).2.1 hr msg hm

theorem gen_or (c : Bytes) : (∃ t, genFromBytes c = .ok t) ∨ ∃ msg, TimeFault 4 GenTail c msg := by
  by_cases hl : c.length < 12
  · exact .inr ⟨_, .short hl⟩
  · obtain ⟨head, rest, rfl, hh⟩ : ∃ head rest, c = head ++ rest ∧ head.length = 12 :=
      ⟨c.take 12, c.drop 12, (List.take_append_drop ..).symm, by simp; omega⟩
    by_cases hd : AllDigits head
    · by_cases h0 : rest = []
      · subst h0; rw [List.append_nil]; exact .inr ⟨_, .ends hh hd⟩
      · rcases seconds_or h0 with ⟨s, tail, hs⟩ | ⟨a, b, tail, rfl, hb⟩
        · obtain ⟨year, mo, d, h, mi, rfl, hy, hyd, hmo, hdd, hhh, hmi⟩ := head_parts (y := 4) hh hd
          by_cases hr : TimeInRange mo d h mi s
          · obtain ⟨y, he⟩ := gen_year hy hyd hmo hdd hhh hmi
            rcases (genTime_fault y hs).2.2 hr with ⟨t, ht⟩ | ⟨msg, hm⟩
            · exact .inl ⟨t, (he rest).trans ht⟩
            · exact .inr ⟨msg, .rest hy hyd hs hr hm⟩
          · exact .inr ⟨_, .range hy hyd hmo hdd hhh hmi hs hr⟩
        · exact .inr ⟨_, .second hh hd hb⟩
    · exact .inr ⟨_, .digit hh hd⟩

/-! ### REAL -/

theorem and3_lt : ∀ f : UInt8, ((f >>> 4) &&& 3).toNat < 4 := by
  refine forall_byte ?_
  decide +kernel

theorem base_error {f : UInt8} {e : Int} {input : Input} {loc : Input} {err : InnerError} :
    realBase 9 f e input = .error (.error loc err) ↔ ((f >>> 4) &&& 3).toNat = 3 ∧ loc = input ∧
      err = .invalidValue 9 "Illegal REAL encoding base" := by
  have h0 : (f >>> 4) &&& 3 = 0 ↔ ((f >>> 4) &&& 3).toNat = 0 := byte_lit (n := 0) (by decide)
  have h1 : (f >>> 4) &&& 3 = 1 ↔ ((f >>> 4) &&& 3).toNat = 1 := byte_lit (n := 1) (by decide)
  have h2 : (f >>> 4) &&& 3 = 2 ↔ ((f >>> 4) &&& 3).toNat = 2 := byte_lit (n := 2) (by decide)
  have h3 : ((f >>> 4) &&& 3).toNat < 4 := and3_lt f
  have hm : ∀ (k : Int) (b : Nat), (mulI32 e k).map (b, ·) ≠ .error (.error loc err) := by
    intro k b
    unfold mulI32
    split <;> simp [Except.map]
  unfold realBase
  split
  · rename_i h; have := h0.mp h
    constructor
    · intro h'; cases h'
    · intro h'; omega
  · split
    · rename_i h; have := h1.mp h
      constructor
      · intro h'; exact (hm _ _ h').elim
      · intro h'; omega
    · split
      · rename_i h; have := h2.mp h
        constructor
        · intro h'; exact (hm _ _ h').elim
        · intro h'; omega
      · rename_i n0 n1 n2
        rw [h0] at n0; rw [h1] at n1; rw [h2] at n2
        constructor
        · intro h'; cases h'; exact ⟨by omega, rfl, rfl⟩
        · rintro ⟨_, rfl, rfl⟩; rfl

theorem mantissa_error {f : UInt8} {rem : Bytes} {input : Input} {loc : Input} {err : InnerError} :
    realMantissa 9 f rem input = .error (.error loc err) ↔ 8 < rem.length ∧ loc = input ∧
      err = .invalidValue 9 "Mantissa too large (REAL)" := by
  unfold realMantissa
  split
  · rename_i h
    constructor
    · intro h'; cases h'; exact ⟨h, rfl, rfl⟩
    · rintro ⟨_, rfl, rfl⟩; rfl
  · rename_i h
    simp only
    constructor
    · intro h'
      repeat' split at h'
      all_goals cases h'
    · rintro ⟨h', _⟩; exact (h h').elim

theorem binary_error (lib : FloatLib) {f : UInt8} {rem : Bytes} {input : Input} {loc : Input} {err : InnerError}
    (hf : 128 ≤ f.toNat) :
    decodeRealBinary 9 f rem input = .error (.error loc err) ↔ loc = input ∧ RealFault lib (f :: rem) err := by
  obtain ⟨hff, hb4, hF4, hl4⟩ := first_fields f hf
  have hn : (f &&& 3).toNat = f.toNat % 4 := by split at hff <;> omega
  have hb : ((f >>> 4) &&& 3).toNat = f.toNat / 16 % 4 := by split at hff <;> omega
  unfold decodeRealBinary
  rw [realExpLen.eq_def, if_neg (and3_ne4 f), Asn1.bind_ok]
  simp only
  rw [hn]
  by_cases hs : f.toNat % 4 + 1 ≥ rem.length
  · rw [if_pos hs]
    constructor
    · intro h; cases h; exact ⟨rfl, .short hf hs⟩
    · rintro ⟨rfl, h⟩
      generalize hc : f :: rem = c at h
      cases h with
      | short => rfl
      | base _ h => cases hc; omega
      | @mantissa b exp mant k _ h => cases hc; simp at hs; omega
      | _ => cases hc; omega
  · rw [if_neg hs]
    have hel : (rem.take (f.toNat % 4 + 1)).length = f.toNat % 4 + 1 := by
      rw [List.length_take]; omega
    obtain ⟨h1, h2⟩ := realExponent_eq (tag := 9) (input := input)
      (eo := rem.take (f.toNat % 4 + 1)) (by omega) (by omega)
    rw [h1, Asn1.bind_ok, bind_eq_err, base_error, hb]
    constructor
    · rintro (⟨h3, rfl, rfl⟩ | ⟨⟨eb, e'⟩, h3, h⟩)
      · exact ⟨rfl, .base hf (by omega) h3⟩
      · obtain ⟨k, h5, _, rfl, h6⟩ := realBase_ok.mp h3
        rcases bind_eq_err.mp h with h | ⟨_, _, h⟩
        · obtain ⟨h7, rfl, rfl⟩ := mantissa_error.mp h
          refine ⟨rfl, ?_⟩
          have h8 : f :: rem = f :: (rem.take (f.toNat % 4 + 1) ++ rem.drop (f.toNat % 4 + 1)) := by
            rw [List.take_append_drop]
          rw [h8]
          refine .mantissa hf hel (hb ▸ h5) ?_ h7
          rcases h6 with rfl | h6
          · simpa using h2
          · rw [inInt4]; omega
        · cases h
    · rintro ⟨rfl, h⟩
      generalize hc : f :: rem = c at h
      cases h with
      | short _ h => cases hc; omega
      | base _ _ h => cases hc; exact .inl ⟨h, rfl, rfl⟩
      | @mantissa b exp mant k _ h h5 h6 h7 =>
        cases hc
        right
        rw [List.take_left' h, List.drop_left' h]
        refine ⟨_, realBase_ok.mpr ⟨k, hb ▸ h5, rfl, rfl, .inr ?_⟩, ?_⟩
        · rw [inInt4] at h6; omega
        · exact bind_eq_err.mpr (.inl (mantissa_error.mpr ⟨h7, rfl, rfl⟩))
      | _ => cases hc; omega

theorem realOf_no_error {f : F64} {loc : Input} {err : InnerError} : realOfF64 f ≠ .error (.error loc err) := by
  unfold realOfF64
  split <;> simp

theorem real_error (lib : FloatLib) {h : Header} {input loc : Input} {err : InnerError} (ht : h.tag = 9)
    (hl : h.length = .definite input.data.length) :
    decodeReal lib h input = .error (.error loc err) ↔ loc = input ∧ RealFault lib input.data err := by
  unfold decodeReal
  generalize hd : input.data = c at *
  cases c with
  | nil =>
    simp only [reduceCtorEq, false_iff]
    rintro ⟨_, h⟩
    cases h
  | cons f rem =>
    simp only
    have hand : (f &&& 0x80 ≠ 0) ↔ 128 ≤ f.toNat := by
      have := and80_ne f
      rw [← bne_iff_ne, this, decide_eq_true_eq]
    by_cases h80 : 128 ≤ f.toNat
    · rw [if_pos (hand.mpr h80), ht]
      exact binary_error lib h80
    · obtain ⟨h40, h3⟩ := first_low f (by omega)
      rw [if_neg (mt hand.mp h80)]
      by_cases h4 : 64 ≤ f.toNat
      · rw [if_pos (h40.mpr h4)]
        unfold decodeRealSpecial
        rw [hl, ht]
        cases rem with
        | cons d rem =>
          rw [if_pos (by simp)]
          constructor
          · intro h; cases h; exact ⟨rfl, .specialLength h4 (by omega) (by simp)⟩
          · rintro ⟨rfl, h⟩
            generalize hc : f :: d :: rem = c at h
            cases h with
            | specialLength => rfl
            | special => injection hc with _ hc; cases hc
            | _ => injection hc with hc _; subst hc; omega
        | nil =>
          rw [if_neg (by simp)]
          constructor
          · intro h
            repeat' split at h
            all_goals first | (cases h; done) | skip
            rename_i n0 n1 n2
            cases h
            exact ⟨rfl, .special h4 (by omega) n0 n1 n2⟩
          · rintro ⟨rfl, h⟩
            generalize hc : [f] = c at h
            cases h with
            | specialLength _ _ h => cases hc; exact (h rfl).elim
            | special _ _ n0 n1 n2 => cases hc; rw [if_neg n0, if_neg n1, if_neg n2]; rfl
            | _ => injection hc with hc _; subst hc; omega
      · rw [if_neg (mt h40.mp h4)]
        unfold decodeRealDecimal
        have e1 : f &&& 3 = 1 ↔ f.toNat % 4 = 1 := by rw [← h3]; exact byte_lit (n := 1) (by decide)
        have e2 : f &&& 3 = 2 ↔ f.toNat % 4 = 2 := by rw [← h3]; exact byte_lit (n := 2) (by decide)
        have e3 : f &&& 3 = 3 ↔ f.toNat % 4 = 3 := by rw [← h3]; exact byte_lit (n := 3) (by decide)
        simp only [e1, e2, e3, ht]
        cases hu : fromUtf8 rem with
        | none =>
          have hn : ¬ ∃ s, rem = Text.utf8 s := by
            rintro ⟨s, hs⟩
            rw [fromUtf8_iff.mpr hs] at hu
            cases hu
          simp only
          constructor
          · intro h; cases h; exact ⟨rfl, .charset (by omega) hn⟩
          · rintro ⟨rfl, h⟩
            generalize hc : f :: rem = c at h
            cases h with
            | charset => rfl
            | nr0 => injection hc with _ hc; exact (hn ⟨_, hc⟩).elim
            | nr1 => injection hc with _ hc; exact (hn ⟨_, hc⟩).elim
            | nr23 => injection hc with _ hc; exact (hn ⟨_, hc⟩).elim
            | _ => injection hc with hc _; subst hc; omega
        | some s =>
          obtain rfl := fromUtf8_iff.mp hu
          simp only
          by_cases hm1 : f.toNat % 4 = 1
          · rw [if_pos hm1]
            cases hp : parseU32 s.utf8 with
            | none =>
              simp only
              constructor
              · intro h; cases h
                refine ⟨rfl, .nr1 (by omega) hm1 ?_⟩
                rintro ⟨d, v, hd⟩
                rw [parseU32_ok.mpr ⟨d, hd⟩] at hp
                cases hp
              · rintro ⟨rfl, h⟩
                generalize hc : f :: s.utf8 = c at h
                cases h with
                | charset _ hn => injection hc with _ hc; exact (hn ⟨_, hc.symm⟩).elim
                | nr1 => rfl
                | _ => injection hc with hc _; subst hc; omega
            | some v =>
              simp only
              constructor
              · intro h; exact (realOf_no_error h).elim
              · rintro ⟨rfl, h⟩
                generalize hc : f :: s.utf8 = c at h
                cases h with
                | charset _ hn => injection hc with _ hc; exact (hn ⟨_, hc.symm⟩).elim
                | nr1 _ _ hn =>
                  injection hc with _ hc
                  obtain ⟨d, hd⟩ := parseU32_ok.mp hp
                  exact (hn ⟨d, v, hc ▸ hd⟩).elim
                | nr23 => injection hc with hc _; subst hc; omega
                | nr0 => injection hc with hc _; subst hc; omega
                | _ => injection hc with hc _; subst hc; omega
          · rw [if_neg hm1]
            by_cases hm2 : f.toNat % 4 = 2 ∨ f.toNat % 4 = 3
            · rw [if_pos hm2]
              cases hp : lib.parse s.utf8 with
              | none =>
                simp only
                constructor
                · intro h; cases h; exact ⟨rfl, .nr23 (by omega) hm2 hp⟩
                · rintro ⟨rfl, h⟩
                  generalize hc : f :: s.utf8 = c at h
                  cases h with
                  | charset _ hn => injection hc with _ hc; exact (hn ⟨_, hc.symm⟩).elim
                  | nr23 => rfl
                  | nr1 => rfl
                  | nr0 => injection hc with hc _; subst hc; omega
                  | _ => injection hc with hc _; subst hc; omega
              | some v =>
                simp only
                constructor
                · intro h; exact (realOf_no_error h).elim
                · rintro ⟨rfl, h⟩
                  generalize hc : f :: s.utf8 = c at h
                  cases h with
                  | charset _ hn => injection hc with _ hc; exact (hn ⟨_, hc.symm⟩).elim
                  | nr23 _ _ hn =>
                    injection hc with _ hc
                    rw [← hc, hp] at hn; cases hn
                  | nr1 => injection hc with hc _; subst hc; omega
                  | nr0 => injection hc with hc _; subst hc; omega
                  | _ => injection hc with hc _; subst hc; omega
            · rw [if_neg hm2]
              constructor
              · intro h; cases h; exact ⟨rfl, .nr0 (by omega) (by omega)⟩
              · rintro ⟨rfl, h⟩
                generalize hc : f :: s.utf8 = c at h
                cases h with
                | charset _ hn => injection hc with _ hc; exact (hn ⟨_, hc.symm⟩).elim
                | nr0 => rfl
                | nr1 => injection hc with hc _; subst hc; omega
                | nr23 => injection hc with hc _; subst hc; omega
                | _ => injection hc with hc _; subst hc; omega

/-! ### The decoders -/

variable {α : Type}

theorem parse_error_iff {m : Rules} {p : Parser α} {i r : Input} {a : Any} {e : PErr} (h : m.any i = .ok (r, a))
    (ht : p.acceptTag a.header.tag = true) : m.parse p i = .error e ↔ p.content a.header a.data = .error e := by
  cases hx : p.content a.header a.data with
  | error e1 => rw [parse_any_err h ht hx]
  | ok x => rw [parse_of_content h ht hx]; simp

/-- **C123** `UtcTime::from_bytes`: the errors are those of `TimeFault`, each with its message, and a text without
fault is read. -/
theorem C123_utc_from_bytes (c : Bytes) :
    (∀ e, utcFromBytes c = .error e ↔ ∃ msg, e = .invalidValue 23 msg ∧ TimeFault 2 UtcTail c msg) ∧
    ((∃ t, utcFromBytes c = .ok t) ↔ ¬ ∃ msg, TimeFault 2 UtcTail c msg) := by
  rcases utc_or c with ⟨t, h⟩ | ⟨msg, h⟩
  · refine ⟨fun e => ⟨fun h' => ?_, fun ⟨msg, _, h'⟩ => ?_⟩, ⟨fun _ ⟨msg, h'⟩ => ?_, fun _ => ⟨t, h⟩⟩⟩
    · rw [h] at h'; cases h'
    · rw [utc_fault h'] at h; cases h
    · rw [utc_fault h'] at h; cases h
  · have h1 := utc_fault h
    refine ⟨fun e => ⟨fun h' => ?_, fun ⟨msg', he, h'⟩ => ?_⟩, ⟨fun ⟨t, h'⟩ => ?_, fun h' => (h' ⟨msg, h⟩).elim⟩⟩
    · rw [h1] at h'; cases h'; exact ⟨msg, rfl, h⟩
    · rw [he]; exact utc_fault h'
    · rw [h1] at h'; cases h'

/-- **C123** `GeneralizedTime::from_bytes`, likewise. -/
theorem C123_generalized_from_bytes (c : Bytes) :
    (∀ e, genFromBytes c = .error e ↔ ∃ msg, e = .invalidValue 24 msg ∧ TimeFault 4 GenTail c msg) ∧
    ((∃ t, genFromBytes c = .ok t) ↔ ¬ ∃ msg, TimeFault 4 GenTail c msg) := by
  rcases gen_or c with ⟨t, h⟩ | ⟨msg, h⟩
  · refine ⟨fun e => ⟨fun h' => ?_, fun ⟨msg, _, h'⟩ => ?_⟩, ⟨fun _ ⟨msg, h'⟩ => ?_, fun _ => ⟨t, h⟩⟩⟩
    · rw [h] at h'; cases h'
    · rw [gen_fault h'] at h; cases h
    · rw [gen_fault h'] at h; cases h
  · have h1 := gen_fault h
    refine ⟨fun e => ⟨fun h' => ?_, fun ⟨msg', he, h'⟩ => ?_⟩, ⟨fun ⟨t, h'⟩ => ?_, fun h' => (h' ⟨msg, h⟩).elim⟩⟩
    · rw [h1] at h'; cases h'; exact ⟨msg, rfl, h⟩
    · rw [he]; exact gen_fault h'
    · rw [h1] at h'; cases h'

theorem timeOf_error {tag : Nat} {rem data loc : Input} {r : Except Error DateTime} {F : String → Prop}
    (hr : ∀ e, r = .error e ↔ ∃ msg, e = .invalidValue tag msg ∧ F msg) {e : InnerError} :
    timeOf rem data r = .error (.error loc e) ↔ loc = data ∧ ∃ msg, e = .invalidValue tag msg ∧ F msg := by
  cases r with
  | ok t =>
    constructor
    · intro h; cases h
    · rintro ⟨_, msg, rfl, h⟩
      cases (hr _).mpr ⟨msg, rfl, h⟩
  | error e0 =>
    obtain ⟨msg, rfl, h⟩ := (hr e0).mp rfl
    constructor
    · intro h'; cases h'; exact ⟨rfl, msg, rfl, h⟩
    · rintro ⟨rfl, msg', rfl, h'⟩
      cases (hr _).mpr ⟨msg', rfl, h'⟩
      rfl

/-- **C123** UTCTime objects: octets that cannot be in a time are `StringInvalidCharset`; every other refusal is
`InvalidValue` with the message of the fault. -/
theorem C123_utc {m : Rules} {p : Parser DateTime} (hp : p = if m = .ber then utcBer else utcDer) {i r : Input} {a : Any}
    (h : m.any i = .ok (r, a)) (ht : a.header.tag = 23) (hc : a.header.constructed = false) (e : InnerError) :
    (∃ loc, m.parse p i = .error (.error loc e)) ↔
      (e = .stringInvalidCharset ∧ ¬ TimeOctets a.data.data) ∨
      ∃ msg, e = .invalidValue 23 msg ∧ TimeOctets a.data.data ∧ TimeFault 2 UtcTail a.data.data msg := by
  have key : p.content a.header a.data = if !a.data.data.all isVisible then nomErr a.data .stringInvalidCharset else
      timeOf (after a.data a.data.data.length) (first a.data a.data.data.length) (utcFromBytes a.data.data) := by
    subst hp
    cases m with
    | ber =>
      show utcBerContent a.header a.data = _
      unfold utcBerContent
      rw [if_neg (by simp [hc]), whole, bind_ok]
      simp only [first_data, List.take_length]
    | der =>
      show utcDerContent a.header a.data = _
      unfold utcDerContent
      rw [assertPrimitive_prim hc, bind_ok, whole, bind_ok]
      simp only [first_data, List.take_length]
  have hta : p.acceptTag a.header.tag = true := by
    subst hp
    cases m <;> simp [utcBer, utcDer, tagIs, ht, tagUtcTime]
  simp only [parse_error_iff h hta, key]
  by_cases hv : TimeOctets a.data.data
  · rw [if_neg (by simp [timeOctets_iff.mp hv])]
    simp only [timeOf_error (C123_utc_from_bytes a.data.data).1]
    constructor
    · rintro ⟨_, _, msg, rfl, h'⟩; exact .inr ⟨msg, rfl, hv, h'⟩
    · rintro (⟨_, h'⟩ | ⟨msg, rfl, _, h'⟩)
      · exact (h' hv).elim
      · exact ⟨_, rfl, msg, rfl, h'⟩
  · have hv' : (!a.data.data.all isVisible) = true := by
      cases hb : a.data.data.all isVisible with
      | false => rfl
      | true => exact (hv (timeOctets_iff.mpr hb)).elim
    rw [if_pos hv']
    constructor
    · rintro ⟨_, h'⟩; cases h'; exact .inl ⟨rfl, hv⟩
    · rintro (⟨rfl, _⟩ | ⟨msg, _, h', _⟩)
      · exact ⟨_, rfl⟩
      · exact (hv h').elim

/-- **C123** GeneralizedTime objects: likewise; in DER, first a text that does not end in `Z` is `MissingTimeZone`, and
one with a comma `MissingSeconds`. -/
theorem C123_generalized {m : Rules} {p : Parser DateTime} (hp : p = if m = .ber then genBer else genDer) {i r : Input}
    {a : Any} (h : m.any i = .ok (r, a)) (ht : a.header.tag = 24) (hc : a.header.constructed = false) (e : InnerError) :
    (∃ loc, m.parse p i = .error (.error loc e)) ↔
      (e = .stringInvalidCharset ∧ ¬ TimeOctets a.data.data) ∨
      (e = .derConstraintFailed .missingTimeZone ∧ TimeOctets a.data.data ∧ m = .der ∧ ¬ ascii "Z" <:+ a.data.data) ∨
      (e = .derConstraintFailed .missingSeconds ∧ TimeOctets a.data.data ∧ m = .der ∧ ascii "Z" <:+ a.data.data ∧
        ascii "," <:+: a.data.data) ∨
      ∃ msg, e = .invalidValue 24 msg ∧ TimeOctets a.data.data ∧
        (m = .der → ascii "Z" <:+ a.data.data ∧ ¬ ascii "," <:+: a.data.data) ∧ TimeFault 4 GenTail a.data.data msg := by
  have key : p.content a.header a.data = if !a.data.data.all isVisible then nomErr a.data .stringInvalidCharset else
      if m = .der ∧ a.data.data.getLast? ≠ some 0x5a then
        nomErr (first a.data a.data.data.length) (.derConstraintFailed .missingTimeZone)
      else if m = .der ∧ a.data.data.contains 0x2c then
        nomErr (first a.data a.data.data.length) (.derConstraintFailed .missingSeconds)
      else timeOf (after a.data a.data.data.length) (first a.data a.data.data.length) (genFromBytes a.data.data) := by
    subst hp
    cases m with
    | ber =>
      show genBerContent a.header a.data = _
      unfold genBerContent
      rw [if_neg (by simp [hc]), whole, bind_ok]
      simp only [first_data, List.take_length, reduceCtorEq, false_and, if_false]
    | der =>
      show genDerContent a.header a.data = _
      unfold genDerContent
      rw [assertPrimitive_prim hc, bind_ok, whole, bind_ok]
      simp only [first_data, List.take_length, true_and]
  have hta : p.acceptTag a.header.tag = true := by
    subst hp
    cases m <;> simp [genBer, genDer, tagIs, ht, tagGeneralizedTime]
  simp only [parse_error_iff h hta, key]
  rw [zulu_iff, comma_iff]
  by_cases hv : TimeOctets a.data.data
  · rw [if_neg (by simp [timeOctets_iff.mp hv])]
    simp only [hv, not_true, and_false, false_or, true_and]
    by_cases h1 : m = .der ∧ a.data.data.getLast? ≠ some 0x5a
    · rw [if_pos h1]
      constructor
      · rintro ⟨_, h'⟩; cases h'; exact .inl ⟨rfl, h1⟩
      · rintro (⟨rfl, _⟩ | ⟨_, _, h', _⟩ | ⟨_, _, h', _⟩)
        · exact ⟨_, rfl⟩
        · exact (h1.2 h').elim
        · exact (h1.2 (h' h1.1).1).elim
    · rw [if_neg h1]
      by_cases h2 : m = .der ∧ a.data.data.contains 0x2c = true
      · rw [if_pos h2]
        have h3 : a.data.data.getLast? = some 0x5a := Classical.byContradiction fun h' => h1 ⟨h2.1, h'⟩
        have h4 : 0x2c ∈ a.data.data := by simpa using h2.2
        constructor
        · rintro ⟨_, h'⟩; cases h'; exact .inr (.inl ⟨rfl, h2.1, h3, h4⟩)
        · rintro (⟨_, h'⟩ | ⟨rfl, _⟩ | ⟨_, _, h', _⟩)
          · exact (h'.2 h3).elim
          · exact ⟨_, rfl⟩
          · exact ((h' h2.1).2 h4).elim
      · rw [if_neg h2]
        simp only [timeOf_error (C123_generalized_from_bytes a.data.data).1]
        constructor
        · rintro ⟨_, _, msg, rfl, h'⟩
          refine .inr (.inr ⟨msg, rfl, fun hm => ⟨?_, fun h3 => h2 ⟨hm, by simpa using h3⟩⟩, h'⟩)
          exact Classical.byContradiction fun h' => h1 ⟨hm, h'⟩
        · rintro (⟨_, h'⟩ | ⟨_, h'⟩ | ⟨msg, rfl, _, h'⟩)
          · exact (h1 h').elim
          · exact (h2 ⟨h'.1, by simpa using h'.2.2⟩).elim
          · exact ⟨_, rfl, msg, rfl, h'⟩
  · have hv' : (!a.data.data.all isVisible) = true := by
      cases hb : a.data.data.all isVisible with
      | false => rfl
      | true => exact (hv (timeOctets_iff.mpr hb)).elim
    rw [if_pos hv']
    constructor
    · rintro ⟨_, h'⟩; cases h'; exact .inl ⟨rfl, hv⟩
    · rintro (⟨rfl, _⟩ | ⟨_, h', _⟩ | ⟨_, h', _⟩ | ⟨_, _, h', _⟩)
      · exact ⟨_, rfl⟩
      all_goals exact (hv h').elim

/-- **C123** BIT STRING objects in primitive form: the message about the unused bits, for a first octet over 7. -/
theorem C123_bits {m : Rules} {p : Parser BitString} (hp : p = if m = .ber then bitBer else bitDer) {i r : Input}
    {a : Any} (h : m.any i = .ok (r, a)) (ht : a.header.tag = 3) (hc : a.header.constructed = false) (e : InnerError) :
    (∃ loc, m.parse p i = .error (.error loc e)) ↔
      (e = .invalidValue 3 "Invalid unused bits" ∧ ∃ u c, a.data.data = u :: c ∧ 7 < u.toNat) ∨
      (e = .invalidLength ∧ (a.data.data = [] ∨ ∃ u c, a.data.data = u :: c ∧ u.toNat ≤ 7 ∧ 8 * c.length < u.toNat)) := by
  have hl := (consistent_any h).2 hc
  have key : p.content a.header a.data = bitContent a.header a.data := by
    subst hp
    cases m with
    | ber => rfl
    | der =>
      show (a.header.assertPrimitive a.data >>= fun _ => bitContent a.header a.data) = _
      rw [assertPrimitive_prim hc, bind_ok]
  have hta : p.acceptTag a.header.tag = true := by
    subst hp
    cases m <;> simp [bitBer, bitDer, tagIs, ht, tagBitString]
  simp only [parse_error_iff h hta, key]
  unfold bitContent
  rw [if_pos (by simp [hc])]
  unfold bitLeaf
  rw [berGetContent_all hl, bind_ok]
  unfold bitPrimitive
  simp only [first_all]
  generalize a.data.data = c
  cases c with
  | nil =>
    simp only [nomErr, Except.error.injEq, PErr.error.injEq, exists_eq_left', true_or, and_true]
    constructor
    · intro h; exact .inr h.symm
    · rintro (⟨_, _, _, h, _⟩ | h)
      · cases h
      · exact h.symm
  | cons u c =>
    simp only [List.cons.injEq, reduceCtorEq, false_or]
    by_cases h1 : u.toNat ≤ 7
    · rw [if_pos h1]
      by_cases h2 : u.toNat ≤ 8 * c.length
      · rw [if_pos h2]
        constructor
        · rintro ⟨_, h⟩; cases h
        · rintro (⟨_, u', c', ⟨rfl, rfl⟩, h⟩ | ⟨_, u', c', ⟨rfl, rfl⟩, _, h⟩) <;> omega
      · rw [if_neg h2]
        constructor
        · rintro ⟨_, h⟩; cases h; exact .inr ⟨rfl, u, c, ⟨rfl, rfl⟩, h1, by omega⟩
        · rintro (⟨_, u', c', ⟨rfl, rfl⟩, h⟩ | ⟨rfl, _⟩)
          · omega
          · exact ⟨_, rfl⟩
    · rw [if_neg h1]
      constructor
      · rintro ⟨_, h⟩; cases h; exact .inl ⟨rfl, u, c, ⟨rfl, rfl⟩, by omega⟩
      · rintro (⟨rfl, _⟩ | ⟨_, u', c', ⟨rfl, rfl⟩, h, _⟩)
        · exact ⟨_, rfl⟩
        · omega

theorem real_content_error (lib : FloatLib) {h : Header} {i : Input} {e : PErr} (hc : h.constructed = false) :
    (realP lib).content h i = .error e ↔ decodeReal lib h i = .error e := by
  have : (realP lib).content h i = (h.assertPrimitive i >>= fun _ => decodeReal lib h i >>= fun r =>
      i.atEnd >>= fun x => pure (x, r)) := rfl
  rw [this, assertPrimitive_prim hc, bind_ok, bind_eq_err]
  constructor
  · rintro (h1 | ⟨v, _, h1⟩)
    · exact h1
    · rw [atEnd_eq, bind_ok] at h1; cases h1
  · exact .inl

/-- **C123** REAL objects, decoded as `Real`, `f64` or `f32`: the errors are those of `RealFault`, with their
messages. -/
theorem C123_real (lib : FloatLib) {m : Rules} {i r : Input} {a : Any} (h : m.any i = .ok (r, a))
    (ht : a.header.tag = 9) (hc : a.header.constructed = false) (e : InnerError) :
    ((∃ loc, m.parse (realP lib) i = .error (.error loc e)) ↔ RealFault lib a.data.data e) ∧
    ((∃ loc, m.parse (f64P lib) i = .error (.error loc e)) ↔ RealFault lib a.data.data e) ∧
    ((∃ loc, m.parse (f32P lib) i = .error (.error loc e)) ↔ RealFault lib a.data.data e) := by
  have hl := (consistent_any h).2 hc
  have hta : (realP lib).acceptTag a.header.tag = true := by simp [realP, tagIs, ht, tagReal]
  have key : ∀ loc, (realP lib).content a.header a.data = .error (.error loc e) ↔
      loc = a.data ∧ RealFault lib a.data.data e := fun loc =>
    (real_content_error lib hc).trans (real_error lib ht hl)
  have k64 : ∀ loc, (f64P lib).content a.header a.data = .error (.error loc e) ↔
      loc = a.data ∧ RealFault lib a.data.data e := fun loc => (map_content_err ..).trans (key loc)
  have k32 : ∀ loc, (f32P lib).content a.header a.data = .error (.error loc e) ↔
      loc = a.data ∧ RealFault lib a.data.data e := fun loc => (map_content_err ..).trans (key loc)
  simp only [parse_error_iff h hta, parse_error_iff (p := f64P lib) h hta, parse_error_iff (p := f32P lib) h hta, key,
    k64, k32, exists_eq_left, and_self]

/-! ### Witnesses -/

/-- A month of 13, a letter in the seconds, and an unknown time zone. -/
example : TimeFault 2 UtcTail (ascii "241302030405Z") "time components with invalid values" ∧
    TimeFault 2 UtcTail (ascii "24010203040xZ") "expected digit" ∧
    TimeFault 2 UtcTail (ascii "240102030405A") "malformed time string: no time zone" :=
  ⟨.range (year := two 24) (mo := 13) (d := 2) (h := 3) (mi := 4) (s := 5) (tail := ascii "Z") (rest := two 5 ++ ascii "Z") rfl
      (allDigits_two (by decide)) (by decide) (by decide) (by decide) (by decide) (.present (by decide))
      (fun h => absurd h.1 (by decide)),
    .second (head := ascii "2401020304") (a := 0x30) (b := 0x78) (rest := ascii "Z") rfl (by unfold AllDigits; decide)
      (by unfold AllDigits; decide),
    .rest (year := two 24) (mo := 1) (d := 2) (h := 3) (mi := 4) (s := 5) (tail := ascii "A") (rest := two 5 ++ ascii "A") rfl
      (allDigits_two (by decide)) (.present (by decide)) ⟨by decide, by decide, by decide, by decide, by decide⟩
      (.zone (.noZone (by decide) (by decide) (by rintro ⟨s, ds, _, h, hl⟩; cases h; cases hl)))⟩

/-- The hypotheses of `C123_utc` hold for a UTCTime object, and the error is as it says. -/
example : ∃ r a, Rules.der.any (Input.fromSlice (23 :: 13 :: ascii "241302030405Z")) = .ok (r, a) ∧ a.header.tag = 23 ∧
    a.header.constructed = false ∧ a.data.data = ascii "241302030405Z" := by
  exact ⟨_, _, rfl, by decide, by decide, by decide +kernel⟩

example : utcDer.parseDer (Input.fromSlice (23 :: 13 :: ascii "241302030405Z")) =
    .error (.error ⟨ascii "241302030405Z", 2, 15⟩ (.invalidValue 23 "time components with invalid values")) := by
  decide +kernel

/-- Five digits after the dot; a dot without digits at the end. -/
example : TimeFault 4 GenTail (ascii "20240102030405.12345Z") "malformed time string (invalid milliseconds)" ∧
    TimeFault 4 GenTail (ascii "20240102030405.") "malformed time string (dot or comma but no digits)" :=
  ⟨.rest (year := ascii "2024") (mo := 1) (d := 2) (h := 3) (mi := 4) (s := 5) (tail := ascii ".12345Z")
      (rest := two 5 ++ ascii ".12345Z") rfl
      (by unfold AllDigits; decide) (.present (by decide)) ⟨by decide, by decide, by decide, by decide, by decide⟩
      (.fraction (sep := 0x2e) (t := ascii "12345Z") (by decide)
        (.long (ds := ascii "1234") (c := 0x35) (rest := ascii "Z") (by unfold AllDigits; decide) rfl)),
    .rest (year := ascii "2024") (mo := 1) (d := 2) (h := 3) (mi := 4) (s := 5) (tail := ascii ".")
      (rest := two 5 ++ ascii ".") rfl
      (by unfold AllDigits; decide) (.present (by decide)) ⟨by decide, by decide, by decide, by decide, by decide⟩
      (.fraction (sep := 0x2e) (t := []) (by decide) .empty)⟩

/-- A REAL of base 3, one without number, and one whose number has nine octets. -/
example (lib : FloatLib) : RealFault lib [0xb0, 2, 1] (.invalidValue 9 "Illegal REAL encoding base") ∧
    RealFault lib [0x80, 2] (.invalidValue 9 "Invalid float value(exponent)") ∧
    RealFault lib [0x80, 2, 1, 2, 3, 4, 5, 6, 7, 8, 9] (.invalidValue 9 "Mantissa too large (REAL)") :=
  ⟨.base (by decide) (by decide) rfl, .short (by decide) (by decide),
    .mantissa (exp := [2]) (mant := [1, 2, 3, 4, 5, 6, 7, 8, 9]) (k := 1) (by decide) rfl (.inl ⟨rfl, rfl⟩)
      ⟨by decide, by decide⟩ (by decide)⟩

example (lib : FloatLib) : ∃ r a, Rules.ber.any (Input.fromSlice [9, 3, 0xb0, 2, 1]) = .ok (r, a) ∧ a.header.tag = 9 ∧
    a.header.constructed = false ∧ (realP lib).parseBer (Input.fromSlice [9, 3, 0xb0, 2, 1]) =
      .error (.error a.data (.invalidValue 9 "Illegal REAL encoding base")) := by
  exact ⟨_, _, rfl, rfl, rfl, rfl⟩

/-- BIT STRING with nine unused bits. -/
example : bitBer.parseBer (Input.fromSlice [3, 2, 9, 0xff]) =
    .error (.error ⟨[9, 0xff], 2, 4⟩ (.invalidValue 3 "Invalid unused bits")) := by decide +kernel

end Asn1

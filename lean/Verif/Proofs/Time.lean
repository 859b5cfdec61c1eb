import Verif.Spec.Time
import Verif.Props.OidText
import Verif.Props.Panic
/-!
# Decoding and formatting of times
-/
namespace Asn1
open Spec Wr

theorem digit_val {d : Nat} (h : d < 10) : (digit d).toNat = 48 + d := digit_toNat h

theorem isDigit_digit {d : Nat} (h : d < 10) : isDigit (digit d) = true := by
  simp [isDigit, digit_val h]; omega

theorem isDigit_iff {b : UInt8} : isDigit b = true ↔ ∃ d, d < 10 ∧ b = digit d := by
  constructor
  · intro h
    simp only [isDigit, Bool.and_eq_true, decide_eq_true_eq] at h
    refine ⟨b.toNat - 48, by omega, ?_⟩
    apply UInt8.toNat.inj
    rw [digit_val (by omega)]; omega
  · rintro ⟨d, hd, rfl⟩; exact isDigit_digit hd

theorem digit_inj {c d : Nat} (hc : c < 10) (hd : d < 10) (h : digit c = digit d) : c = d := by
  have := congrArg UInt8.toNat h
  rw [digit_val hc, digit_val hd] at this; omega

theorem two_inj {m n : Nat} (hm : m < 100) (hn : n < 100) (h : two m = two n) : m = n := by
  simp only [two, List.cons.injEq, and_true] at h
  have h1 := digit_inj (by omega) (by omega) h.1
  have h2 := digit_inj (by omega) (by omega) h.2
  omega

theorem decodeDecimal_two (tag : Nat) {n : Nat} (h : n < 100) :
    decodeDecimal tag (digit (n / 10)) (digit (n % 10)) = .ok n := by
  have h1 : n / 10 < 10 := by omega
  have h2 : n % 10 < 10 := by omega
  simp only [decodeDecimal, isDigit_digit h1, isDigit_digit h2, digit_val h1, digit_val h2,
    Bool.and_self, if_true]
  congr 1; omega

theorem decodeDecimal_ok {tag n : Nat} {a b : UInt8} :
    decodeDecimal tag a b = .ok n ↔ n < 100 ∧ [a, b] = two n := by
  constructor
  · intro h
    unfold decodeDecimal at h
    split at h
    · rename_i hd
      simp only [Bool.and_eq_true] at hd
      obtain ⟨⟨x, hx, rfl⟩, y, hy, rfl⟩ := And.intro (isDigit_iff.mp hd.1) (isDigit_iff.mp hd.2)
      rw [digit_val hx, digit_val hy] at h
      injection h with h
      refine ⟨by omega, ?_⟩
      have h1 : n / 10 = x := by omega
      have h2 : n % 10 = y := by omega
      simp [two, h1, h2]
    · exact absurd h (by simp)
  · rintro ⟨h, h2⟩
    simp only [two, List.cons.injEq, and_true] at h2
    rw [h2.1, h2.2]; exact decodeDecimal_two tag h

theorem decodeZone_ok {tag : Nat} {rem : Bytes} {tz : TimeZone} :
    decodeZone tag rem = .ok tz ↔ ZoneText rem tz := by
  constructor
  · intro h
    unfold decodeZone at h
    split at h
    · split at h
      · rename_i hc
        injection h with h
        subst hc; subst h; exact .z
      · exact absurd h (by simp)
    · rename_i c h1 h2 m1 m2
      split at h
      · rename_i hc
        obtain ⟨hh, g1, h⟩ := bind_eq_ok.mp h
        obtain ⟨mm, g2, h⟩ := bind_eq_ok.mp h
        injection h with h
        obtain ⟨l1, e1⟩ := decodeDecimal_ok.mp g1
        obtain ⟨l2, e2⟩ := decodeDecimal_ok.mp g2
        subst hc; subst h
        have := ZoneText.plus l1 l2
        rw [← e1, ← e2] at this; exact this
      · split at h
        · rename_i hc
          obtain ⟨hh, g1, h⟩ := bind_eq_ok.mp h
          obtain ⟨mm, g2, h⟩ := bind_eq_ok.mp h
          injection h with h
          obtain ⟨l1, e1⟩ := decodeDecimal_ok.mp g1
          obtain ⟨l2, e2⟩ := decodeDecimal_ok.mp g2
          subst hc; subst h
          have := ZoneText.minus l1 l2
          rw [← e1, ← e2] at this; exact this
        · exact absurd h (by simp)
    · exact absurd h (by simp)
  · intro h
    cases h with
    | z => rfl
    | plus h1 h2 =>
      show decodeZone tag (0x2b :: digit _ :: digit _ :: digit _ :: digit _ :: []) = _
      simp only [decodeZone, decodeDecimal_two tag h1, decodeDecimal_two tag h2, if_true]
      rfl
    | minus h1 h2 =>
      show decodeZone tag (0x2d :: digit _ :: digit _ :: digit _ :: digit _ :: []) = _
      simp only [decodeZone, decodeDecimal_two tag h1, decodeDecimal_two tag h2]
      rfl

theorem badComponents_false {t : DateTime} :
    badComponents t.month t.day t.hour t.minute t.second = false ↔ InRange t := by
  simp only [badComponents, Bool.or_eq_false_iff, decide_eq_false_iff_not]
  constructor
  · rintro ⟨⟨⟨⟨h1, h2⟩, h3⟩, h4⟩, h5⟩
    exact ⟨by omega, by omega, by omega, by omega, by omega⟩
  · rintro ⟨h1, h2, h3, h4, h5⟩
    exact ⟨⟨⟨⟨by omega, by omega⟩, by omega⟩, by omega⟩, by omega⟩

/-- The seconds: read if two bytes remain. -/
theorem decodeSeconds_ok {tag : Nat} {rem rem' : Bytes} {s : Nat} :
    decodeSeconds tag rem = .ok (s, rem') ↔
      (rem.length ≤ 1 ∧ s = 0 ∧ rem' = rem) ∨ (s < 100 ∧ rem = two s ++ rem') := by
  constructor
  · intro h
    unfold decodeSeconds at h
    split at h
    · obtain ⟨n, g1, h⟩ := bind_eq_ok.mp h
      injection h with h
      injection h with h1 h2
      subst h1; subst h2
      obtain ⟨l1, e1⟩ := decodeDecimal_ok.mp g1
      exact .inr ⟨l1, by rw [← e1]; rfl⟩
    · rename_i hne
      injection h with h
      injection h with h1 h2
      refine .inl ⟨?_, h1.symm, h2.symm⟩
      match rem, hne with
      | [], _ => simp
      | [_], _ => simp
      | a :: b :: r, hne => exact absurd rfl (hne a b r)
  · rintro (⟨h1, rfl, rfl⟩ | ⟨h1, rfl⟩)
    · match rem', h1 with
      | [], _ => rfl
      | [_], _ => rfl
    · show decodeSeconds tag (digit _ :: digit _ :: rem') = _
      simp only [decodeSeconds, decodeDecimal_two tag h1]; rfl

theorem zoneText_ne {z : Bytes} {tz : TimeZone} (h : ZoneText z tz) : z ≠ [] := by
  cases h <;> simp [ascii]

theorem zoneText_short {z : Bytes} {tz : TimeZone} (h : ZoneText z tz) (hl : z.length ≤ 1) :
    z = ascii "Z" ∧ tz = .z := by
  cases h with
  | z => exact ⟨rfl, rfl⟩
  | plus => simp [ascii, two] at hl
  | minus => simp [ascii, two] at hl

theorem two_length (n : Nat) : (two n).length = 2 := rfl

theorem utcRest_ok {y mo d hr mi : Nat} {rem : Bytes} {t : DateTime} :
    utcRest y mo d hr mi rem = .ok t ↔
      t.year = y ∧ t.month = mo ∧ t.day = d ∧ t.hour = hr ∧ t.minute = mi ∧
      t.millisecond = none ∧ InRange t ∧
      ((rem = ascii "Z" ∧ t.second = 0 ∧ t.tz = .z) ∨
        ∃ zone, rem = two t.second ++ zone ∧ ZoneText zone t.tz) := by
  constructor
  · intro h
    unfold utcRest at h
    split at h
    · exact absurd h (by simp)
    · rename_i hne
      obtain ⟨⟨s, rem'⟩, g1, h⟩ := bind_eq_ok.mp h
      simp only at h
      split at h
      · exact absurd h (by simp)
      · rename_i hb
        split at h
        · exact absurd h (by simp)
        · obtain ⟨tz, g2, h⟩ := bind_eq_ok.mp h
          injection h with h
          subst h
          have hz := decodeZone_ok.mp g2
          refine ⟨rfl, rfl, rfl, rfl, rfl, rfl, badComponents_false.mp (by simpa using hb), ?_⟩
          rcases decodeSeconds_ok.mp g1 with ⟨hl, rfl, rfl⟩ | ⟨_, rfl⟩
          · have := zoneText_short hz hl
            exact .inl ⟨this.1, rfl, this.2⟩
          · exact .inr ⟨_, rfl, hz⟩
  · rintro ⟨rfl, rfl, rfl, rfl, rfl, hms, hr, h⟩
    have hb := badComponents_false.mpr hr
    rcases h with ⟨rfl, hs, htz⟩ | ⟨zone, rfl, hz⟩
    · have : decodeSeconds tagUtcTime (ascii "Z") = .ok (0, ascii "Z") := rfl
      unfold utcRest
      rw [if_neg (by decide), this]
      simp only [bind_ok, ← hs, hb, Bool.false_eq_true, if_false]
      rw [if_neg (by decide), decodeZone_ok.mpr .z]
      simp only [bind_ok]
      cases t; simp_all
    · have hs := hr.second
      have : decodeSeconds tagUtcTime (two t.second ++ zone) = .ok (t.second, zone) :=
        decodeSeconds_ok.mpr (.inr ⟨by omega, rfl⟩)
      unfold utcRest
      rw [if_neg (by simp [two]), this]
      simp only [bind_ok, hb, Bool.false_eq_true, if_false]
      rw [if_neg (zoneText_ne hz), decodeZone_ok.mpr hz]
      simp only [bind_ok]
      cases t; simp_all

theorem utcFromBytes_ok {text : Bytes} {t : DateTime} :
    utcFromBytes text = .ok t ↔ UtcText text t := by
  constructor
  · intro h
    unfold utcFromBytes at h
    split at h
    · obtain ⟨y, g1, h⟩ := bind_eq_ok.mp h
      obtain ⟨mo, g2, h⟩ := bind_eq_ok.mp h
      obtain ⟨d, g3, h⟩ := bind_eq_ok.mp h
      obtain ⟨hr, g4, h⟩ := bind_eq_ok.mp h
      obtain ⟨mi, g5, h⟩ := bind_eq_ok.mp h
      obtain ⟨l1, e1⟩ := decodeDecimal_ok.mp g1
      obtain ⟨l2, e2⟩ := decodeDecimal_ok.mp g2
      obtain ⟨l3, e3⟩ := decodeDecimal_ok.mp g3
      obtain ⟨l4, e4⟩ := decodeDecimal_ok.mp g4
      obtain ⟨l5, e5⟩ := decodeDecimal_ok.mp g5
      obtain ⟨rfl, rfl, rfl, rfl, rfl, hms, hr, h'⟩ := utcRest_ok.mp h
      refine ⟨l1, hr, hms, ?_⟩
      simp only [monthToMinute, ← e1, ← e2, ← e3, ← e4, ← e5]
      rcases h' with ⟨rfl, h'⟩ | ⟨zone, rfl, h'⟩
      · exact .inl ⟨rfl, h'⟩
      · exact .inr ⟨zone, rfl, h'⟩
    · exact absurd h (by simp)
  · rintro ⟨hy, hr, hms, h⟩
    have key : ∀ tail, utcFromBytes (two t.year ++ monthToMinute t ++ tail) =
        utcRest t.year t.month t.day t.hour t.minute tail := by
      intro tail
      have h1 := hr.month; have h2 := hr.day; have h3 := hr.hour; have h4 := hr.minute
      show utcFromBytes (digit _ :: digit _ :: digit _ :: digit _ :: digit _ :: digit _ ::
        digit _ :: digit _ :: digit _ :: digit _ :: tail) = _
      simp only [utcFromBytes]
      rw [decodeDecimal_two _ hy, decodeDecimal_two _ (by omega), decodeDecimal_two _ (by omega),
        decodeDecimal_two _ (by omega), decodeDecimal_two _ (by omega)]
      rfl
    rcases h with ⟨rfl, h⟩ | ⟨zone, rfl, h⟩
    · rw [key]; exact utcRest_ok.mpr ⟨rfl, rfl, rfl, rfl, rfl, hms, hr, .inl ⟨rfl, h⟩⟩
    · rw [List.append_assoc _ (two t.second), key]
      exact utcRest_ok.mpr ⟨rfl, rfl, rfl, rfl, rfl, hms, hr, .inr ⟨zone, rfl, h⟩⟩

/-! ### Fractions -/

/-- The number denoted by digits, read from the left. -/
def digitsVal (ds : Bytes) (f : Nat) : Nat := ds.foldl (fun a b => a * 10 + (b.toNat - 48)) f

theorem digitText_snocs (ds : Bytes) (hd : ds.all isDigit = true) :
    ∀ {t : Bytes} {m : Nat}, DigitText t m → DigitText (t ++ ds) (digitsVal ds m) := by
  induction ds with
  | nil => intro t m h; simpa [digitsVal] using h
  | cons c ds ih =>
    intro t m h
    simp only [List.all_cons, Bool.and_eq_true] at hd
    obtain ⟨d, hd1, rfl⟩ := isDigit_iff.mp hd.1
    have := ih hd.2 (DigitText.snoc h hd1)
    rw [List.append_assoc, List.singleton_append] at this
    have e : digitsVal (digit d :: ds) m = digitsVal ds (10 * m + d) := by
      show digitsVal ds (m * 10 + ((digit d).toNat - 48)) = _
      rw [digit_val hd1]; congr 1; omega
    rw [e]; exact this

theorem digitText_iff {ds : Bytes} {n : Nat} :
    DigitText ds n ↔ ds.all isDigit = true ∧ n = digitsVal ds 0 := by
  constructor
  · intro h
    induction h with
    | nil => exact ⟨rfl, rfl⟩
    | @snoc t n d _ hd ih =>
      refine ⟨by simp [ih.1, isDigit_digit hd], ?_⟩
      have : digitsVal (t ++ [digit d]) 0 = digitsVal t 0 * 10 + ((digit d).toNat - 48) := by
        simp [digitsVal]
      rw [this, ← ih.2, digit_val hd]; omega
  · rintro ⟨h1, rfl⟩
    have := digitText_snocs ds h1 .nil
    simpa using this

theorem fracLoop_ok : ∀ (n idx : Nat) (rem : Bytes) (f : Nat) {f' k : Nat} {rem' : Bytes},
    idx + n = 5 → 1 ≤ n →
    (fracLoop n idx rem f = .ok (f', k, rem') ↔
      ∃ ds, rem = ds ++ rem' ∧ ds.all isDigit = true ∧ f' = digitsVal ds f ∧ k = idx + ds.length ∧
        ((rem' = [] ∧ 1 ≤ k ∧ k ≤ 4) ∨
          ∃ c r, rem' = c :: r ∧ (c = 0x5a ∨ c = 0x2b ∨ c = 0x2d) ∧ k ≤ 3)) := by
  intro n
  induction n with
  | zero => intro idx rem f f' k rem' _ h; omega
  | succ n ih =>
    intro idx rem f f' k rem' hidx _
    match rem with
    | [] =>
      by_cases h0 : idx = 0
      · subst h0
        simp only [fracLoop, if_true]
        constructor
        · intro h; exact absurd h (by simp)
        · rintro ⟨ds, e, _, _, hk, h⟩
          have e1 := List.append_eq_nil_iff.mp e.symm
          rw [e1.1] at hk
          rcases h with ⟨_, h, _⟩ | ⟨c, r, h, _⟩
          · simp at hk; omega
          · rw [e1.2] at h; exact absurd h (by simp)
      · simp only [fracLoop, if_neg h0]
        constructor
        · intro h
          injection h with h
          injection h with h1 h2
          injection h2 with h2 h3
          subst h1; subst h2; subst h3
          exact ⟨[], rfl, rfl, rfl, rfl, .inl ⟨rfl, by omega, by omega⟩⟩
        · rintro ⟨ds, e, _, hf, hk, h⟩
          have e1 := List.append_eq_nil_iff.mp e.symm
          rw [e1.1] at hk hf
          rw [hf, hk, e1.2]; rfl
    | c :: rest =>
      by_cases h4 : idx = 4
      · subst h4
        simp only [fracLoop, if_true]
        constructor
        · intro h; exact absurd h (by simp)
        · rintro ⟨ds, e, _, _, hk, h⟩
          match ds, e with
          | [], e =>
            rcases h with ⟨h, _⟩ | ⟨_, _, _, _, h⟩
            · rw [h] at e; exact absurd e (by simp)
            · simp at hk; omega
          | _ :: ds, e =>
            rw [List.length_cons] at hk
            rcases h with ⟨_, _, h⟩ | ⟨_, _, _, _, h⟩ <;> omega
      · by_cases hd : isDigit c = true
        · simp only [fracLoop, if_neg h4, if_pos hd]
          rw [ih (idx + 1) rest _ (by omega) (by omega)]
          constructor
          · rintro ⟨ds, e, h1, h2, h3, h5⟩
            refine ⟨c :: ds, by rw [e]; rfl, ?_, h2, ?_, h5⟩
            · rw [List.all_cons, hd, h1]; rfl
            · rw [List.length_cons]; omega
          · rintro ⟨ds, e, h1, h2, h3, h5⟩
            match ds, e with
            | [], e =>
              exfalso
              rcases h5 with ⟨h, _⟩ | ⟨c', _, h, h6, _⟩
              · rw [h] at e; exact absurd e (by simp)
              · rw [h] at e
                injection e with e _
                subst e
                rcases h6 with rfl | rfl | rfl <;> exact absurd hd (by decide)
            | c' :: ds, e =>
              rw [List.cons_append] at e
              injection e with e1 e2
              subst e1
              simp only [List.all_cons, Bool.and_eq_true] at h1
              rw [List.length_cons] at h3
              exact ⟨ds, e2, h1.2, h2, by omega, h5⟩
        · simp only [fracLoop, if_neg h4, if_neg hd]
          constructor
          · intro h
            split at h
            · rename_i hc
              injection h with h
              injection h with h1 h2
              injection h2 with h2 h3
              subst h1; subst h2; subst h3
              refine ⟨[], rfl, rfl, rfl, rfl, .inr ⟨c, rest, rfl, ?_, by omega⟩⟩
              simpa [or_assoc] using hc
            · exact absurd h (by simp)
          · rintro ⟨ds, e, h1, h2, h3, h5⟩
            match ds, e with
            | [], e =>
              rcases h5 with ⟨h, _⟩ | ⟨c', r, h, h6, _⟩
              · rw [h] at e; exact absurd e (by simp)
              · rw [List.nil_append] at e
                subst e
                injection h with h _
                subst h
                rw [if_pos (by simpa [or_assoc] using h6), h2, h3]; rfl
            | c' :: ds, e =>
              rw [List.cons_append] at e
              injection e with e1 e2
              subst e1
              simp only [List.all_cons, Bool.and_eq_true] at h1
              exact absurd h1.1 hd

/-- Every zone begins with `Z`, `+` or `-`. -/
theorem zoneText_head {z : Bytes} {tz : TimeZone} (h : ZoneText z tz) :
    ∃ c r, z = c :: r ∧ (c = 0x5a ∨ c = 0x2b ∨ c = 0x2d) := by
  cases h with
  | z => exact ⟨0x5a, [], rfl, .inl rfl⟩
  | plus => exact ⟨0x2b, _, rfl, .inr (.inl rfl)⟩
  | minus => exact ⟨0x2d, _, rfl, .inr (.inr rfl)⟩

/-- What follows the fraction is empty or begins like a zone; then the fraction is read so. -/
theorem decodeFraction_ok {rem zone : Bytes} {ms : Option Nat} (hrem : rem ≠ [])
    (hz : zone = [] ∨ ∃ c r, zone = c :: r ∧ (c = 0x5a ∨ c = 0x2b ∨ c = 0x2d)) :
    decodeFraction rem = .ok (ms, zone) ↔ ∃ frac, rem = frac ++ zone ∧ FractionText zone frac ms := by
  match rem, hrem with
  | c :: rem', _ =>
    by_cases hc : c = 0x2e ∨ c = 0x2c
    · have hc' : (c = 0x2e || c = 0x2c : Bool) = true := by simpa using hc
      have hmem : c ∈ ascii ".," := by rcases hc with rfl | rfl <;> decide
      simp only [decodeFraction, if_pos hc']
      constructor
      · intro h
        obtain ⟨⟨f, k, r⟩, g, h⟩ := bind_eq_ok.mp h
        injection h with h
        injection h with h1 h2
        subst h2
        obtain ⟨ds, rfl, h3, h4, h5, h6⟩ := (fracLoop_ok 5 0 _ _ (by omega) (by omega)).mp g
        rw [Nat.zero_add] at h5
        subst h5; subst h4; subst h1
        refine ⟨c :: ds, rfl, .some hmem (digitText_iff.mpr ⟨h3, rfl⟩) ?_ ?_ ?_⟩
        · rcases h6 with ⟨_, _, h⟩ | ⟨_, _, _, _, h⟩ <;> omega
        · intro hl
          rcases h6 with ⟨h, _⟩ | ⟨_, _, _, _, h⟩
          · exact h
          · omega
        · rintro rfl
          rcases h6 with ⟨_, h, _⟩ | ⟨_, _, h, _⟩
          · simp at h
          · rw [h]; simp
      · rintro ⟨frac, e, h⟩
        cases h with
        | none =>
          exfalso
          rcases hz with rfl | ⟨c', r, rfl, h6⟩
          · exact absurd e (by simp)
          · injection e with e _
            subst e
            rcases hc with rfl | rfl <;> revert h6 <;> decide
        | @some sep ds n hs hd hl h4 h0 =>
          rw [List.cons_append] at e
          injection e with e1 e2
          subst e1
          obtain ⟨hd1, rfl⟩ := digitText_iff.mp hd
          have : fracLoop 5 0 rem' 0 = .ok (digitsVal ds 0, ds.length, zone) := by
            refine (fracLoop_ok 5 0 _ _ (by omega) (by omega)).mpr
              ⟨ds, e2, hd1, rfl, (Nat.zero_add _).symm, ?_⟩
            rcases hz with rfl | ⟨c', r, rfl, h6⟩
            · refine .inl ⟨rfl, ?_, hl⟩
              by_cases hds : ds = []
              · exact absurd rfl (h0 hds)
              · exact List.length_pos_iff.mpr hds
            · refine .inr ⟨c', r, rfl, h6, ?_⟩
              by_cases h : ds.length = 4
              · exact absurd (h4 h) (by simp)
              · omega
          rw [this]
          rfl
    · have hc' : (c = 0x2e || c = 0x2c : Bool) = false := by
        simpa using hc
      simp only [decodeFraction, hc', Bool.false_eq_true, if_false]
      constructor
      · intro h
        injection h with h
        injection h with h1 h2
        subst h1; subst h2
        exact ⟨[], rfl, .none⟩
      · rintro ⟨frac, e, h⟩
        cases h with
        | none => rw [List.nil_append] at e; rw [e]
        | @some sep ds n hs hd hl h4 h0 =>
          exfalso
          rw [List.cons_append] at e
          injection e with e1 e2
          subst e1
          apply hc
          simpa [ascii] using hs

/-- Whatever the fraction, what remains is empty or begins like a zone, or the object has no
fraction. -/
theorem decodeFraction_rest {rem zone : Bytes} {ms : Option Nat}
    (h : decodeFraction rem = .ok (ms, zone)) :
    (zone = [] ∨ ∃ c r, zone = c :: r ∧ (c = 0x5a ∨ c = 0x2b ∨ c = 0x2d)) ∨
      (ms = none ∧ zone = rem) := by
  unfold decodeFraction at h
  split at h
  · split at h
    · obtain ⟨⟨f, k, r⟩, g, h⟩ := bind_eq_ok.mp h
      injection h with h
      injection h with h1 h2
      subst h2
      obtain ⟨ds, rfl, h3, h4, h5, h6⟩ := (fracLoop_ok 5 0 _ _ (by omega) (by omega)).mp g
      rcases h6 with ⟨h, _⟩ | ⟨c, r', h, h6, _⟩
      · exact .inl (.inl h)
      · exact .inl (.inr ⟨c, r', h, h6⟩)
    · injection h with h
      injection h with h1 h2
      exact .inr ⟨h1.symm, h2.symm⟩
  · injection h with h
    injection h with h1 h2
    exact .inl (.inl h2.symm)

theorem genRest_ok {y mo d hr mi s : Nat} {rem : Bytes} {t : DateTime} :
    genRest y mo d hr mi s rem = .ok t ↔
      t.year = y ∧ t.month = mo ∧ t.day = d ∧ t.hour = hr ∧ t.minute = mi ∧ t.second = s ∧
      ∃ frac zone, rem = frac ++ zone ∧ FractionText zone frac t.millisecond ∧
        (ZoneText zone t.tz ∨ zone = [] ∧ t.tz = .undefined) := by
  constructor
  · intro h
    unfold genRest at h
    split at h
    · rename_i he
      injection h with h
      subst h; subst he
      exact ⟨rfl, rfl, rfl, rfl, rfl, rfl, [], [], rfl, .none, .inr ⟨rfl, rfl⟩⟩
    · rename_i hne
      obtain ⟨⟨ms, zone⟩, g, h⟩ := bind_eq_ok.mp h
      simp only at h
      split at h
      · rename_i he
        injection h with h
        subst h; subst he
        obtain ⟨frac, h1, h2⟩ := (decodeFraction_ok hne (.inl rfl)).mp g
        exact ⟨rfl, rfl, rfl, rfl, rfl, rfl, frac, [], h1, h2, .inr ⟨rfl, rfl⟩⟩
      · obtain ⟨tz, g2, h⟩ := bind_eq_ok.mp h
        injection h with h
        subst h
        have hz := decodeZone_ok.mp g2
        obtain ⟨frac, h1, h2⟩ := (decodeFraction_ok hne (.inr (zoneText_head hz))).mp g
        exact ⟨rfl, rfl, rfl, rfl, rfl, rfl, frac, zone, h1, h2, .inl hz⟩
  · rintro ⟨rfl, rfl, rfl, rfl, rfl, rfl, frac, zone, hrem, hf, hz⟩
    unfold genRest
    by_cases hne : rem = []
    · rw [if_pos hne]
      rw [hne] at hrem
      have e := List.append_eq_nil_iff.mp hrem.symm
      rcases hz with hz | ⟨rfl, htz⟩
      · exact absurd e.2 (zoneText_ne hz)
      · rw [e.1] at hf
        have : t.millisecond = none := by
          generalize t.millisecond = m at hf
          cases hf; rfl
        rw [← this, ← htz]
    · rw [if_neg hne]
      have hz' : zone = [] ∨ ∃ c r, zone = c :: r ∧ (c = 0x5a ∨ c = 0x2b ∨ c = 0x2d) :=
        hz.elim (fun h => .inr (zoneText_head h)) (fun h => .inl h.1)
      rw [(decodeFraction_ok hne hz').mpr ⟨frac, hrem, hf⟩]
      simp only [bind_ok]
      rcases hz with hz | ⟨rfl, htz⟩
      · rw [if_neg (zoneText_ne hz), decodeZone_ok.mpr hz]; rfl
      · rw [if_pos rfl]
        cases t; simp_all

theorem genTime_ok {y mo d hr mi : Nat} {rem : Bytes} {t : DateTime} :
    genTime y mo d hr mi rem = .ok t ↔
      t.year = y ∧ t.month = mo ∧ t.day = d ∧ t.hour = hr ∧ t.minute = mi ∧ InRange t ∧
      ((rem = ascii "Z" ∧ t.second = 0 ∧ t.millisecond = none ∧ t.tz = .z) ∨
        ∃ frac zone, rem = two t.second ++ frac ++ zone ∧
          FractionText zone frac t.millisecond ∧
          (ZoneText zone t.tz ∨ zone = [] ∧ t.tz = .undefined)) := by
  constructor
  · intro h
    unfold genTime at h
    split at h
    · exact absurd h (by simp)
    · rename_i hne
      obtain ⟨⟨s, rem'⟩, g1, h⟩ := bind_eq_ok.mp h
      simp only at h
      split at h
      · exact absurd h (by simp)
      · rename_i hb
        obtain ⟨rfl, rfl, rfl, rfl, rfl, rfl, frac, zone, h1, h2, h3⟩ := genRest_ok.mp h
        refine ⟨rfl, rfl, rfl, rfl, rfl, badComponents_false.mp (by simpa using hb), ?_⟩
        rcases decodeSeconds_ok.mp g1 with ⟨hl, h0, rfl⟩ | ⟨_, rfl⟩
        · left
          rw [h1] at hl
          rw [List.length_append] at hl
          rcases h3 with hz | ⟨rfl, htz⟩
          · have h4 := List.length_pos_iff.mpr (zoneText_ne hz)
            have h5 : frac = [] := List.length_eq_zero_iff.mp (by omega)
            have := zoneText_short hz (by omega)
            subst h5
            refine ⟨by rw [h1, this.1]; rfl, h0, ?_, this.2⟩
            generalize t.millisecond = m at h2
            cases h2; rfl
          · exfalso
            rw [List.append_nil] at h1
            subst h1
            generalize t.millisecond = m at h2
            cases h2 with
            | none => exact hne rfl
            | @some sep ds n hs hd hl' h4 h0 =>
              cases ds with
              | nil => exact h0 rfl rfl
              | cons => simp at hl
        · exact .inr ⟨frac, zone, by rw [h1, List.append_assoc], h2, h3⟩
  · rintro ⟨rfl, rfl, rfl, rfl, rfl, hr, h⟩
    have hb := badComponents_false.mpr hr
    rcases h with ⟨rfl, hs, hms, htz⟩ | ⟨frac, zone, rfl, hf, hz⟩
    · have : decodeSeconds tagGeneralizedTime (ascii "Z") = .ok (0, ascii "Z") := rfl
      unfold genTime
      rw [if_neg (by decide), this]
      simp only [bind_ok, ← hs, hb, Bool.false_eq_true, if_false]
      exact genRest_ok.mpr ⟨rfl, rfl, rfl, rfl, rfl, rfl, [], ascii "Z", rfl, hms ▸ .none,
        .inl (htz ▸ .z)⟩
    · have hs := hr.second
      have : decodeSeconds tagGeneralizedTime (two t.second ++ (frac ++ zone)) =
          .ok (t.second, frac ++ zone) :=
        decodeSeconds_ok.mpr (.inr ⟨by omega, rfl⟩)
      unfold genTime
      rw [if_neg (by simp [two]), List.append_assoc, this]
      simp only [bind_ok, hb, Bool.false_eq_true, if_false]
      exact genRest_ok.mpr ⟨rfl, rfl, rfl, rfl, rfl, rfl, frac, zone, rfl, hf, hz⟩

theorem genFromBytes_ok {text : Bytes} {t : DateTime} :
    genFromBytes text = .ok t ↔ GenText text t := by
  constructor
  · intro h
    unfold genFromBytes at h
    split at h
    · obtain ⟨yh, g0, h⟩ := bind_eq_ok.mp h
      obtain ⟨yl, g1, h⟩ := bind_eq_ok.mp h
      obtain ⟨mo, g2, h⟩ := bind_eq_ok.mp h
      obtain ⟨d, g3, h⟩ := bind_eq_ok.mp h
      obtain ⟨hr, g4, h⟩ := bind_eq_ok.mp h
      obtain ⟨mi, g5, h⟩ := bind_eq_ok.mp h
      obtain ⟨l0, e0⟩ := decodeDecimal_ok.mp g0
      obtain ⟨l1, e1⟩ := decodeDecimal_ok.mp g1
      obtain ⟨l2, e2⟩ := decodeDecimal_ok.mp g2
      obtain ⟨l3, e3⟩ := decodeDecimal_ok.mp g3
      obtain ⟨l4, e4⟩ := decodeDecimal_ok.mp g4
      obtain ⟨l5, e5⟩ := decodeDecimal_ok.mp g5
      obtain ⟨hy, rfl, rfl, rfl, rfl, hr, h'⟩ := genTime_ok.mp h
      refine ⟨by omega, hr, ?_⟩
      have f1 : t.year / 100 = yh := by omega
      have f2 : t.year % 100 = yl := by omega
      simp only [monthToMinute, four, f1, f2, ← e0, ← e1, ← e2, ← e3, ← e4, ← e5]
      rcases h' with ⟨rfl, h'⟩ | ⟨frac, zone, rfl, h'⟩
      · exact .inl ⟨rfl, h'⟩
      · exact .inr ⟨frac, zone, rfl, h'⟩
    · exact absurd h (by simp)
  · rintro ⟨hy, hr, h⟩
    have key : ∀ tail, genFromBytes (four t.year ++ monthToMinute t ++ tail) =
        genTime t.year t.month t.day t.hour t.minute tail := by
      intro tail
      have h1 := hr.month; have h2 := hr.day; have h3 := hr.hour; have h4 := hr.minute
      show genFromBytes (digit _ :: digit _ :: digit _ :: digit _ :: digit _ :: digit _ ::
        digit _ :: digit _ :: digit _ :: digit _ :: digit _ :: digit _ :: tail) = _
      simp only [genFromBytes]
      rw [decodeDecimal_two _ (by omega), decodeDecimal_two _ (by omega),
        decodeDecimal_two _ (by omega), decodeDecimal_two _ (by omega),
        decodeDecimal_two _ (by omega), decodeDecimal_two _ (by omega)]
      simp only [bind_ok]
      congr 1; omega
    rcases h with ⟨rfl, h⟩ | ⟨frac, zone, rfl, h⟩
    · rw [key]; exact genTime_ok.mpr ⟨rfl, rfl, rfl, rfl, rfl, hr, .inl ⟨rfl, h⟩⟩
    · rw [List.append_assoc _ frac, List.append_assoc _ (two t.second), key]
      exact genTime_ok.mpr ⟨rfl, rfl, rfl, rfl, rfl, hr,
        .inr ⟨frac, zone, by rw [List.append_assoc], h⟩⟩

end Asn1

namespace Asn1
open Spec Wr

/-! ### Visible characters -/

theorem visible_digit {d : Nat} (h : d < 10) : isVisible (digit d) = true := by
  simp [isVisible, digit_val h]; omega

theorem visible_two {n : Nat} (h : n < 100) : (two n).all isVisible = true := by
  simp [two, visible_digit (show n / 10 < 10 by omega), visible_digit (show n % 10 < 10 by omega)]

theorem visible_digits {ds : Bytes} {n : Nat} (h : DigitText ds n) : ds.all isVisible = true := by
  induction h with
  | nil => rfl
  | snoc _ hd ih => simp [visible_digit hd, ih]

theorem visible_zone {z : Bytes} {tz : TimeZone} (h : ZoneText z tz) : z.all isVisible = true := by
  cases h with
  | z => decide
  | plus h1 h2 =>
    rw [List.all_append, List.all_append, visible_two h1, visible_two h2]; decide
  | minus h1 h2 =>
    rw [List.all_append, List.all_append, visible_two h1, visible_two h2]; decide

theorem visible_middle {t : DateTime} (h : InRange t) : (monthToMinute t).all isVisible = true := by
  have := h.month; have := h.day; have := h.hour; have := h.minute
  simp only [monthToMinute, List.all_append, Bool.and_eq_true]
  exact ⟨⟨⟨visible_two (by omega), visible_two (by omega)⟩, visible_two (by omega)⟩,
    visible_two (by omega)⟩

theorem visible_utc {text : Bytes} {t : DateTime} (h : UtcText text t) :
    text.all isVisible = true := by
  have := h.range.second
  rcases h.text with ⟨e, _⟩ | ⟨zone, e, hz⟩
  · rw [e, List.all_append, List.all_append, visible_two h.year, visible_middle h.range]; decide
  · rw [e, List.all_append, List.all_append, List.all_append, visible_two h.year,
      visible_middle h.range, visible_two (by omega), visible_zone hz]; rfl

theorem visible_gen {text : Bytes} {t : DateTime} (h : GenText text t) :
    text.all isVisible = true := by
  have hs := h.range.second
  have hy := h.year
  have hf : (four t.year).all isVisible = true := by
    rw [four, List.all_append, visible_two (by omega), visible_two (by omega)]; rfl
  rcases h.text with ⟨e, _⟩ | ⟨frac, zone, e, hfr, hz⟩
  · rw [e, List.all_append, List.all_append, hf, visible_middle h.range]; decide
  · have h1 : zone.all isVisible = true := by
      rcases hz with hz | ⟨rfl, _⟩
      · exact visible_zone hz
      · rfl
    have h2 : frac.all isVisible = true := by
      generalize t.millisecond = m at hfr
      cases hfr with
      | none => rfl
      | @some sep ds n hsep hd =>
        have : sep = 0x2e ∨ sep = 0x2c := by simpa [ascii] using hsep
        rw [List.all_cons, visible_digits hd]
        rcases this with rfl | rfl <;> decide
    rw [e, List.all_append, List.all_append, List.all_append, List.all_append, hf,
      visible_middle h.range, visible_two (by omega), h1, h2]; rfl

/-! ### Content parsers -/

theorem timeOf_ok {rem data x : Input} {r : Except Error DateTime} {t : DateTime} :
    timeOf rem data r = .ok (x, t) ↔ r = .ok t ∧ x = rem := by
  cases r with
  | ok t' => simp [timeOf, and_comm, eq_comm]
  | error e => simp [timeOf, nomErr]

theorem utcBer_content {h : Header} {i x : Input} {t : DateTime} :
    utcBer.content h i = .ok (x, t) ↔
      h.constructed = false ∧ x = after i i.data.length ∧ UtcText i.data t := by
  show utcBerContent h i = _ ↔ _
  unfold utcBerContent
  rw [Input.len, takeSplit_eq, if_pos (Nat.le_refl _)]
  simp only [bind_ok, first_data, List.take_length]
  cases h.constructed with
  | true => simp [nomErr]
  | false =>
    simp only [Bool.false_eq_true, if_false, true_and]
    constructor
    · intro hh
      split at hh
      · simp [nomErr] at hh
      · obtain ⟨h1, h2⟩ := timeOf_ok.mp hh
        exact ⟨h2, utcFromBytes_ok.mp h1⟩
    · rintro ⟨h1, h2⟩
      rw [if_neg (by simp [visible_utc h2])]
      exact timeOf_ok.mpr ⟨utcFromBytes_ok.mpr h2, h1⟩

theorem utcDer_content {h : Header} {i x : Input} {t : DateTime} :
    utcDer.content h i = .ok (x, t) ↔
      h.constructed = false ∧ x = after i i.data.length ∧ UtcText i.data t := by
  show utcDerContent h i = _ ↔ _
  unfold utcDerContent
  rw [Input.len, takeSplit_eq, if_pos (Nat.le_refl _)]
  simp only [bind_ok, first_data, List.take_length]
  rw [bind_eq_ok]
  constructor
  · rintro ⟨_, h0, hh⟩
    split at hh
    · simp [nomErr] at hh
    · obtain ⟨h1, h2⟩ := timeOf_ok.mp hh
      exact ⟨assertPrimitive_ok.mp h0, h2, utcFromBytes_ok.mp h1⟩
  · rintro ⟨h0, h1, h2⟩
    refine ⟨(), assertPrimitive_ok.mpr h0, ?_⟩
    rw [if_neg (by simp [visible_utc h2])]
    exact timeOf_ok.mpr ⟨utcFromBytes_ok.mpr h2, h1⟩

theorem genBer_content {h : Header} {i x : Input} {t : DateTime} :
    genBer.content h i = .ok (x, t) ↔
      h.constructed = false ∧ x = after i i.data.length ∧ GenText i.data t := by
  show genBerContent h i = _ ↔ _
  unfold genBerContent
  rw [Input.len, takeSplit_eq, if_pos (Nat.le_refl _)]
  simp only [bind_ok, first_data, List.take_length]
  cases h.constructed with
  | true => simp [nomErr]
  | false =>
    simp only [Bool.false_eq_true, if_false, true_and]
    constructor
    · intro hh
      split at hh
      · simp [nomErr] at hh
      · obtain ⟨h1, h2⟩ := timeOf_ok.mp hh
        exact ⟨h2, genFromBytes_ok.mp h1⟩
    · rintro ⟨h1, h2⟩
      rw [if_neg (by simp [visible_gen h2])]
      exact timeOf_ok.mpr ⟨genFromBytes_ok.mpr h2, h1⟩

theorem genDer_content {h : Header} {i x : Input} {t : DateTime} :
    genDer.content h i = .ok (x, t) ↔
      h.constructed = false ∧ x = after i i.data.length ∧ GenText i.data t ∧
        i.data.getLast? = some 0x5a ∧ 0x2c ∉ i.data := by
  show genDerContent h i = _ ↔ _
  unfold genDerContent
  rw [Input.len, takeSplit_eq, if_pos (Nat.le_refl _)]
  simp only [bind_ok, first_data, List.take_length]
  rw [bind_eq_ok]
  constructor
  · rintro ⟨_, h0, hh⟩
    split at hh
    · simp [nomErr] at hh
    · split at hh
      · simp [nomErr] at hh
      · rename_i hl
        split at hh
        · simp [nomErr] at hh
        · rename_i hc
          obtain ⟨h1, h2⟩ := timeOf_ok.mp hh
          exact ⟨assertPrimitive_ok.mp h0, h2, genFromBytes_ok.mp h1, by simpa using hl,
            by simpa using hc⟩
  · rintro ⟨h0, h1, h2, h3, h4⟩
    refine ⟨(), assertPrimitive_ok.mpr h0, ?_⟩
    rw [if_neg (by simp [visible_gen h2]), if_neg (by simp [h3]), if_neg (by simpa using h4)]
    exact timeOf_ok.mpr ⟨genFromBytes_ok.mpr h2, h1⟩

theorem genCheck_ok {a : Any} :
    genCheck a = .ok () ↔ a.data.data.getLast? = some 0x5a ∧ 0x2c ∉ a.data.data := by
  unfold genCheck
  by_cases h : a.data.data.getLast? = some 0x5a
  · rw [if_neg (by simp [h])]
    by_cases hc : 0x2c ∈ a.data.data
    · rw [if_pos (by simpa using hc)]; simp [hc]
    · rw [if_neg (by simpa using hc)]; simp [hc, h]
  · rw [if_pos h]; simp [h]

/-! ### Formatting -/

theorem decimal_lt {v : Nat} (h : v < 10) : decimal v = [digit v] := by
  rw [decimal, if_pos h]; rfl

theorem decimal_ge {v : Nat} (h : 10 ≤ v) : decimal v = decimal (v / 10) ++ [digit (v % 10)] := by
  rw [decimal, if_neg (by omega)]; rfl

theorem decimal_length_le (v k : Nat) : (decimal v).length ≤ k + 1 ↔ v < 10 ^ (k + 1) := by
  induction k generalizing v with
  | zero =>
    by_cases h : v < 10
    · rw [decimal_lt h]; simpa using h
    · rw [decimal_ge (by omega), List.length_append, List.length_singleton]
      have : 0 < (decimal (v / 10)).length := by
        rw [decimal]; split <;> simp
      constructor
      · intro; omega
      · intro; omega
  | succ k ih =>
    by_cases h : v < 10
    · rw [decimal_lt h, List.length_singleton]
      have : (10 : Nat) ^ 1 ≤ 10 ^ (k + 1 + 1) := Nat.pow_le_pow_right (by omega) (by omega)
      constructor <;> intro <;> omega
    · rw [decimal_ge (by omega), List.length_append, List.length_singleton]
      have := ih (v / 10)
      rw [Nat.pow_succ]
      constructor
      · intro h1
        have := this.mp (by omega); omega
      · intro h1
        have := this.mpr (by omega); omega

theorem digitText_decimal (v : Nat) : DigitText (decimal v) v := by
  induction v using Nat.strongRecOn with
  | ind v ih =>
    by_cases h : v < 10
    · rw [decimal_lt h]
      have := DigitText.snoc .nil h
      simpa using this
    · rw [decimal_ge (by omega)]
      have := DigitText.snoc (ih (v / 10) (by omega)) (show v % 10 < 10 by omega)
      have e : 10 * (v / 10) + v % 10 = v := by omega
      rwa [e] at this

theorem pad_flatten (n v : Nat) : (padPieces n v).flatten =
    List.replicate (n - (decimal v).length) 0x30 ++ decimal v := by
  have : ∀ k : Nat, (List.replicate k [(0x30 : UInt8)]).flatten = List.replicate k 0x30 := by
    intro k
    induction k with
    | zero => rfl
    | succ k ih => rw [List.replicate_succ, List.flatten_cons, ih]; rfl
  rw [padPieces, List.flatten_append, this]; simp

theorem pad_length (n v : Nat) : (padPieces n v).flatten.length = max n (decimal v).length := by
  rw [pad_flatten, List.length_append, List.length_replicate]; omega

theorem pad_two {v : Nat} (h : v < 100) : (padPieces 2 v).flatten = two v := by
  rw [pad_flatten]
  by_cases h1 : v < 10
  · rw [decimal_lt h1]
    have e1 : v / 10 = 0 := by omega
    have e2 : v % 10 = v := by omega
    simp only [two, e1, e2]; rfl
  · rw [decimal_ge (by omega), decimal_lt (by omega)]
    rfl

theorem pad_four {v : Nat} (h : v < 10000) : (padPieces 4 v).flatten = four v := by
  rw [pad_flatten]
  have e : four v = [digit (v / 1000), digit (v / 100 % 10), digit (v / 10 % 10), digit (v % 10)] := by
    have e1 : v / 100 / 10 = v / 1000 := by omega
    have e2 : v % 100 / 10 = v / 10 % 10 := by omega
    have e3 : v % 100 % 10 = v % 10 := by omega
    simp only [four, two, e1, e2, e3]; rfl
  rw [e]
  by_cases h1 : v < 10
  · rw [decimal_lt h1]
    have e1 : v / 1000 = 0 := by omega
    have e2 : v / 100 % 10 = 0 := by omega
    have e3 : v / 10 % 10 = 0 := by omega
    have e4 : v % 10 = v := by omega
    rw [e1, e2, e3, e4]; rfl
  · by_cases h2 : v < 100
    · rw [decimal_ge (by omega), decimal_lt (by omega)]
      have e1 : v / 1000 = 0 := by omega
      have e2 : v / 100 % 10 = 0 := by omega
      have e3 : v / 10 % 10 = v / 10 := by omega
      rw [e1, e2, e3]; rfl
    · by_cases h3 : v < 1000
      · rw [decimal_ge (by omega), decimal_ge (by omega), decimal_lt (by omega)]
        have e1 : v / 1000 = 0 := by omega
        have e2 : v / 100 % 10 = v / 100 := by omega
        have e3 : v / 10 / 10 = v / 100 := by omega
        rw [e1, e2, e3]; rfl
      · rw [decimal_ge (by omega), decimal_ge (by omega), decimal_ge (by omega),
          decimal_lt (by omega)]
        have e3 : v / 10 / 10 = v / 100 := by omega
        have e4 : v / 100 / 10 = v / 1000 := by omega
        rw [e3, e4]; rfl

theorem writes_pieces (ps : List Bytes) : Writes (writePieces ps) ps.flatten () := by
  induction ps with
  | nil => exact writes_pure ()
  | cons p ps ih =>
    exact ((writes_writeAll p).bind (f := fun _ => writePieces ps) ih).congr
      (by rw [List.flatten_cons]) rfl

theorem strict_pieces (ps : List Bytes) : Strict (writePieces ps) := by
  induction ps with
  | nil => exact strict_pure ()
  | cons p ps ih => exact (strict_writeAll p).bind fun _ => ih

/-- The content written for a UTCTime. -/
def utcContentOf (t : DateTime) : Bytes :=
  two t.year ++ monthToMinute t ++ two t.second ++ ascii "Z"

theorem utcPieces_flatten {t : DateTime} (h : TwoDigits t) :
    (utcPieces t).flatten = utcContentOf t := by
  obtain ⟨h1, h2, h3, h4, h5, h6⟩ := h
  simp only [utcPieces, List.flatten_append, pad_two h1, pad_two h2, pad_two h3, pad_two h4,
    pad_two h5, pad_two h6]
  simp [utcContentOf, monthToMinute, ascii]

theorem utc_encodes {t : DateTime} (h : TwoDigits t) : Encodes utcToBer t (utcContentOf t) :=
  ⟨((writes_pieces (utcPieces t)).bind (f := fun _ => (pure 13 : Wr Nat)) (writes_pure _)).congr
    (by rw [utcPieces_flatten h, List.append_nil]) rfl, rfl, (by decide : tagUtcTime < 2 ^ 32), rfl⟩

/-- The content written for a GeneralizedTime. -/
def genContentOf (t : DateTime) : Bytes :=
  four t.year ++ monthToMinute t ++ two t.second ++ fractional t.millisecond ++ ascii "Z"

theorem genPieces_flatten {t : DateTime} (h : FourDigits t) :
    (genPieces t).flatten = genContentOf t := by
  obtain ⟨h1, h2, h3, h4, h5, h6⟩ := h
  simp only [genPieces, List.flatten_append, pad_four h1, pad_two h2, pad_two h3, pad_two h4,
    pad_two h5, pad_two h6]
  simp [genContentOf, monthToMinute, ascii]

theorem genLen_eq (t : DateTime) : genLen t = 15 + (fractional t.millisecond).length := by
  unfold genLen
  cases t.millisecond with
  | none => rfl
  | some v => simp [fractional]; omega

theorem genContentOf_length (t : DateTime) : (genContentOf t).length = genLen t := by
  rw [genLen_eq]
  simp [genContentOf, four, two, monthToMinute, ascii]
  omega

theorem gen_encodes {t : DateTime} (h : FourDigits t) : Encodes genToBer t (genContentOf t) := by
  refine ⟨((writes_pieces (genPieces t)).bind
    (f := fun _ => (pure (15 + (fractional t.millisecond).length) : Wr Nat)) (writes_pure _)).congr
    (by rw [genPieces_flatten h, List.append_nil]) ?_, ?_, (by decide : tagGeneralizedTime < 2 ^ 32),
    rfl⟩
  · rw [genContentOf_length, genLen_eq]
  · show Length.definite (genLen t) = _
    rw [genContentOf_length]

end Asn1

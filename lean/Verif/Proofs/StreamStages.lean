import Verif.Proofs.Stream
import Verif.Proofs.Local
import Verif.Model.Derive
import Verif.Props.Incomplete
/-!
# What the parsing functions say about a part of a stream
-/
namespace Asn1
open Spec

variable {α : Type}

/-- The function that takes the content of an object. -/
def Rules.cont : Rules → Header → Input → PRes Input
  | .ber, h, i => berContent h i MAX_RECURSION
  | .der, h, i => derContent h i

theorem any_staged (m : Rules) (i : Input) : m.any i = m.header i >>= fun x =>
    m.cont x.2 x.1 >>= fun y => .ok (y.1, ⟨x.2, y.2⟩) := by
  cases m
  · rfl
  · exact parseDerAny_eq i

theorem parse_staged (m : Rules) (p : Parser α) (i : Input) : m.parse p i = m.header i >>= fun x =>
    if !p.acceptTag x.2.tag then nomErr i (.unexpectedTag none x.2.tag)
    else m.cont x.2 x.1 >>= fun y => p.content x.2 y.2 >>= fun z => .ok (y.1, z.2) := by
  cases m
  · rfl
  · show p.parseDer i = _
    unfold Parser.parseDer
    refine bind_congr_ok fun x hx => ?_
    obtain ⟨r, h⟩ := x
    have hx : parseHeaderDer i = .ok (r, h) := hx
    obtain ⟨_, hd⟩ := parseHeaderDer_ok.mp hx
    cases hL : h.length with
    | indefinite => rw [hL] at hd; simp [Length.isDefinite] at hd
    | definite n =>
      simp only [definiteInner, hL, Rules.cont, derContent]
      rfl

theorem good_header (m : Rules) : Good m.header := by
  cases m
  · exact good_parseHeader
  · exact good_parseHeaderDer

theorem firm_header (m : Rules) : Firm PartOfTag m.header := by
  cases m
  · exact firm_parseHeader
  · exact firm_parseHeaderDer

theorem good_cont (m : Rules) (h : Header) : Good (m.cont h) := by
  cases m
  · exact good_berContent h MAX_RECURSION
  · exact good_derContent h

theorem header_of {m : Rules} {i r : Input} {h : Header} (hp : m.header i = .ok (r, h)) :
    parseHeader i = .ok (r, h) := by
  cases m
  · exact hp
  · exact (parseHeaderDer_ok.mp hp).1

theorem cutInTag_part {m : Rules} {x : Bytes} (h : PartOfTag x) : CutInTag m x := by
  cases m
  · exact ⟨0, h⟩
  · exact h

/-- Errors in the content of an object. -/
theorem firm_cont {m : Rules} {i r : Input} {h : Header} (hp : m.header i = .ok (r, h)) {j : Input}
    {e : InnerError} (hc : m.cont h r = .error (.error j e)) :
    (e = .invalidTag ∧ CutInTag m i.data) ∨ ∀ y, ∃ j', m.cont h (extend r y) = .error (.error j' e) := by
  cases m
  · rcases firm_berContent h MAX_RECURSION _ _ _ hc with ⟨g1, g2, g3, d, items, rest, g4, g5, g6⟩ | g
    · obtain ⟨id, len, q1, q2, q3, q4, q5, q6⟩ := parseHeader_ok.mp hp
      refine .inl ⟨g1, d + 1, .inr ⟨h.cls, h.tag, id, len, items, rest, g3 ▸ q1, ?_, g4, g5, ?_⟩⟩
      · rw [g2, g3] at q2; exact q2
      · rw [q3, g6]; simp
    · exact .inr g
  · rcases firm_derContent (fun _ => False) h _ _ _ hc with g | g
    · exact g.2.elim
    · exact .inr g

theorem good_any (m : Rules) : Good m.any := by
  cases m
  · exact good_parseBerAny
  · exact good_parseDerAny

theorem input_rebase_zero (x : Input) : x.rebase 0 0 = x := by
  simp [Input.rebase]

theorem any_rebase_zero (a : Any) : a.rebase 0 0 = a := by
  obtain ⟨⟨c, b, t, l, rt, rh⟩, d⟩ := a
  cases rh <;> simp [Any.rebase, input_rebase_zero]

/-- The generic parser looks at nothing behind the object. -/
theorem any_exact {m : Rules} {bs : Bytes} {r : Input} {a : Any}
    (h : m.any (Input.fromSlice bs) = .ok (r, a)) :
    ∃ e, 2 ≤ e.length ∧ bs = e ++ r.data ∧
      ∀ y, m.any (Input.fromSlice (e ++ y)) = .ok (after (Input.fromSlice (e ++ y)) e.length, a) := by
  cases m
  · obtain ⟨e, h1, h2, h3, h4⟩ := parseBerAny_local h
    refine ⟨e, h1, h2, fun y => ?_⟩
    have := h4 (Input.fromSlice (e ++ y)) y rfl
    rw [show (Input.fromSlice bs).start = 0 from rfl, show (Input.fromSlice (e ++ y)).start = 0 from rfl,
      any_rebase_zero] at this
    exact this
  · obtain ⟨e, h1, h2, h3, h4⟩ := parseDerAny_local h
    refine ⟨e, h1, h2, fun y => ?_⟩
    have := h4 (Input.fromSlice (e ++ y)) y rfl
    rw [show (Input.fromSlice bs).start = 0 from rfl, show (Input.fromSlice (e ++ y)).start = 0 from rfl,
      any_rebase_zero] at this
    exact this

theorem after_whole (e y : Bytes) : (after (Input.fromSlice (e ++ y)) e.length).data = y := by
  simp [after, Input.fromSlice]

/-- Some bytes contain a complete object, or not yet, or can be told to be wrong. -/
theorem parse_cases (m : Rules) (p : Parser α) (bs : Bytes) :
    (∃ e r a, 2 ≤ e.length ∧ bs = e ++ r ∧
      (∀ y, m.any (Input.fromSlice (e ++ y)) = .ok (after (Input.fromSlice (e ++ y)) e.length, a)) ∧
      ∀ y, m.parse p (Input.fromSlice (e ++ y)) = (p.content a.header a.data >>= fun z =>
        .ok (after (Input.fromSlice (e ++ y)) e.length, z.2))) ∨
    (∃ n, m.any (Input.fromSlice bs) = .error (.incomplete n) ∧
      m.parse p (Input.fromSlice bs) = .error (.incomplete n)) ∨
    (∃ j e, m.parse p (Input.fromSlice bs) = .error (.error j e) ∧
      ((e = .invalidTag ∧ CutInTag m bs) ∨
        ∀ y, ∃ j', m.parse p (Input.fromSlice (bs ++ y)) = .error (.error j' e))) := by
  have ext : ∀ y, Input.fromSlice (bs ++ y) = extend (Input.fromSlice bs) y := fun y => by
    simp [Input.fromSlice, extend]
  cases hh : m.header (Input.fromSlice bs) with
  | error err =>
    cases err with
    | panic => exact absurd hh ((good_header m).noPanic _)
    | diverge => exact absurd hh ((good_header m).noDiverge _)
    | incomplete n =>
      refine .inr (.inl ⟨n, ?_, ?_⟩)
      · rw [any_staged, hh]; rfl
      · rw [parse_staged, hh]; rfl
    | error j e =>
      refine .inr (.inr ⟨j, e, ?_, ?_⟩)
      · rw [parse_staged, hh]; rfl
      · rcases firm_header m _ _ _ hh with ⟨g1, g2⟩ | g
        · exact .inl ⟨g1, cutInTag_part g2⟩
        · refine .inr fun y => ?_
          obtain ⟨j', g⟩ := g y
          exact ⟨j', by rw [parse_staged, ext, g]; rfl⟩
  | ok x =>
    obtain ⟨r1, hd⟩ := x
    have hext := fun y => (good_header m).ext _ _ _ y hh
    cases ha : p.acceptTag hd.tag with
    | false =>
      refine .inr (.inr ⟨Input.fromSlice bs, .unexpectedTag none hd.tag, ?_, .inr fun y =>
        ⟨Input.fromSlice (bs ++ y), ?_⟩⟩)
      · rw [parse_staged, hh]; simp only [bind_ok, ha]; rfl
      · rw [parse_staged, ext, hext]; simp only [bind_ok, ha]; rfl
    | true =>
      cases hc : m.cont hd r1 with
      | error err =>
        cases err with
        | panic => exact absurd hc ((good_cont m hd).noPanic _)
        | diverge => exact absurd hc ((good_cont m hd).noDiverge _)
        | incomplete n =>
          refine .inr (.inl ⟨n, ?_, ?_⟩)
          · rw [any_staged, hh]; simp only [bind_ok, hc]; rfl
          · rw [parse_staged, hh]; simp only [bind_ok, ha, hc]; rfl
        | error j e =>
          refine .inr (.inr ⟨j, e, ?_, ?_⟩)
          · rw [parse_staged, hh]; simp only [bind_ok, ha, hc]; rfl
          · rcases firm_cont hh hc with g | g
            · exact .inl g
            · refine .inr fun y => ?_
              obtain ⟨j', g⟩ := g y
              exact ⟨j', by rw [parse_staged, ext, hext]; simp only [bind_ok, ha, g]; rfl⟩
      | ok x2 =>
        obtain ⟨r2, d⟩ := x2
        have hany : m.any (Input.fromSlice bs) = .ok (r2, ⟨hd, d⟩) := by
          rw [any_staged, hh]; simp only [bind_ok, hc]
        obtain ⟨e, h1, h2, h3⟩ := any_exact hany
        refine .inl ⟨e, r2.data, ⟨hd, d⟩, h1, h2, h3, fun y => ?_⟩
        have h4 := h3 y
        rw [any_staged] at h4
        obtain ⟨⟨s1, hd'⟩, g1, h4⟩ := bind_eq_ok.mp h4
        obtain ⟨⟨s2, d'⟩, g2, h4⟩ := bind_eq_ok.mp h4
        simp only [Except.ok.injEq, Prod.mk.injEq, Any.mk.injEq] at h4
        obtain ⟨h5, rfl, rfl⟩ := h4
        rw [parse_staged, g1]
        simp only [bind_ok, ha, Bool.not_true, Bool.false_eq_true, if_false]
        rw [g2]
        simp only [bind_ok, h5]

end Asn1

import Verif.Props.ContainersAgree
import Verif.Props.Incomplete
/-!
# Containers: panics and loops (C61), failing writers (C50), `Incomplete` (C64), iterators (C37)
-/
namespace Asn1
open Spec

variable {α σ : Type}

/-! ### Panics and loops -/

theorem safe_tryParseCollect {parse : Input → PRes Any} (hp : ObjParser parse) {p : Parser α}
    (hs : p.Safe) (i : Input) : NoPanic ((AnyIter.new i).tryParseCollect parse p) := by
  unfold AnyIter.tryParseCollect AnyIter.new
  refine NoPanic.bind (forIter_safe hp ?_ (by simp [Input.len])) fun _ _ => noPanic_ok _
  intro s a
  unfold parseCollectStep
  split
  · exact noPanic_nomErr _ _
  · have := hs a.header a.data
    split
    · exact noPanic_ok _
    · rename_i h; rw [h] at this; simpa [NoPanic] using this

theorem safe_vec {parse : Input → PRes Any} (hp : ObjParser parse) {p : Parser α} (hs : p.Safe) :
    (vecP parse p).Safe := by
  intro h i
  refine NoPanic.bind (noPanic_assertConstructed h i) fun _ _ => ?_
  split
  · exact noPanic_ok _
  · exact safe_tryParseCollect hp hs i

theorem safe_setItems {parse : Input → PRes Any} (hp : ObjParser parse) {p : Parser α}
    (hs : p.Safe) : (setItemsP parse p).Safe := fun h i =>
  NoPanic.bind (noPanic_assertConstructed h i) fun _ _ => safe_tryParseCollect hp hs i

theorem safe_array {N : Nat} {parse : Input → PRes Any} (hp : ObjParser parse) {p : Parser α}
    (hs : p.Safe) : (arrayP N parse p).Safe := fun h i =>
  NoPanic.bind (safe_vec hp hs h i) fun x _ => by
    simp only
    split
    · exact noPanic_ok _
    · exact noPanic_nomErr _ _

/-- Every component parser always returns. -/
inductive SafeAll : {Ts : List Type} → TupFns Ts → Prop
  | nil : SafeAll .nil
  | cons {T : Type} {Ts : List Type} {f : Input → PRes T} {fs : TupFns Ts} (h : ∀ i, NoPanic (f i))
      (ht : SafeAll fs) : SafeAll (.cons f fs)

theorem safe_run {Ts : List Type} {fs : TupFns Ts} (h : SafeAll fs) (i : Input) :
    NoPanic (fs.run i) := by
  induction h generalizing i with
  | nil => exact noPanic_ok _
  | cons h _ ih =>
    exact NoPanic.bind (h i) fun x _ => NoPanic.bind (ih x.1) fun _ _ => noPanic_ok _

/-- A decoder on bytes that consumes something of what it accepts. -/
def Consumes (g : Bytes → Except SErr (Bytes × α)) : Prop :=
  ∀ b r v, g b = .ok (r, v) → r.length < b.length

theorem noPanicS_collect {g : Bytes → Except SErr (Bytes × α)} (hg : ∀ b, NoPanicS (g b))
    (hc : Consumes g) {fuel : Nat} {b : Bytes} {e : Bool} (hf : b.length < fuel) :
    NoPanicS (SeqIter.collect g fuel ⟨b, e⟩) := by
  induction fuel generalizing b e with
  | zero => omega
  | succ fuel ih =>
    unfold SeqIter.collect
    by_cases he : (e || b.isEmpty) = true
    · have hn : SeqIter.next g ⟨b, e⟩ = .ok (none, ⟨b, e⟩) := by
        unfold SeqIter.next; rw [if_pos he]
      rw [hn]; exact noPanicS_ok _
    · have hgb := hg b
      cases hb : g b with
      | ok x =>
        obtain ⟨r, v⟩ := x
        have hn : SeqIter.next g ⟨b, e⟩ = .ok (some (.ok v), ⟨r, e⟩) := by
          unfold SeqIter.next; rw [if_neg he]; simp only [hb]
        have := hc _ _ _ hb
        rw [hn]; simp only
        have hi := ih (b := r) (e := e) (by omega)
        cases hh : SeqIter.collect g fuel ⟨r, e⟩ with
        | ok vs => exact noPanicS_ok _
        | error e' => rw [hh] at hi; simpa [NoPanicS] using hi
      | error e' =>
        rw [hb] at hgb
        cases e' with
        | panic => simp [NoPanicS] at hgb
        | diverge => simp [NoPanicS] at hgb
        | error e' =>
          have hn : SeqIter.next g ⟨b, e⟩ = .ok (some (.error e'), ⟨b, true⟩) := by
            unfold SeqIter.next; rw [if_neg he]; simp only [hb]
          rw [hn]; exact noPanicS_error _
        | incomplete n =>
          have hn : SeqIter.next g ⟨b, e⟩ =
              .ok (some (.error (.incomplete (.size n))), ⟨b, true⟩) := by
            unfold SeqIter.next; rw [if_neg he]; simp only [hb]
          rw [hn]; exact noPanicS_error _

theorem noPanicS_collectItems {g : Bytes → Except SErr (Bytes × α)} (hg : ∀ b, NoPanicS (g b))
    (hc : Consumes g) (b : Bytes) : NoPanicS (collectItems g b) :=
  noPanicS_collect hg hc (by omega)

theorem consumes_any {f : Input → PRes Any}
    (hf : ∀ i r a, f i = .ok (r, a) → ∃ e, 2 ≤ e.length ∧ i.data = e ++ r.data)
    {bytes : Bytes} {r : Input} {a : Any} (h : f (Input.fromSlice bytes) = .ok (r, a)) :
    r.data.length < bytes.length := by
  obtain ⟨e, h1, h2⟩ := hf _ _ _ h
  have h2 : bytes = e ++ r.data := h2
  rw [h2, List.length_append]; omega

theorem consumes_berAny {bytes : Bytes} {r : Input} {a : Any}
    (h : parseBerAny (Input.fromSlice bytes) = .ok (r, a)) : r.data.length < bytes.length :=
  consumes_any (fun i r a h => by obtain ⟨e, h1, h2, _⟩ := parseBerAny_local h; exact ⟨e, h1, h2⟩) h

theorem consumes_derAny {bytes : Bytes} {r : Input} {a : Any}
    (h : parseDerAny (Input.fromSlice bytes) = .ok (r, a)) : r.data.length < bytes.length :=
  consumes_any (fun i r a h => by obtain ⟨e, h1, h2, _⟩ := parseDerAny_local h; exact ⟨e, h1, h2⟩) h

theorem noPanicS_seqTryFrom {tag : Nat} {g : Bytes → Except SErr (Bytes × α)}
    (hg : ∀ b, NoPanicS (g b)) (hc : Consumes g) (a : Any) : NoPanicS (seqTryFrom tag g a) :=
  NoPanicS.bind (noPanicS_assertTag _ _) fun _ => NoPanicS.bind (noPanicS_assertConstructed _)
    fun _ => noPanicS_collectItems hg hc _

/-- **C61** Containers add no panic and no endless loop: if the decoders of the items always return
(and, for those on bytes, consume what they accept), so do the decoders of `Vec`, `SetOf`, set
collections, arrays and tuples. -/
theorem C61_containers_no_panic :
    (∀ p : Parser α, (∀ h i, NoPanic (p.content h i)) → ∀ i,
      NoPanic ((vecBer p).parseBer i) ∧ NoPanic ((vecDer p).parseDer i) ∧
      NoPanic ((setItemsP anyBer.parseBer p).parseBer i) ∧
      NoPanic ((setItemsP anyDer.parseDer p).parseDer i) ∧
      (∀ S : SetImpl α σ, NoPanic ((setP S anyBer.parseBer p).parseBer i) ∧
        NoPanic ((setP S anyDer.parseDer p).parseDer i)) ∧
      ∀ N, NoPanic ((arrayP N anyBer.parseBer p).parseBer i) ∧
        NoPanic ((arrayP N anyDer.parseDer p).parseDer i)) ∧
    (∀ (Ts : List Type) (fs : TupFns Ts), SafeAll fs → ∀ i,
      NoPanic ((tupleP fs).parseBer i) ∧ NoPanic ((tupleP fs).parseDer i)) ∧
    (∀ g : Bytes → Except SErr (Bytes × α), (∀ b, NoPanicS (g b)) → Consumes g → ∀ tag bytes,
      NoPanicS (fromBerWith (seqTryFrom tag g) bytes) ∧ NoPanicS (seqFromDer tag g bytes) ∧
      ∀ S : SetImpl α σ, NoPanicS (fromBerWith (setTryFrom S g) bytes) ∧
        NoPanicS (setFromDer S g bytes)) ∧
    (∀ g : Bytes → Except SErr (Bytes × α), ∀ tag, Consumes (fromBerWith (seqTryFrom tag g)) ∧
      Consumes (seqFromDer tag g)) ∧
    (∀ p : Parser α, Consumes (fromBer p) ∧ ∀ check, Consumes (fromDer p check)) := by
  refine ⟨fun p hp i => ?_, fun Ts fs hfs i => ?_, fun g hg hc tag bytes => ?_, fun g tag => ?_,
    fun p => ⟨?_, fun check => ?_⟩⟩
  · have hp : p.Safe := hp
    exact ⟨safe_parseBer (safe_vec objParser_ber hp) i, safe_parseDer (safe_vec objParser_der hp) i,
      safe_parseBer (safe_setItems objParser_ber hp) i,
      safe_parseDer (safe_setItems objParser_der hp) i,
      fun S => ⟨safe_parseBer (safe_map (safe_setItems objParser_ber hp)) i,
        safe_parseDer (safe_map (safe_setItems objParser_der hp)) i⟩,
      fun N => ⟨safe_parseBer (safe_array objParser_ber hp) i,
        safe_parseDer (safe_array objParser_der hp) i⟩⟩
  · have : (tupleP fs).Safe := fun _ i => safe_run hfs i
    exact ⟨safe_parseBer this i, safe_parseDer this i⟩
  · have hi := noPanicS_collectItems hg hc
    refine ⟨?_, ?_, fun S => ⟨?_, ?_⟩⟩
    · exact NoPanicS.bind (noPanicS_wrapBer bytes) fun _ =>
        NoPanicS.bind (noPanicS_seqTryFrom hg hc _) fun _ => noPanicS_ok _
    · exact NoPanicS.bind (noPanicS_wrapDer bytes) fun _ =>
        NoPanicS.bind (noPanicS_assertTag _ _) fun _ => NoPanicS.bind (hi _) fun _ => noPanicS_ok _
    · exact NoPanicS.bind (noPanicS_wrapBer bytes) fun _ =>
        NoPanicS.bind (NoPanicS.bind (noPanicS_assertTag _ _) fun _ =>
          NoPanicS.bind (noPanicS_assertConstructed _) fun _ => NoPanicS.bind (hi _) fun _ =>
            noPanicS_ok _) fun _ => noPanicS_ok _
    · exact NoPanicS.bind (noPanicS_wrapDer bytes) fun _ =>
        NoPanicS.bind (noPanicS_assertTag _ _) fun _ =>
        NoPanicS.bind (noPanicS_assertConstructed _) fun _ => NoPanicS.bind (hi _) fun _ =>
          noPanicS_ok _
  · constructor
    · intro b r v h
      obtain ⟨r', a, h1, rfl, _⟩ := fromBerWith_ok.mp h
      exact consumes_berAny h1
    · intro b r v h
      obtain ⟨r', a, h1, rfl, _⟩ := seqFromDer_ok.mp h
      exact consumes_derAny h1
  · intro b r v h
    obtain ⟨r', a, _, h1, rfl, _⟩ := fromBer_ok.mp h
    exact consumes_berAny h1
  · intro b r v h
    obtain ⟨r', a, _, h1, rfl, _⟩ := fromDer_ok.mp h
    exact consumes_derAny h1

/-- **C61** Deviation: for `T = Option<U>`, whose `from_ber` and `from_der` answer `None` without
consuming anything when the tag is another one, the iterator used by `Vec<Option<U>>::from_ber`
answers `None` for ever on the content `05 00`, and the collection never ends. -/
theorem C61_option_items_loop :
    (∀ n, seqCalls (optionFrom (uintBer 4).acceptTag parseHeader (fromBer (uintBer 4))) n
      (SeqIter.new [0x05, 0x00]) = .ok (List.replicate n (some (.ok none)))) ∧
    (∀ fuel, SeqIter.collect (optionFrom (uintBer 4).acceptTag parseHeader (fromBer (uintBer 4)))
      fuel (SeqIter.new [0x05, 0x00]) = .error .diverge) ∧
    fromBerWith (seqTryFrom 16 (optionFrom (uintBer 4).acceptTag parseHeader (fromBer (uintBer 4))))
      [0x30, 0x02, 0x05, 0x00] = .error .diverge := by
  have hn : SeqIter.next (optionFrom (uintBer 4).acceptTag parseHeader (fromBer (uintBer 4)))
      (SeqIter.new [0x05, 0x00]) = .ok (some (.ok none), SeqIter.new [0x05, 0x00]) := by
    decide +kernel
  refine ⟨fun n => ?_, fun fuel => ?_, by decide +kernel⟩
  · induction n with
    | zero => rfl
    | succ n ih => unfold seqCalls; rw [hn]; simp only [ih]; rfl
  · induction fuel with
    | zero => rfl
    | succ n ih => unfold SeqIter.collect; rw [hn]; simp only [ih]

/-- Cases: the decoders of `u32` meet the hypotheses. -/
example : (∀ h i, NoPanic ((uintBer 4).content h i)) ∧ (∀ b, NoPanicS (fromBer (uintBer 4) b)) ∧
    Consumes (fromBer (uintBer 4)) :=
  ⟨(safe_uint 4).1, safe_fromBer (safe_uint 4).1,
    ((C61_containers_no_panic (α := Nat) (σ := Unit)).2.2.2.2 _).1⟩

/-! ### Failing writers -/

theorem tolerant_writeItems {t : ToBer α} {vs : List α} (h : ∀ v ∈ vs, Tolerant (t.encode v))
    (acc : Nat) : Tolerant (t.writeItems vs acc) := by
  induction vs generalizing acc with
  | nil => exact tolerant_pure _
  | cons v vs ih =>
    exact tolerant_bind (h v (by simp)) fun n => ih (fun w hw => h w (by simp [hw])) _

/-- **C50** A failing writer never goes unnoticed when writing a list, a set, an array, an
indefinite-length list, a raw SEQUENCE or SET, if it does not when writing each item. -/
theorem C50_containers_failing_writer (t : ToBer α) :
    (∀ (vs : List α) (tag : Nat), (∀ v ∈ vs, FaultTolerant t v) →
      FaultTolerant (listToBer tag t) vs ∧ FaultTolerant (indefToBer t) vs) ∧
    (∀ (N : Nat) (vs : Arr α N), (∀ v ∈ vs.val, FaultTolerant t v) →
      FaultTolerant (arrayToBer N t) vs) ∧
    (∀ (S : SetImpl α σ) (s : σ), (∀ v ∈ S.toList s, FaultTolerant t v) →
      FaultTolerant (setToBer S t) s) ∧
    (∀ tag s, FaultTolerant (rawToBer tag) s) := by
  refine ⟨fun vs tag h => ⟨tolerant_encode ?_, tolerant_encode ?_⟩,
    fun N vs h => tolerant_encode ?_, fun S s h => tolerant_encode ?_,
    fun tag s => tolerant_encode ?_⟩
  · exact tolerant_writeItems h 0
  · exact tolerant_bind (tolerant_writeItems h 0) fun n =>
      tolerant_bind (tolerant_writeAll _) fun _ => tolerant_pure _
  · exact tolerant_writeItems h 0
  · exact tolerant_writeItems h 0
  · exact tolerant_bind (tolerant_writeAll _) fun _ => tolerant_pure _

/-! ### Incomplete -/

theorem settled_collect {g : Bytes → Except SErr (Bytes × α)} {fuel : Nat} {it : SeqIter} :
    Settled (SeqIter.collect g fuel it) := by
  induction fuel generalizing it with
  | zero => simp [SeqIter.collect, Settled]
  | succ fuel ih =>
    unfold SeqIter.collect
    cases hn : it.next g with
    | error e =>
      unfold SeqIter.next at hn
      split at hn
      · simp at hn
      · split at hn <;> simp at hn <;> subst hn <;> simp [Settled]
    | ok x =>
      obtain ⟨o, it'⟩ := x
      cases o with
      | none => exact settled_ok _
      | some y =>
        cases y with
        | error e => exact settled_error _
        | ok v =>
          simp only
          have := ih (it := it')
          cases hh : SeqIter.collect g fuel it' with
          | ok vs => exact settled_ok _
          | error e => rw [hh] at this; simpa [Settled] using this

/-- **C64** For the containers, on bytes: `Incomplete` tells about the outermost object only, even
if the item decoder answers `Incomplete` for a truncated item. -/
theorem C64_containers_incomplete (tag : Nat) (g : Bytes → Except SErr (Bytes × α))
    (bytes : Bytes) (n : Nat) :
    (fromBerWith (seqTryFrom tag g) bytes = .error (.incomplete n) ↔
      parseBerAny (Input.fromSlice bytes) = .error (.incomplete n)) ∧
    (seqFromDer tag g bytes = .error (.incomplete n) ↔
      parseDerAny (Input.fromSlice bytes) = .error (.incomplete n)) ∧
    ∀ S : SetImpl α σ,
      (fromBerWith (setTryFrom S g) bytes = .error (.incomplete n) ↔
        parseBerAny (Input.fromSlice bytes) = .error (.incomplete n)) ∧
      (setFromDer S g bytes = .error (.incomplete n) ↔
        parseDerAny (Input.fromSlice bytes) = .error (.incomplete n)) := by
  have hcol : ∀ b, Settled (collectItems g b) := fun b => settled_collect
  refine ⟨?_, ?_, fun S => ⟨?_, ?_⟩⟩
  · exact wrap_bind parseBerAny bytes _ (fun x => settled_bind (settled_bind (settled_assertTag _ _)
      fun _ => settled_bind (settled_assertConstructed _) fun _ => hcol _) fun _ => settled_ok _) n
  · exact wrap_bind parseDerAny bytes _ (fun x => settled_bind (settled_assertTag _ _)
      fun _ => settled_bind (hcol _) fun _ => settled_ok _) n
  · exact wrap_bind parseBerAny bytes _ (fun x => settled_bind (settled_bind (settled_assertTag _ _)
      fun _ => settled_bind (settled_assertConstructed _) fun _ => settled_bind (hcol _)
        fun _ => settled_ok _) fun _ => settled_ok _) n
  · exact wrap_bind parseDerAny bytes _ (fun x => settled_bind (settled_assertTag _ _)
      fun _ => settled_bind (settled_assertConstructed _) fun _ => settled_bind (hcol _)
        fun _ => settled_ok _) n

/-- A case: a truncated INTEGER in a complete SEQUENCE is an error, a truncated SEQUENCE is
`Incomplete`. -/
example :
    seqFromDer 16 (fromDer (uintBer 4) checkDerInt) [0x30, 0x02, 0x02, 0x01] =
      .error (.error (.incomplete (.size 1))) ∧
    seqFromDer 16 (fromDer (uintBer 4) checkDerInt) [0x30, 0x03, 0x02, 0x01] =
      .error (.incomplete 1) := by decide +kernel

/-! ### The typed iterators -/

theorem seqCalls_stopped (g : Bytes → Except SErr (Bytes × α)) (it : SeqIter)
    (h : (it.hasError || it.data.isEmpty) = true) (n : Nat) :
    seqCalls g n it = .ok (List.replicate n none) := by
  have hn : it.next g = .ok (none, it) := by unfold SeqIter.next; rw [if_pos h]
  induction n with
  | zero => rfl
  | succ n ih => unfold seqCalls; rw [hn]; simp only [ih]; rfl

/-- **C37** `SequenceIterator` (and the iterators that `SequenceOf`, `SetOf` and `Sequence` give out)
on content `b` answers the items of `b` in order; if one item does not decode, it answers that error
once; then it answers `None` for ever. This covers every content and every number of calls, if the
decoder of the items always returns and consumes what it accepts. -/
theorem C37_typed_iterator (g : Bytes → Except SErr (Bytes × α)) (hg : ∀ b, NoPanicS (g b))
    (hc : Consumes g) (b : Bytes) :
    ∃ vs out, ItemsOf g b vs out ∧ ∀ n, seqCalls g n (SeqIter.new b) =
      .ok ((vs.map (fun v => some (Except.ok v)) ++ (out.map fun e => some (Except.error e)).toList ++
        List.replicate n none).take n) := by
  have key : ∀ k b, b.length < k → ∃ vs out, ItemsOf g b vs out ∧
      ∀ n, seqCalls g n ⟨b, false⟩ = .ok ((vs.map (fun v => some (Except.ok v)) ++
        (out.map fun e => some (Except.error e)).toList ++ List.replicate n none).take n) := by
    intro k
    induction k with
    | zero => intro b h; omega
    | succ k ih =>
      intro b hk
      by_cases hb : b = []
      · subst hb
        exact ⟨[], none, .done, fun n => by simp [seqCalls_stopped]⟩
      · have hne : ¬ ((false || b.isEmpty) = true) := by simpa using hb
        have hgb := hg b
        cases hx : g b with
        | ok x =>
          obtain ⟨r, v⟩ := x
          have := hc _ _ _ hx
          obtain ⟨vs, out, h1, h2⟩ := ih r (by omega)
          refine ⟨v :: vs, out, .cons hb hx h1, fun n => ?_⟩
          cases n with
          | zero => rfl
          | succ n =>
            have hn : SeqIter.next g ⟨b, false⟩ = .ok (some (.ok v), ⟨r, false⟩) := by
              unfold SeqIter.next; rw [if_neg hne]; simp only [hx]
            unfold seqCalls
            rw [hn]
            simp only [h2 n]
            congr 1
            rw [List.map_cons, List.cons_append, List.cons_append, List.take_succ_cons]
            congr 1
            rw [List.replicate_succ', ← List.append_assoc]
            exact (List.take_append_of_le_length (by
              rw [List.length_append, List.length_replicate]; omega)).symm
        | error e =>
          rw [hx] at hgb
          have stop : ∀ e', SeqIter.next g ⟨b, false⟩ = .ok (some (.error e'), ⟨b, true⟩) →
              ∀ n, seqCalls g n ⟨b, false⟩ = .ok (([] ++ [some (Except.error e')] ++
                List.replicate n none).take n : List (Option (Except Error α))) := by
            intro e' hn n
            cases n with
            | zero => rfl
            | succ n =>
              unfold seqCalls
              rw [hn]
              simp only [seqCalls_stopped g ⟨b, true⟩ rfl n]
              simp [List.take_replicate]
          cases e with
          | panic => simp [NoPanicS] at hgb
          | diverge => simp [NoPanicS] at hgb
          | error e =>
            exact ⟨[], some e, .fail hb hx, stop e (by
              unfold SeqIter.next; rw [if_neg hne]; simp only [hx])⟩
          | incomplete m =>
            exact ⟨[], some _, .cut hb hx, stop (.incomplete (.size m)) (by
              unfold SeqIter.next; rw [if_neg hne]; simp only [hx])⟩
  exact key (b.length + 1) b (by omega)

/-- Cases: two items and then the end; one item and then an error. -/
example :
    ItemsOf (fromDer (uintBer 1) checkDerInt) [2, 1, 7, 2, 1, 9] [7, 9] none ∧
    ItemsOf (fromDer (uintBer 1) checkDerInt) [2, 1, 7, 4, 1, 0, 2, 1, 9] [7]
      (some (.unexpectedTag none 4)) ∧
    seqCalls (fromDer (uintBer 1) checkDerInt) 4 (SeqIter.new [2, 1, 7, 4, 1, 0, 2, 1, 9]) =
      .ok [some (.ok 7), some (.error (.unexpectedTag none 4)), none, none] :=
  ⟨.cons (r := [2, 1, 9]) (by simp) (by decide +kernel)
      (.cons (r := []) (by simp) (by decide +kernel) .done),
    .cons (r := [4, 1, 0, 2, 1, 9]) (by simp) (by decide +kernel)
      (.fail (by simp) (by decide +kernel)), by decide +kernel⟩

/-- **C37** `try_collect`-like methods of the containers succeed exactly when the iterator ends
without an error, with the items it answered; otherwise they return its error. -/
theorem C37_typed_collect (g : Bytes → Except SErr (Bytes × α)) (hc : Consumes g) {b : Bytes}
    {vs : List α} {out : Option Error} (h : ItemsOf g b vs out) :
    (out = none → collectItems g b = .ok vs) ∧
    ∀ e, out = some e → collectItems g b = .error (.error e) := by
  have key : ∀ fuel, b.length < fuel →
      (out = none → SeqIter.collect g fuel ⟨b, false⟩ = .ok vs) ∧
      ∀ e, out = some e → SeqIter.collect g fuel ⟨b, false⟩ = .error (.error e) := by
    induction h with
    | done =>
      intro fuel hf
      obtain ⟨fuel, rfl⟩ : ∃ k, fuel = k + 1 := ⟨fuel - 1, by simp at hf; omega⟩
      refine ⟨fun _ => ?_, fun e he => by simp at he⟩
      unfold SeqIter.collect
      rw [seqNext_nil]
    | fail hb hx =>
      rename_i b e
      intro fuel hf
      obtain ⟨fuel, rfl⟩ : ∃ k, fuel = k + 1 := ⟨fuel - 1, by omega⟩
      refine ⟨fun h => by simp at h, fun e' he => ?_⟩
      injection he with he
      subst he
      have hn : SeqIter.next g ⟨b, false⟩ = .ok (some (.error e), ⟨b, true⟩) := by
        unfold SeqIter.next; rw [if_neg (by simpa using hb)]; simp only [hx]
      unfold SeqIter.collect
      rw [hn]
    | cut hb hx =>
      rename_i b m
      intro fuel hf
      obtain ⟨fuel, rfl⟩ : ∃ k, fuel = k + 1 := ⟨fuel - 1, by omega⟩
      refine ⟨fun h => by simp at h, fun e' he => ?_⟩
      injection he with he
      subst he
      have hn : SeqIter.next g ⟨b, false⟩ =
          .ok (some (.error (.incomplete (.size m))), ⟨b, true⟩) := by
        unfold SeqIter.next; rw [if_neg (by simpa using hb)]; simp only [hx]
      unfold SeqIter.collect
      rw [hn]
    | cons hb hx _ ih =>
      intro fuel hf
      obtain ⟨fuel, rfl⟩ : ∃ k, fuel = k + 1 := ⟨fuel - 1, by omega⟩
      have := hc _ _ _ hx
      obtain ⟨i1, i2⟩ := ih fuel (by omega)
      unfold SeqIter.collect
      rw [seqNext_ok hb hx]
      exact ⟨fun h => by simp only [i1 h], fun e h => by simp only [i2 e h]⟩
  exact key _ (by omega)

/-- A case: the items of a list, collected by the byte-slice API. -/
example : collectItems (fromBer (uintBer 1)) [2, 1, 5, 2, 1, 7] = .ok [5, 7] := by decide +kernel

/-- **C37** The typed iterator on `Input` answers, call after call, what the content decoder makes of
the objects that the generic iterator answers (see `C37_iterators` for these). -/
theorem C37_input_iterator (parse : Input → PRes Any) (p : Parser α)
    (hp : ∀ h i, NoPanic (p.content h i)) (n : Nat) (it : AnyIter) (l : List (Option IterItem))
    (h : calls parse n it = .ok l) :
    ∃ l', typedCalls parse p n it = .ok l' ∧ Pointwise (TypedAnswer p) l l' := by
  induction n generalizing it l with
  | zero => injection h with h; subst h; exact ⟨[], rfl, .nil⟩
  | succ n ih =>
    unfold calls at h
    cases hn : it.next parse with
    | error e => simp [hn] at h
    | ok x =>
      obtain ⟨x, it'⟩ := x
      simp only [hn] at h
      cases hc : calls parse n it' with
      | error e => simp [hc] at h
      | ok l1 =>
        simp only [hc] at h
        injection h with h; subst h
        obtain ⟨l', h1, h2⟩ := ih it' l1 hc
        have key : ∃ y, seqIterInputNext parse p it = .ok (y, it') ∧ TypedAnswer p x y := by
          unfold seqIterInputNext
          rw [hn]
          cases x with
          | none => exact ⟨none, rfl, .done⟩
          | some x =>
            cases x with
            | err i e => exact ⟨_, rfl, .err⟩
            | obj s a =>
              have hpa := hp a.header a.data
              simp only
              cases hx : p.content a.header a.data with
              | ok y => exact ⟨_, rfl, .value hx⟩
              | error e =>
                rw [hx] at hpa
                cases e with
                | error i e => exact ⟨_, rfl, .bad hx⟩
                | incomplete n => exact ⟨_, rfl, .cut hx⟩
                | panic => simp [NoPanic] at hpa
                | diverge => simp [NoPanic] at hpa
        obtain ⟨y, h3, h4⟩ := key
        refine ⟨y :: l', ?_, .cons h4 h2⟩
        unfold typedCalls
        rw [h3]
        simp only [h1]

/-- A case. -/
example : typedCalls anyBer.parseBer (uintBer 4) 3
    (AnyIter.new (Input.fromSlice [2, 1, 7, 2, 1, 9])) = .ok [some (.ok 7), some (.ok 9), none] ∧
    (calls anyBer.parseBer 3 (AnyIter.new (Input.fromSlice [2, 1, 7, 2, 1, 9]))).isOk = true := by
  decide +kernel

/-- **C37** Deviation: the iterator on `Input` of a SEQUENCE OF BOOLEAN takes items of any tag
(here an OCTET STRING `04 01 ff` is taken for `true`), and goes on after an item whose content is
wrong, while the iterator on bytes refuses the first and stops at the second. -/
theorem C37_input_iterator_deviation :
    (∃ it, seqIterInputNext anyBer.parseBer boolBer (AnyIter.new (Input.fromSlice [4, 1, 0xff]))
      = .ok (some (.ok true), it)) ∧
    seqCalls (fromBer boolBer) 2 (SeqIter.new [4, 1, 0xff]) =
      .ok [some (.error (.unexpectedTag none 4)), none] ∧
    (∃ e it it', seqIterInputNext anyBer.parseBer boolBer
        (AnyIter.new (Input.fromSlice [1, 2, 0, 0, 1, 1, 0xff])) = .ok (some (.error e), it) ∧
      seqIterInputNext anyBer.parseBer boolBer it = .ok (some (.ok true), it')) := by
  refine ⟨?_, by decide +kernel, ?_⟩
  · exact ⟨_, rfl⟩
  · exact ⟨_, _, _, rfl, rfl⟩

end Asn1

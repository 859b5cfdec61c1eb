import Verif.Proofs.Float32
import Verif.Spec.Encodable
import Verif.Props.ContainersSafe
import Verif.Props.RealAgree
import Verif.Props.RealSafe
import Verif.Props.RealRound
import Verif.Props.CharStringsAgree
/-!
# Every built encoder stops at the first error of the writer, and does not panic
-/
namespace Asn1
open Spec Wr

variable {α β : Type} {safe : Bool}

/-- As `Strict`; moreover, if `safe`, no panic. -/
inductive Neat (safe : Bool) : Wr α → Prop where
  | done (a : α) : Neat safe (.done a)
  | fail (e : SerErr) (h : safe = true → e ≠ .panic) : Neat safe (.fail e)
  | write (bs : Bytes) (k : Except SerErr Unit → Wr α) (hok : Neat safe (k (.ok ())))
      (herr : ∀ e, k (.error e) = .fail e) : Neat safe (.write bs k)

theorem Neat.strict {x : Wr α} (h : Neat safe x) : Strict x := by
  induction h with
  | done a => exact .done a
  | fail e _ => exact .fail e
  | write bs k _ herr ih => exact .write bs k ih herr

theorem neat_of {x : Wr α} (h : Strict x) (hp : safe = true → (exec x).2 ≠ .error .panic) : Neat safe x := by
  induction h with
  | done a => exact .done a
  | fail e => exact .fail e fun hs he => hp hs (by rw [he]; rfl)
  | write bs k _ herr ih => exact .write bs k (ih fun hs => hp hs) herr

theorem Neat.bind {x : Wr α} {f : α → Wr β} (hx : Neat safe x) (hf : ∀ a, Neat safe (f a)) :
    Neat safe (x >>= f) := by
  show Neat safe (Wr.bind x f)
  induction hx with
  | done a => exact hf a
  | fail e h => exact .fail e h
  | write bs k _ herr ih => exact .write _ _ ih (fun e => by simp [herr, Wr.bind])

theorem Neat.noPanic {x : Wr α} (h : Neat true x) (w : Writer) (hist : List Bytes) :
    (runFaulty w x hist).2 ≠ .error .panic := by
  induction h generalizing hist with
  | done a => simp [runFaulty]
  | fail e h => simpa [runFaulty] using h rfl
  | write bs k _ herr ih =>
    simp only [runFaulty]
    cases w hist bs with
    | none => exact ih _
    | some n => simp [herr, runFaulty]

theorem Neat.exec {x : Wr α} (h : Neat true x) : (exec x).2 ≠ .error .panic := by
  induction h with
  | done a => simp [Wr.exec]
  | fail e h => simpa [Wr.exec] using h rfl
  | write bs k _ herr ih => exact ih

theorem neat_pure (a : α) : Neat safe (pure a : Wr α) := .done a
theorem neat_writeAll (bs : Bytes) : Neat safe (writeAll bs) := .write _ _ (.done ()) (fun _ => rfl)

theorem neat_write (bs : Bytes) (n : Nat) :
    Neat safe (do writeAll bs; pure n : Wr Nat) := (neat_writeAll bs).bind fun _ => neat_pure n

theorem neat_pieces (ps : List Bytes) : Neat safe (writePieces ps) := by
  induction ps with
  | nil => exact neat_pure ()
  | cons p ps ih => exact (neat_writeAll p).bind fun _ => ih

theorem tagBuf_noPanic (idx val : Nat) (buf : Bytes) : tagBuf (idx + 1) val buf ≠ .error .panic := by
  induction idx generalizing val buf with
  | zero => unfold tagBuf; split <;> simp
  | succ idx ih =>
    unfold tagBuf
    split
    · rw [if_neg (by omega)]; exact ih _ _
    · simp

theorem neat_writeTag (c : Class) (p : Bool) (t : Nat) : Neat safe (writeTagGeneric c p t) := by
  unfold writeTagGeneric
  simp only
  split
  · exact neat_write _ _
  · refine (neat_writeAll _).bind fun _ => ?_
    split
    · rename_i e he
      exact .fail _ fun _ h => tagBuf_noPanic 6 _ _ (h ▸ he)
    · exact neat_write _ _

theorem neat_writeLength {l : Length} (h : safe = true → UsizeLen l) : Neat safe (writeLength l) :=
  neat_of (strict_writeLength l) fun hs => by
    have := (writeLength_spec l (h hs)).1
    unfold Writes at this
    rw [this]; simp

theorem neat_writeHeader {t : ToBer α} {v : α} (h : safe = true → UsizeLen (t.contentLen v)) :
    Neat safe (t.writeHeader v) := by
  unfold ToBer.writeHeader
  simp only [writeTagInfo_eq]
  exact (neat_writeTag _ _ _).bind fun _ => (neat_writeLength h).bind fun _ => neat_pure _

/-- What is carried through the type constructors. -/
structure Orderly (safe : Bool) (t : ToBer α) (v : α) : Prop where
  content : Neat safe (t.writeContent v)
  len : safe = true → UsizeLen (t.contentLen v)

theorem Orderly.encode {t : ToBer α} {v : α} (h : Orderly safe t v) : Neat safe (t.encode v) :=
  (neat_writeHeader h.len).bind fun _ => h.content.bind fun _ => neat_pure _

theorem Orderly.explicit {t : ToBer α} {v : α} (h : Orderly safe t v)
    (hu : safe = true → UsizeLen (t.totalLen v)) (cls : Class) (tag : Nat) :
    Neat safe (t.encodeTaggedExplicit cls tag v) := by
  unfold ToBer.encodeTaggedExplicit
  refine (neat_writeHeader (t := headerToBer) ?_).bind fun _ => (neat_writeHeader h.len).bind fun _ =>
    h.content.bind fun _ => neat_pure _
  exact hu

theorem Orderly.implicit {t : ToBer α} {v : α} (h : Orderly safe t v) (cls : Class) (tag : Nat) :
    Neat safe (t.encodeTaggedImplicit cls tag v) := by
  unfold ToBer.encodeTaggedImplicit
  refine (neat_writeHeader (t := headerToBer) ?_).bind fun _ => h.content.bind fun _ => neat_pure _
  exact h.len

theorem neat_items {t : ToBer α} {vs : List α} (h : ∀ v ∈ vs, Orderly safe t v) (n : Nat) :
    Neat safe (t.writeItems vs n) := by
  induction vs generalizing n with
  | nil => exact neat_pure _
  | cons v vs ih =>
    exact (h v (List.mem_cons_self ..)).encode.bind fun _ => ih (fun x hx => h x (List.mem_cons_of_mem _ hx)) _

theorem neat_bytes {o : Option Bytes} (h : safe = true → o ≠ none) : Neat safe (writeBytes o) := by
  cases o with
  | none => exact .fail _ fun hs => absurd rfl (h hs)
  | some b => exact neat_write _ _

theorem fromConstArray_some {b : Bytes} (h : b ≠ []) : Integer.fromConstArray b ≠ none := by
  unfold Integer.fromConstArray
  rw [if_neg h]
  split <;> simp

theorem toBE_ne {N v : Nat} (h : 1 ≤ N) : toBE N v ≠ [] := by
  intro he
  have := congrArg List.length he
  simp at this
  omega

theorem fromUint_some {N v : Nat} (h : 1 ≤ N) : (Integer.fromUint N v).map (·.data) ≠ none := by
  rw [ne_eq, Option.map_eq_none_iff]
  exact fromConstArray_some (toBE_ne h)

theorem fromInt_some {N : Nat} {v : Int} (h : 1 ≤ N) : (Integer.fromInt N v).map (·.data) ≠ none := by
  rw [ne_eq, Option.map_eq_none_iff]
  unfold Integer.fromInt
  split
  · exact fromConstArray_some (toBE_ne h)
  · unfold Integer.fromConstArrayNegative
    rw [if_neg (show ¬ toBEInt N v = [] from toBE_ne h)]; simp

theorem neat_universal {c : Codec α} (h : UniversalType c) (v : α) : Neat safe (c.enc.writeContent v) := by
  cases h with
  | uint N hN => exact neat_bytes fun _ => fromUint_some hN.1
  | int N hN => exact neat_bytes fun _ => fromInt_some hN.1
  | integer => exact neat_bytes (o := some v.data) fun _ => by simp
  | bool => exact neat_write _ _
  | null => exact neat_pure _
  | enumerated => exact neat_bytes fun _ => fromUint_some (by decide)
  | octetString => exact neat_write _ _
  | bitString => exact (neat_writeAll _).bind fun _ => neat_write _ _
  | oid => exact neat_write _ _
  | utcTime => exact (neat_pieces _).bind fun _ => neat_pure _
  | generalizedTime => exact (neat_pieces _).bind fun _ => neat_pure _
  | text _ => exact neat_write _ _
  | refStr => exact neat_write _ _
  | string => exact neat_write _ _
  | bmpString => exact neat_write _ _
  | universalString => exact (neat_pieces _).bind fun _ => neat_pure _

theorem neat_real (lib : FloatLib) {r : Real} (h : safe = true → CalmReal r) : Neat safe (realWrite lib r) := by
  refine neat_of (real_strict lib r) fun hs => ?_
  cases h hs with
  | value hv =>
    obtain ⟨cs, he, _⟩ := real_value lib hv
    have := he.content
    unfold Writes at this
    rw [show (realWrite lib r).exec = _ from this]; simp
  | @other m base e b hb =>
    unfold realWrite
    simp only
    split
    · exact (neat_write (safe := true) _ _).exec
    · simp [Wr.exec]

theorem neat_f64 (lib : FloatLib) {f : F64} (h : safe = true → F64Valid f) :
    Neat safe ((f64ToBer lib).writeContent f) := by
  show Neat safe (match Real.new f with | some r => realWrite lib r | none => Wr.fail .panic)
  cases hr : Real.new f with
  | none =>
    refine .fail _ fun hs => ?_
    obtain ⟨r, h1⟩ := realNew_some (h hs)
    rw [h1] at hr; simp at hr
  | some r =>
    refine neat_real lib fun _ => ?_
    unfold Real.new at hr
    split at hr
    · injection hr with hr; subst hr
      split
      · exact .value .negInfinity
      · exact .value .infinity
    · injection hr with hr; subst hr; exact .value .nan
    · split at hr
      · injection hr with hr; subst hr; exact .value .zero
      · split at hr
        · simp at hr
        · split at hr
          · simp at hr
          · injection hr with hr; subst hr; exact .other (by decide)

theorem usizeLen_lenBytes_u32 (v : Nat) : UsizeLen (lenBytes ((Integer.fromUint 4 v).map (·.data))) := by
  intro n hn
  unfold lenBytes at hn
  injection hn with hn
  have e64 : (2 : Nat) ^ 64 = 18446744073709551616 := by decide
  have : ∀ b : Bytes, (dropZeros b).length ≤ b.length := by
    intro b
    induction b with
    | nil => simp [dropZeros]
    | cons a b ih =>
      cases b with
      | nil => simp [dropZeros]
      | cons c b => unfold dropZeros; split <;> simp_all; omega
  unfold Integer.fromUint Integer.fromConstArray at hn
  split at hn
  · simp at hn; omega
  · split at hn
    · simp at hn; omega
    · simp only [Option.map_some, Option.getD_some] at hn
      have := this (toBE 4 v)
      simp at this
      omega

theorem usizeLen_of_total {t : ToBer α} {v : α} (h : UsizeLen (t.totalLen v)) : UsizeLen (t.contentLen v) := by
  intro n hn
  unfold ToBer.totalLen berTotalLength at h
  rw [hn] at h
  have := h _ rfl
  omega

theorem orderly_encodable {t : ToBer α} {v : α} (h : Encodable safe t v) : Orderly safe t v := by
  have u1 : UsizeLen (.definite 1) := fun n hn => by
    injection hn with hn
    have e64 : (2 : Nat) ^ 64 = 18446744073709551616 := by decide
    omega
  refine Encodable.rec (safe := safe)
    (motive_1 := fun {_} t v _ => Orderly safe t v)
    (motive_2 := fun {_} es vs _ => ∀ n, Neat safe (es.write vs n))
    (motive_3 := fun k {_} es x _ => Neat safe (es.write k x) ∧ (safe = true → UsizeLen (es.len k x)))
    ?_ ?_ ?_ ?_ ?_ ?_ ?_ ?_ ?_ ?_ ?_ ?_ ?_ ?_ ?_ ?_ ?_ ?_ ?_ ?_ ?_ ?_ ?_ ?_ ?_ h
  · intro _ c h v hu; exact ⟨neat_universal h v, hu⟩
  · intro v; exact ⟨neat_write _ _, fun _ => u1⟩
  · intro v; exact ⟨neat_write _ _, fun _ => u1⟩
  · intro lib r h hu; exact ⟨neat_real lib h, hu⟩
  · intro lib f h hu; exact ⟨neat_f64 lib h, hu⟩
  · intro lib f h hu; exact ⟨neat_f64 lib fun hs => F64.f32_f64 (h hs), hu⟩
  · intro a hu; exact ⟨neat_write _ _, hu⟩
  · intro a hu; exact ⟨neat_pure _, hu⟩
  · intro _ t tag vs _ hu ih; exact ⟨neat_items ih _, hu⟩
  · intro _ t vs _ ih
    exact ⟨(neat_items ih _).bind fun _ => neat_write _ _, fun _ n hn => by simp [indefToBer] at hn⟩
  · intro _ _ t S s _ hu ih; exact ⟨neat_items ih _, hu⟩
  · intro _ t N vs _ hu ih; exact ⟨neat_items ih _, hu⟩
  · intro tag s hu; exact ⟨neat_write _ _, hu⟩
  · intro _ t v cls tag dyn _ hu ih; exact ⟨ih.encode, hu⟩
  · intro _ t v cls tag dyn _ ih; exact ⟨ih.content, ih.len⟩
  · intro _ t v hd _ hu ih; exact ⟨ih.encode, hu⟩
  · intro _ t v hd _ ih; exact ⟨ih.content, ih.len⟩
  · intro _ es vs tag _ hu ih; exact ⟨ih 0, hu⟩
  · intro _ es x k _ ih; exact ⟨ih.1, ih.2⟩
  · intro ds k
    exact ⟨neat_bytes fun _ => fromUint_some (by decide), fun _ => usizeLen_lenBytes_u32 _⟩
  · intro _ t v _ ih; exact ⟨ih.content, ih.len⟩
  · intro n; exact neat_pure _
  · intro _ _ t v es vs tag _ hu _ ih iht n
    refine Neat.bind ?_ fun _ => iht _
    cases tag with
    | untagged => exact ih.encode
    | explicit cls n => exact ih.explicit hu cls n
    | implicit cls n => exact ih.implicit cls n
  · intro k _ _ t v n dyn es _ hu ih
    cases k with
    | explicit => exact ⟨ih.encode, hu⟩
    | implicit => exact ⟨ih.content, ih.len⟩
    | untagged => exact ⟨ih.content, ih.len⟩
  · intro k _ _ t es x n dyn _ ih
    exact ih

end Asn1

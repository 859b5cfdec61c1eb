import Verif.Props.ContainersAgree
import Verif.Props.Incomplete
/-!
# Character strings: agreement of the decoders, dependence on the bytes, `Incomplete` (C38, C64, C65)
-/
namespace Asn1
open Spec

theorem strong_primitive {p q : Parser α} (hp : p.Strong)
    (hq : ∀ h i, q.content h i = (do h.assertPrimitive i; p.content h i)) : q.Strong := by
  intro h h' i j hh hd
  rw [hq, hq]
  exact sim_bind (sim_assertPrimitive hh) fun _ _ _ => hp h h' i j hh hd

theorem strong_str (k : StrKind) : (strBer k).Strong ∧ (strDer k).Strong := by
  have hb : (strBer k).Strong := by
    intro h h' i j hh hd
    refine sim_bind (strong_octet.1 h h' i j hh hd) fun a b hab => ?_
    obtain ⟨a1, a2⟩ := a
    obtain ⟨b1, b2⟩ := b
    obtain ⟨h1, h2⟩ := hab
    simp only at h1 h2
    subst h2
    show Sim SameR (strOfBytes k a1 a2) (strOfBytes k b1 a2)
    unfold strOfBytes
    split
    · exact sim_nomErr
    · split
      · exact sim_ok ⟨h1, rfl⟩
      · exact sim_nomErr
  exact ⟨hb, strong_primitive hb fun _ _ => rfl⟩

theorem sim_utf8Whole {i j : Input} (hd : i.data = j.data) :
    Sim SameR (utf8Whole i) (utf8Whole j) := by
  unfold utf8Whole
  simp only [Input.len, hd]
  refine sim_bind (sim_takeSplit hd _) fun a b hab => ?_
  obtain ⟨a1, a2⟩ := a
  obtain ⟨b1, b2⟩ := b
  obtain ⟨h1, h2⟩ := hab
  simp only at h1 h2 ⊢
  rw [h2]
  split
  · exact sim_ok ⟨h1, rfl⟩
  · exact sim_nomErr

theorem strong_refStr : refStrBer.Strong ∧ refStrDer.Strong := by
  refine ⟨fun h h' i j hh hd => ?_, fun h h' i j hh hd => ?_⟩
  · show Sim SameR (if _ then _ else _) (if _ then _ else _)
    simp only [hh.2.1]
    exact sim_ite sim_nomErr (sim_utf8Whole hd)
  · exact sim_bind (sim_assertPrimitive hh) fun _ _ _ => sim_utf8Whole hd

theorem strong_string : stringBer.Strong := (strong_str utf8StringK).1

theorem sim_wideBytes {h h' : Header} {i j : Input} (hh : SameHdr h h') (hd : i.data = j.data) :
    Sim SameR (wideBytes h i) (wideBytes h' j) := by
  unfold wideBytes
  rw [hh.2.1]
  refine sim_ite ?_ ?_
  · exact sim_octetLeaf (h := h) (h' := h') hd
  · exact sim_parseSegmented (fun _ _ _ _ _ hd => sim_octetLeaf hd) _ hh hd

theorem strong_wide {p : Parser Text} {f : Input → Bytes → PRes Text}
    (hp : ∀ h i, p.content h i = (wideBytes h i >>= fun x => f x.1 x.2))
    (hf : ∀ r r' bs, r.data = r'.data → Sim SameR (f r bs) (f r' bs)) : p.Strong := by
  intro h h' i j hh hd
  rw [hp, hp]
  refine sim_bind (sim_wideBytes hh hd) fun a b hab => ?_
  rw [hab.2]
  exact hf _ _ _ hab.1

theorem strong_bmp : bmpBer.Strong ∧ bmpDer.Strong := by
  have hb : bmpBer.Strong := strong_wide (f := bmpOfBytes) (fun _ _ => rfl) fun r r' bs h => by
    unfold bmpOfBytes
    split
    · exact sim_ok ⟨h, rfl⟩
    · exact sim_nomErr
  exact ⟨hb, strong_primitive hb fun _ _ => rfl⟩

theorem strong_univ : univBer.Strong ∧ univDer.Strong := by
  have hb : univBer.Strong := strong_wide (f := univOfBytes) (fun _ _ => rfl) fun r r' bs h => by
    unfold univOfBytes
    refine sim_ite sim_nomErr ?_
    split
    · exact sim_err
    · exact sim_nomErr
    · exact sim_ok ⟨h, rfl⟩
  exact ⟨hb, strong_primitive hb fun _ _ => rfl⟩

/-- **C38** The decoders of strings agree at every position. -/
theorem C38_string_same :
    (∀ {k tag A}, StringType k tag A → SameDecoder (strBer k).parseBer (fromBer (strBer k)) ∧
      SameDecoder (strDer k).parseDer (fromDer (strBer k) strCheck)) ∧
    SameDecoder refStrBer.parseBer (fromBer refStrBer) ∧
    SameDecoder refStrDer.parseDer (fromDer refStrBer strCheck) ∧
    SameDecoder stringBer.parseBer (fromBer stringBer) ∧
    SameDecoder refStrDer.parseDer (fromDer stringBer strCheck) ∧
    SameDecoder bmpBer.parseBer (fromBer bmpBer) ∧
    SameDecoder bmpDer.parseDer (fromDer bmpBer strCheck) ∧
    SameDecoder univBer.parseBer (fromBer univBer) ∧
    SameDecoder univDer.parseDer (fromDer univBer strCheck) :=
  ⟨fun {k _ _} hk => ⟨sameDecoder_ber (strong_str k).1.loc, sameDecoder_der (strong_str k).2.loc
      fun bs rem v => (C38_string_apis_agree bs rem v).1 _ _ _ hk⟩,
   sameDecoder_ber strong_refStr.1.loc,
   sameDecoder_der strong_refStr.2.loc fun bs rem v => (C38_string_apis_agree bs rem v).2.1,
   sameDecoder_ber strong_string.loc,
   sameDecoder_der strong_refStr.2.loc fun bs rem v => (C38_string_apis_agree bs rem v).2.2.1,
   sameDecoder_ber strong_bmp.1.loc,
   sameDecoder_der strong_bmp.2.loc fun bs rem v => (C38_string_apis_agree bs rem v).2.2.2.1,
   sameDecoder_ber strong_univ.1.loc,
   sameDecoder_der strong_univ.2.loc fun bs rem v => (C38_string_apis_agree bs rem v).2.2.2.2⟩

/-- **C65** What the parsers of strings return depends only on the bytes consumed. -/
theorem C65_string_only_consumed_bytes :
    (∀ k, OnlyBytes (strBer k).parseBer ∧ OnlyBytes (strDer k).parseDer) ∧
    OnlyBytes refStrBer.parseBer ∧ OnlyBytes refStrDer.parseDer ∧ OnlyBytes stringBer.parseBer ∧
    OnlyBytes bmpBer.parseBer ∧ OnlyBytes bmpDer.parseDer ∧
    OnlyBytes univBer.parseBer ∧ OnlyBytes univDer.parseDer :=
  ⟨fun k => ⟨onlyBytes_ber (strong_str k).1.loc, onlyBytes_der (strong_str k).2.loc⟩,
   onlyBytes_ber strong_refStr.1.loc, onlyBytes_der strong_refStr.2.loc,
   onlyBytes_ber strong_string.loc, onlyBytes_ber strong_bmp.1.loc, onlyBytes_der strong_bmp.2.loc,
   onlyBytes_ber strong_univ.1.loc, onlyBytes_der strong_univ.2.loc⟩

/-- **C64** The DER constraints of strings never answer `Incomplete`. -/
theorem C64_string_checks_settled (a : Any) : Settled (strCheck a) := by
  unfold strCheck assertPrimitiveS
  split
  · exact settled_error _
  · exact settled_ok _

end Asn1

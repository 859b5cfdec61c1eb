import Verif.Props.ContainersAgree
import Verif.Props.Incomplete
/-!
# Times: agreement of the decoders, dependence on the bytes, `Incomplete` (C38, C64, C65)
-/
namespace Asn1
open Spec

/-- **C38** The decoders of times agree at every position. -/
theorem C38_time_same :
    SameDecoder utcBer.parseBer (fromBer utcBer) ∧
    SameDecoder utcDer.parseDer (fromDer utcBer utcCheck) ∧
    SameDecoder genBer.parseBer (fromBer genBer) ∧
    SameDecoder genDer.parseDer (fromDer genBer genCheck) :=
  ⟨sameDecoder_ber strong_utc.1.loc,
   sameDecoder_der strong_utc.2.loc fun bs rem v => (C38_time_apis_agree bs rem v).1,
   sameDecoder_ber strong_gen.1.loc,
   sameDecoder_der strong_gen.2.loc fun bs rem v => (C38_time_apis_agree bs rem v).2⟩

/-- **C65** What the parsers of times return depends only on the bytes consumed. -/
theorem C65_time_only_consumed_bytes :
    OnlyBytes utcBer.parseBer ∧ OnlyBytes utcDer.parseDer ∧
    OnlyBytes genBer.parseBer ∧ OnlyBytes genDer.parseDer :=
  ⟨onlyBytes_ber strong_utc.1.loc, onlyBytes_der strong_utc.2.loc, onlyBytes_ber strong_gen.1.loc,
   onlyBytes_der strong_gen.2.loc⟩

/-- **C64** The DER constraints of times never answer `Incomplete`. -/
theorem C64_time_checks_settled (a : Any) : Settled (utcCheck a) ∧ Settled (genCheck a) := by
  refine ⟨settled_ok _, ?_⟩
  unfold genCheck
  repeat' split
  all_goals first | exact settled_ok _ | exact settled_error _

end Asn1

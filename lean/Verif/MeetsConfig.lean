import Verif.Covers
import Verif.SpecConfig
import Verif.Tables
/-!
# The configuration messages meet their formats
-/
namespace BM
open F Config

theorem meets_model {M : Mode} : Meets M true modelId
    (orElse (named "vendor" (record Spec.vendorModel)) (named "sig" (record Spec.sigModel))) := by
  refine meets_namedSelect (M₁ := ⟨False, False, M.S, M.X⟩) (k := "vendor_id") (m₁ := 4) (m₂ := 2) (by meets) (by meets) (by decide)
    (by decide) (by needs) (by decide) ?_ ?_ (by decide) False.elim False.elim False.elim False.elim (fun h => h) (fun h => h)
  · exact .cons (minLenI_field (minLen_uint 2)) (.cons (minLenI_field (minLen_uint 2)) .nil)
  · exact .cons (lenEqI_fld (lenEq_uint 2)) .nil

macro_rules | `(tactic| meets1) => `(tactic| with_reducible exact meets_model)

theorem meets_uint2List {M : Mode} : Meets M true (greedyRange (uintLE 2)) (listOf (uint 2)) :=
  meets_greedy (meets_uint 2) ((lenEq_uint 2).ge (by decide)) ((minLen_uint 2).le (by decide))
theorem meets_uint1List {M : Mode} : Meets M true (greedyRange (uintLE 1)) (listOf (uint 1)) :=
  meets_greedy (meets_uint 1) ((lenEq_uint 1).ge (by decide)) ((minLen_uint 1).le (by decide))

macro_rules | `(tactic| meets1) => `(tactic| with_reducible first | exact meets_uint2List | exact meets_uint1List)

set_option maxHeartbeats 2000000 in
theorem config_lossless [Platform] : Covers lossless E.ConfigOpcode Tables.configCases Spec.configLossless := by
  unfold Spec.configLossless
  covers

theorem config_stable [Platform] : Covers stable E.ConfigOpcode Tables.configCases Spec.configStable := by
  unfold Spec.configStable
  covers

end BM

import Verif.FitRows
import Verif.FitVendor
import Verif.FitElt
import Verif.FitKnown
/-!
# Decoded values and the schema (C50): all messages
-/
namespace BM.Capnp
open BM.Schema BM.Case BM.Props Config Tables
variable [Platform]

/-- Every row of every table. -/
theorem registry_fit : ∀ e ∈ registry, ∀ q ∈ e.2, RowX u_AccessMessage e.1 (opc q) q := by
  unfold registry
  refine all_cons config_fit <| all_cons debug_fit <| all_cons gatewayConfig_fit <| all_cons genericOnOff_fit <| all_cons genericBattery_fit <|
    all_cons genericLevel_fit <| all_cons lightLightness_fit <| all_cons lightLightnessSetup_fit <| all_cons lightCTL_fit <| all_cons lightCTLSetup_fit <|
    all_cons health_fit <| all_cons networkDiagnosticServer_fit <| all_cons networkDiagnosticSetupServer_fit <| all_cons scene_fit <| all_cons sensor_fit <|
    all_cons sensorSetup_fit <| all_cons lightExtendedController_fit <| all_cons time_fit <| all_cons debugV2_fit <| all_cons rRuleScheduler_fit <|
    all_cons genericProperty_fit <| all_cons emergencyLighting_fit <| all_cons emergencyLightingTest_fit <| all_nil

end BM.Capnp

import Verif.FitRowBase
/-!
# Decoded values and the schema (C50): the models of the Bluetooth specifications
-/
namespace BM.Capnp
open BM.Schema BM.Case BM.Props Config Tables
variable [Platform]

set_option maxRecDepth 100000 in
set_option maxHeartbeats 4000000 in
theorem config_fit : ∀ q ∈ configCases, RowX u_AccessMessage E.ConfigOpcode (opc q) q := by unfold configCases; fitrows
set_option maxRecDepth 100000 in
set_option maxHeartbeats 4000000 in
theorem genericOnOff_fit : ∀ q ∈ genericOnOffCases, RowX u_AccessMessage E.GenericOnOffOpcode (opc q) q := by unfold genericOnOffCases; fitrows
set_option maxRecDepth 100000 in
set_option maxHeartbeats 4000000 in
theorem genericBattery_fit : ∀ q ∈ genericBatteryCases, RowX u_AccessMessage E.GenericBatteryOpcode (opc q) q := by unfold genericBatteryCases; fitrows
set_option maxRecDepth 100000 in
set_option maxHeartbeats 4000000 in
theorem genericLevel_fit : ∀ q ∈ genericLevelCases, RowX u_AccessMessage E.GenericLevelOpcode (opc q) q := by unfold genericLevelCases; fitrows
set_option maxRecDepth 100000 in
set_option maxHeartbeats 4000000 in
theorem lightLightness_fit : ∀ q ∈ lightLightnessCases, RowX u_AccessMessage E.LightLightnessOpcode (opc q) q := by unfold lightLightnessCases; fitrows
set_option maxRecDepth 100000 in
set_option maxHeartbeats 4000000 in
theorem lightLightnessSetup_fit : ∀ q ∈ lightLightnessSetupCases, RowX u_AccessMessage E.LightLightnessSetupOpcode (opc q) q := by unfold lightLightnessSetupCases; fitrows
set_option maxRecDepth 100000 in
set_option maxHeartbeats 4000000 in
theorem lightCTL_fit : ∀ q ∈ lightCTLCases, RowX u_AccessMessage E.LightCTLOpcode (opc q) q := by unfold lightCTLCases; fitrows
set_option maxRecDepth 100000 in
set_option maxHeartbeats 4000000 in
theorem lightCTLSetup_fit : ∀ q ∈ lightCTLSetupCases, RowX u_AccessMessage E.LightCTLSetupOpcode (opc q) q := by unfold lightCTLSetupCases; fitrows
set_option maxRecDepth 100000 in
set_option maxHeartbeats 4000000 in
theorem health_fit : ∀ q ∈ healthCases, RowX u_AccessMessage E.HealthOpcode (opc q) q := by unfold healthCases; fitrows
set_option maxRecDepth 100000 in
set_option maxHeartbeats 4000000 in
theorem scene_fit : ∀ q ∈ sceneCases, RowX u_AccessMessage E.SceneOpcode (opc q) q := by unfold sceneCases; fitrows
set_option maxRecDepth 100000 in
set_option maxHeartbeats 4000000 in
theorem sensor_fit : ∀ q ∈ sensorCases, RowX u_AccessMessage E.SensorOpcode (opc q) q := by unfold sensorCases; fitrows
set_option maxRecDepth 100000 in
set_option maxHeartbeats 4000000 in
theorem sensorSetup_fit : ∀ q ∈ sensorSetupCases, RowX u_AccessMessage E.SensorSetupOpcode (opc q) q := by unfold sensorSetupCases; fitrows
set_option maxRecDepth 100000 in
set_option maxHeartbeats 4000000 in
theorem genericProperty_fit : ∀ q ∈ genericPropertyCases, RowX u_AccessMessage E.GenericPropertyOpcode (opc q) q := by unfold genericPropertyCases; fitrows
set_option maxRecDepth 100000 in
set_option maxHeartbeats 4000000 in
theorem debugV2_fit : ∀ q ∈ debugV2Cases, RowX u_AccessMessage E.DebugV2Opcode (opc q) q := by unfold debugV2Cases; fitrows

end BM.Capnp

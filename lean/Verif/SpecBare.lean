import Verif.SpecAll
/-!
# Registered opcodes for which the package defines no payload

The Mesh Model specification defines payloads for some of these; the package does not.
-/
namespace BM

/-- Nothing: whatever is given is written as no bytes, and is reported as `None`. -/
def F.nothing : Fmt UInt8 := fun _ b v => b = [] ∧ v = .none

namespace Spec

def sensorBare : List MsgSpec := [
  msg 0x8232 "sensor_column_get" F.nothing |>.sized 0,
  msg 0x53 "sensor_column_status" F.nothing |>.sized 0,
  msg 0x8233 "sensor_series_get" F.nothing |>.sized 0,
  msg 0x54 "sensor_series_status" F.nothing |>.sized 0]
def sensorSetupBare : List MsgSpec := [
  msg 0x55 "sensor_cadence_set" F.nothing |>.sized 0,
  msg 0x56 "sensor_cadence_set_unacknowledged" F.nothing |>.sized 0,
  msg 0x57 "sensor_cadence_status" F.nothing |>.sized 0]
def gatewayBare : List MsgSpec := [
  vmsg 0xF03601 "silvair_gateway" 0 "gateway_configuration_get" F.nothing |>.sized 0,
  vmsg 0xF03601 "silvair_gateway" 2 "gateway_packets_get" F.nothing |>.sized 0,
  vmsg 0xF03601 "silvair_gateway" 3 "gateway_packets_clear" F.nothing |>.sized 0]
def lecBare : List MsgSpec := [
  vmsg 0xF63601 "silvair_lec" 4 "bulk_lc_property_set" F.nothing |>.sized 0,
  vmsg 0xF63601 "silvair_lec" 5 "bulk_lc_property_status" F.nothing |>.sized 0,
  vmsg 0xF63601 "silvair_lec" 6 "bulk_lec_property_set" F.nothing |>.sized 0,
  vmsg 0xF63601 "silvair_lec" 8 "sync_integral_get" F.nothing |>.sized 0]
def ndsBare : List MsgSpec := [
  vmsg 0xFC3601 "silvair_nds" 5 "radio_stat_set" F.nothing |>.sized 0,
  vmsg 0xFC3601 "silvair_nds" 6 "radio_stat_status" F.nothing |>.sized 0]

/-- All message types without a payload definition. -/
def bare : List MsgSpec := sensorBare ++ (sensorSetupBare ++ (gatewayBare ++ (lecBare ++ ndsBare)))

/-- The vendor opcodes and the enumerations of their sub-messages. -/
def vendors : List (Nat × EnumDef) := [
  (0xF53601, E.DebugSubOpcode), (0xF03601, E.GatewayConfigServerSubOpcode), (0xFC3601, E.NetworkDiagnosticServerSubOpcode),
  (0xFD3601, E.NetworkDiagnosticSetupServerSubOpcode), (0xF63601, E.LightExtendedControllerSubOpcode),
  (0xEA3601, E.EmergencyLightingSubOpcode), (0xE93601, E.EmergencyLightingTestSubOpcode), (0xE83601, E.RRuleSchedulerSubOpcode)]

end Spec
end BM

import Verif.SpecConfig
/-!
# Wire formats of the generic, lighting, scene and health messages

Layouts of the Mesh Model specification (generic OnOff / Level / Battery, Light Lightness / CTL, Scene) and of the Health
model, with the field names of this package.
-/
namespace BM
namespace Spec
open F

/-- A message with an optional long form: the long form if the object can be written that way, else the short form. -/
abbrev optMin (opt min : List (RI UInt8)) : Fmt UInt8 := orElse (named "optional" (record opt)) (named "minimal" (record min))

/-- 0x3F steps stand for "unknown" and cannot be requested in set messages. -/
abbrev transition : RI UInt8 := fld "transition_time" (transitionTime 62)
abbrev delayMs : RI UInt8 := fld "delay" F.delay
abbrev remaining (max : Nat) : RI UInt8 := fld "remaining_time" (transitionTime max)
abbrev u8 (k : String) : RI UInt8 := fld k (uint 1)
abbrev u16 (k : String) : RI UInt8 := fld k (uint 2)
abbrev s16 (k : String) : RI UInt8 := fld k (sint 2)
abbrev tid : RI UInt8 := u8 "tid"

abbrev onoffSet : Fmt UInt8 := optMin [u8 "onoff", tid, transition, delayMs] [u8 "onoff", tid]
abbrev onoffStatus : Fmt UInt8 := optMin [u8 "present_onoff", u8 "target_onoff", remaining 63] [u8 "present_onoff"]

def onoffLossless : List MsgSpec := [msg 0x8201 "generic_onoff_get" (record []) |>.sized 0]
def onoffPlain : List MsgSpec := [
  msg 0x8202 "generic_onoff_set" onoffSet, msg 0x8203 "generic_onoff_set_unacknowledged" onoffSet,
  msg 0x8204 "generic_onoff_status" onoffStatus]

abbrev withTransition (rs : List (RI UInt8)) : Fmt UInt8 := optMin [embed rs, embed [transition, delayMs]] rs
abbrev levelSet : Fmt UInt8 := withTransition [s16 "level", tid]
abbrev deltaSet : Fmt UInt8 := withTransition [fld "delta_level" (sint 4), tid]
abbrev moveSet : Fmt UInt8 := withTransition [s16 "delta_level", tid]
abbrev levelStatus : Fmt UInt8 := optMin [embed [s16 "present_level"], s16 "target_level", remaining 63] [s16 "present_level"]

def levelLossless : List MsgSpec := [msg 0x8205 "generic_level_get" (record []) |>.sized 0]
def levelPlain : List MsgSpec := [
  msg 0x8206 "generic_level_set" levelSet, msg 0x8207 "generic_level_set_unacknowledged" levelSet,
  msg 0x8208 "generic_level_status" levelStatus,
  msg 0x8209 "generic_delta_set" deltaSet, msg 0x820A "generic_delta_set_unacknowledged" deltaSet,
  msg 0x820B "generic_move_set" moveSet, msg 0x820C "generic_move_set_unacknowledged" moveSet]

/-- Whole numbers with the all-ones value standing for "unknown". -/
abbrev known8 : Fmt UInt8 := count (uint 1) (some 0xFF) 1
abbrev known24 : Fmt UInt8 := count (uint 3) (some 0xFFFFFF) 1

def batteryLossless : List MsgSpec := [
  msg 0x8223 "generic_battery_get" (record []) |>.sized 0,
  msg 0x8224 "generic_battery_status" (record [fld "battery_level" known8, fld "time_to_discharge" known24,
    fld "time_to_charge" known24, fld "flags" (packed 1 (record [
      fld "battery_serviceability_flags" (enumBits 2 E.GenericBatteryFlagsServiceability),
      fld "battery_charging_flags" (enumBits 2 E.GenericBatteryFlagsCharging),
      fld "battery_indicator_flags" (enumBits 2 E.GenericBatteryFlagsIndicator),
      fld "battery_presence_flags" (enumBits 2 E.GenericBatteryFlagsPresence)]))]) |>.sized 8]

abbrev lightnessSet : Fmt UInt8 := withTransition [u16 "lightness", tid]
abbrev lightnessStatus : Fmt UInt8 :=
  optMin [embed [u16 "present_lightness"], u16 "target_lightness", remaining 63] [u16 "present_lightness"]
abbrev lightnessOnly : Fmt UInt8 := record [u16 "lightness"]
abbrev range : List (RI UInt8) := [u16 "range_min", u16 "range_max"]

def lightnessLossless : List MsgSpec := [
  msg 0x824B "light_lightness_get" (record []) |>.sized 0, msg 0x824F "light_lightness_linear_get" (record []) |>.sized 0,
  msg 0x8253 "light_lightness_last_get" (record []) |>.sized 0, msg 0x8254 "light_lightness_last_status" lightnessOnly |>.sized 2,
  msg 0x8255 "light_lightness_default_get" (record []) |>.sized 0, msg 0x8256 "light_lightness_default_status" lightnessOnly |>.sized 2,
  msg 0x8257 "light_lightness_range_get" (record []) |>.sized 0, msg 0x8258 "light_lightness_range_status" (record [status, embed range]) |>.sized 5]
def lightnessPlain : List MsgSpec := [
  msg 0x824C "light_lightness_set" lightnessSet, msg 0x824D "light_lightness_set_unacknowledged" lightnessSet,
  msg 0x824E "light_lightness_status" lightnessStatus,
  msg 0x8250 "light_lightness_linear_set" lightnessSet, msg 0x8251 "light_lightness_linear_set_unacknowledged" lightnessSet,
  msg 0x8252 "light_lightness_linear_status" lightnessStatus]
def lightnessSetupLossless : List MsgSpec := [
  msg 0x8259 "light_lightness_setup_default_set" lightnessOnly |>.sized 2,
  msg 0x825A "light_lightness_setup_default_set_unacknowledged" lightnessOnly |>.sized 2,
  msg 0x825B "light_lightness_setup_range_set" (record range) |>.sized 4,
  msg 0x825C "light_lightness_setup_range_set_unacknowledged" (record range) |>.sized 4]

abbrev ctl : List (RI UInt8) := [u16 "ctl_lightness", u16 "ctl_temperature", u16 "ctl_delta_uv"]
abbrev ctlSet : Fmt UInt8 := withTransition [embed ctl, tid]
abbrev ctlStatus : Fmt UInt8 := optMin
  [embed [u16 "present_ctl_lightness", u16 "present_ctl_temperature"], u16 "target_ctl_lightness", u16 "target_ctl_temperature",
    remaining 63]
  [u16 "present_ctl_lightness", u16 "present_ctl_temperature"]
abbrev ctlTemperatureStatus : Fmt UInt8 := optMin
  [embed [u16 "present_ctl_temperature", u16 "present_ctl_delta_uv"], u16 "target_ctl_temperature", u16 "target_ctl_delta_uv",
    remaining 63]
  [u16 "present_ctl_temperature", u16 "present_ctl_delta_uv"]
abbrev ctlTemperatureSet : Fmt UInt8 := withTransition [u16 "ctl_temperature", u16 "ctl_delta_uv", tid]

def ctlLossless : List MsgSpec := [
  msg 0x825D "light_ctl_get" (record []) |>.sized 0, msg 0x8261 "light_ctl_temperature_get" (record []) |>.sized 0,
  msg 0x8262 "light_ctl_temperature_range_get" (record []) |>.sized 0,
  msg 0x8263 "light_ctl_temperature_range_status" (record [status, embed range]) |>.sized 5,
  msg 0x8267 "light_ctl_temperature_default_get" (record []) |>.sized 0, msg 0x8268 "light_ctl_temperature_default_status" (record ctl) |>.sized 6]
def ctlPlain : List MsgSpec := [
  msg 0x825E "light_ctl_set" ctlSet, msg 0x825F "light_ctl_set_unacknowledged" ctlSet, msg 0x8260 "light_ctl_status" ctlStatus,
  msg 0x8264 "light_ctl_temperature_set" ctlTemperatureSet,
  msg 0x8265 "light_ctl_temperature_set_unacknowledged" ctlTemperatureSet,
  msg 0x8266 "light_ctl_temperature_status" ctlTemperatureStatus]
def ctlSetupLossless : List MsgSpec := [
  msg 0x8269 "light_ctl_setup_temperature_default_set" (record ctl) |>.sized 6,
  msg 0x826A "light_ctl_setup_temperature_default_set_unacknowledged" (record ctl) |>.sized 6,
  msg 0x826B "light_ctl_setup_temperature_range_set" (record range) |>.sized 4,
  msg 0x826C "light_ctl_setup_temperature_range_set_unacknowledged" (record range) |>.sized 4]

/-- Scene number 0 is prohibited. -/
abbrev sceneNumber : RI UInt8 := fld "scene_number" (uintWhere 2 (0 < ·))
abbrev sceneStatusCode : RI UInt8 := fld "status_code" (enum8 E.SceneStatusCode)
abbrev sceneRecall : Fmt UInt8 := optMin [sceneNumber, tid, transition, delayMs] [sceneNumber, tid]
abbrev sceneStatus : Fmt UInt8 := optMin
  [sceneStatusCode, u16 "current_scene", u16 "target_scene", remaining 62] [sceneStatusCode, u16 "current_scene"]

def sceneLossless : List MsgSpec := [
  msg 0x8241 "scene_get" (record []) |>.sized 0, msg 0x8244 "scene_register_get" (record []) |>.sized 0,
  msg 0x8245 "scene_register_status" (record [sceneStatusCode, u16 "current_scene", fld "scenes" (listOf (uint 2))]),
  msg 0x8246 "scene_store" (record [sceneNumber]) |>.sized 2, msg 0x8247 "scene_store_unacknowledged" (record [sceneNumber]) |>.sized 2,
  msg 0x829E "scene_delete" (record [u16 "scene_number"]) |>.sized 2, msg 0x829F "scene_delete_unacknowledged" (record [u16 "scene_number"]) |>.sized 2]
def scenePlain : List MsgSpec := [
  msg 0x8242 "scene_recall" sceneRecall, msg 0x8243 "scene_recall_unacknowledged" sceneRecall, msg 0x5E "scene_status" sceneStatus]

abbrev attention : Fmt UInt8 := record [u8 "attention"]
abbrev companyId : Fmt UInt8 := record [u16 "company_id"]
abbrev faults : Fmt UInt8 := record [u8 "test_id", u16 "company_id", fldDefault "fault_array" (.list []) (listOf (uint 1))]
abbrev faultTest : Fmt UInt8 := record [u8 "test_id", u16 "company_id"]
abbrev healthPeriod : Fmt UInt8 := record [fld "fast_period_divisor" (uintWhere 1 (· ≤ 15))]

def healthLossless : List MsgSpec := [
  msg 0x8004 "health_attention_get" (record []) |>.sized 0, msg 0x8005 "health_attention_set" attention |>.sized 1,
  msg 0x8006 "health_attention_set_unacknowledged" attention |>.sized 1, msg 0x8007 "health_attention_status" attention |>.sized 1,
  msg 0x04 "health_current_status" faults, msg 0x802F "health_fault_clear" companyId |>.sized 2,
  msg 0x8030 "health_fault_clear_unacknowledged" companyId |>.sized 2, msg 0x8031 "health_fault_get" companyId |>.sized 2,
  msg 0x05 "health_fault_status" faults, msg 0x8032 "health_fault_test" faultTest |>.sized 3,
  msg 0x8033 "health_fault_test_unacknowledged" faultTest |>.sized 3, msg 0x8034 "health_period_get" (record []) |>.sized 0,
  msg 0x8035 "health_period_set" healthPeriod |>.sized 1, msg 0x8036 "health_period_set_unacknowledged" healthPeriod |>.sized 1,
  msg 0x8037 "health_period_status" healthPeriod |>.sized 1]

end Spec
end BM

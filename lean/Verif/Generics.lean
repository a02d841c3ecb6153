import Verif.Config
/-!
# Model of `generics.py`, `generic/onoff.py`, `generic/level.py`, `generic/battery.py`, `light/*.py`, `scene.py`, `health.py`
-/
namespace BM

/-- generics.py:28-51 `TransitionTimeAdapter` `RESOLUTION` (generics.py:30), in dictionary order; the first entry is the
binary64 number nearest to 0.1, the others are integers. -/
def ttResolutions : List (Nat × Rat) := [(0, rnd (1 / 10)), (1, 1), (2, 10), (3, 600)]

/-- generics.py:36-37 `TransitionTimeAdapter._decode`: `int * float` for resolution 0, `int * int` otherwise. -/
def ttDecode (v : Val) : R Val :=
  match v with
  | .dict d => do
    let st ← dgetE d "steps"
    let res ← dgetE d "resolution"
    match asInt st, asInt res with
    | some s, some r =>
      if r = 0 then .ok (.flt (fmul s (rnd (1 / 10))))
      else if r = 1 then .ok (.int (s * 1))
      else if r = 2 then .ok (.int (s * 10))
      else if r = 3 then .ok (.int (s * 600))
      else .error .key
    | _, _ => .error .type
  | _ => .error .type

/-- The loop of generics.py:39-51 `TransitionTimeAdapter._encode`.  Float arithmetic throughout: integers below 2^53 convert
exactly, and larger ones are outside every range (or negative and rejected by `BitsInteger`). -/
def ttEncodeLoop (max : Nat) (q : Rat) : List (Nat × Rat) → R Val
  | [] => .error .assertion
  | (i, r) :: rs =>
    if q ≤ fmul r 63 then
      let steps := fdiv q r
      if rhe steps ≤ max then .ok (.dict [("steps", .int (ftrunc steps)), ("resolution", .int i)]) else .error .assertion
    else ttEncodeLoop max q rs

/-- generics.py:39-51 `TransitionTimeAdapter._encode`; `max` is `self.max_steps`. -/
def ttEncode (max : Nat) (u : Val) : R Val :=
  match u with
  | .inf => .error .assertion
  | u =>
    match asNum u with
    | some q => ttEncodeLoop max q ttResolutions
    | none => .error .type

/-- generics.py:65-68 `TransitionTime`. -/
abbrev transitionTimeBits : Con UInt8 := bitwise 1 (struct [field "resolution" (ubits 2), field "steps" (ubits 6)])

/-- generics.py:32-34 `TransitionTimeAdapter.__init__`: `max_steps` is 0x3F if unknown is allowed, else 0x3E. -/
def transitionTime (allowUnknown : Bool) : Con UInt8 :=
  adapter transitionTimeBits (fun _ => ttDecode) (fun _ => ttEncode (if allowUnknown then 0x3F else 0x3E))

/-- generics.py:57-58 `Delay._decode`: `obj / 200`. -/
def delayDecode (v : Val) : R Val :=
  match asInt v with
  | some n => .ok (.flt (fdiv n 200))
  | none => .error .type

/-- generics.py:60-61 `Delay._encode`: `int(obj * 200)`, exact on integers.  (A string of zeros is accepted by Python, since
`int("0" * 200)` is 0; the model rejects strings.) -/
def delayEncode (u : Val) : R Val :=
  match asInt u with
  | some n => .ok (.int (n * 200))
  | none =>
    match u with
    | .flt q => .ok (.int (ftrunc (fmul q 200)))
    | .inf => .error .overflow
    | _ => .error .type

/-- generics.py:54-61 `Delay` over `Int8ul`. -/
def delay : Con UInt8 := adapter (uintLE 1) (fun _ => delayDecode) (fun _ => delayEncode)

/-- generics.py:70-73 `OptionalSetParameters`. -/
abbrev optionalSetParameters : List (Item UInt8) := [field "transition_time" (transitionTime false), field "delay" delay]

/-- The pattern `NamedSelect(optional=…, minimal=…)` (e.g. in generic/level.py). -/
abbrev optionalMinimal (opt min : List (Item UInt8)) : Con UInt8 :=
  namedSelect [("optional", struct opt), ("minimal", struct min)]

/-! ### generic/onoff.py -/
namespace OnOff
/-- generic/onoff.py:40-43 `GenericOnOffSetMinimal`. -/
abbrev setMinimal : List (Item UInt8) := [field "onoff" (uintLE 1), field "tid" (uintLE 1)]
/-- generic/onoff.py:45-50 `GenericOnOffSetOptional`. -/
abbrev setOptional : List (Item UInt8) := [
  field "onoff" (uintLE 1), field "tid" (uintLE 1), field "transition_time" (transitionTime false), field "delay" delay]
/-- generic/onoff.py:52-55 `GenericOnOffSet`. -/
abbrev set := optionalMinimal setOptional setMinimal
/-- generic/onoff.py:57-59 `GenericOnOffStatusMinimal`. -/
abbrev statusMinimal : List (Item UInt8) := [field "present_onoff" (uintLE 1)]
/-- generic/onoff.py:61-65 `GenericOnOffStatusOptional`. -/
abbrev statusOptional : List (Item UInt8) := [
  field "present_onoff" (uintLE 1), field "target_onoff" (uintLE 1), field "remaining_time" (transitionTime true)]
/-- generic/onoff.py:67-70 `GenericOnOffStatus`. -/
abbrev status := optionalMinimal statusOptional statusMinimal
end OnOff

/-! ### generic/level.py -/
namespace Level
/-- generic/level.py:44-47 `GenericLevelSetMinimal`. -/
abbrev setMinimal : List (Item UInt8) := [field "level" (sintLE 2), field "tid" (uintLE 1)]
/-- generic/level.py:49-52 `GenericLevelSetOptional`. -/
abbrev setOptional : List (Item UInt8) := [embedded setMinimal, embedded optionalSetParameters]
/-- generic/level.py:54-57 `GenericLevelSet`. -/
abbrev set := optionalMinimal setOptional setMinimal
/-- generic/level.py:59-62 `GenericDeltaSetMinimal`. -/
abbrev deltaMinimal : List (Item UInt8) := [field "delta_level" (sintLE 4), field "tid" (uintLE 1)]
/-- generic/level.py:64-67 `GenericDeltaSetOptional`. -/
abbrev deltaOptional : List (Item UInt8) := [embedded deltaMinimal, embedded optionalSetParameters]
/-- generic/level.py:69-72 `GenericDeltaSet`. -/
abbrev delta := optionalMinimal deltaOptional deltaMinimal
/-- generic/level.py:74-77 `GenericMoveSetMinimal`. -/
abbrev moveMinimal : List (Item UInt8) := [field "delta_level" (sintLE 2), field "tid" (uintLE 1)]
/-- generic/level.py:79-82 `GenericMoveSetOptional`. -/
abbrev moveOptional : List (Item UInt8) := [embedded moveMinimal, embedded optionalSetParameters]
/-- generic/level.py:84-87 `GenericMoveSet`. -/
abbrev move := optionalMinimal moveOptional moveMinimal
/-- generic/level.py:89-91 `GenericLevelStatusMinimal`. -/
abbrev statusMinimal : List (Item UInt8) := [field "present_level" (sintLE 2)]
/-- generic/level.py:93-97 `GenericLevelStatusOptional`. -/
abbrev statusOptional : List (Item UInt8) := [
  embedded statusMinimal, field "target_level" (sintLE 2), field "remaining_time" (transitionTime true)]
/-- generic/level.py:99-102 `GenericLevelStatus`. -/
abbrev status := optionalMinimal statusOptional statusMinimal
end Level

/-! ### `DefaultCountValidator` -/

/-- A resolution: an integer or a float literal. -/
inductive Res
  | i (n : Nat)
  | f (q : Rat)

/-- The number a resolution denotes. -/
def Res.val : Res → Rat
  | .i n => n
  | .f q => q

/-- util.py:283-287 `DefaultCountValidator._decode` over a subcon of `w` bytes.  `rounding` is `None` (here 0) or a positive
number of digits; an integer resolution gives an integer, which `round(·, digits)` leaves alone. -/
def countDecode (w rounding : Nat) (res : Res) (unknown : Bool) (v : Val) : R Val :=
  match asInt v with
  | some n =>
    if unknown = true ∧ n = (256 ^ w : Nat) - 1 then .ok (.flt floatMax)
    else
      match res with
      | .i r => .ok (.int (n * r))
      | .f r => .ok (.flt (if rounding = 0 then fmul n r else roundN (fmul n r) rounding))
  | none => .error .type

/-- util.py:289-293 `DefaultCountValidator._encode`: `round(obj / resolution)` (integers above 2^53, whose conversion to float is
not exact, and quotients that overflow to infinity, which Python rejects, all fall outside every field). -/
def countEncode (w : Nat) (res : Res) (unknown : Bool) (u : Val) : R Val :=
  match u with
  | .inf => .error .overflow
  | u =>
    match asNum u with
    | some q =>
      if unknown = true ∧ q = floatMax then .ok (.int ((256 ^ w : Nat) - 1))
      else .ok (.int (rhe (fdiv q res.val)))
    | none => .error .type

/-- util.py:274-293 `DefaultCountValidator(subcon, rounding, resolution, unknown_value)` over a subcon of `w` bytes. -/
def defaultCount (c : Con UInt8) (w : Nat) (rounding : Nat := 0) (res : Res := .f 1) (unknown : Bool := true) : Con UInt8 :=
  adapter c (fun _ => countDecode w rounding res unknown) (fun _ => countEncode w res unknown)

/-! ### generic/battery.py -/
namespace Battery
/-- generic/battery.py:69-78 `BatteryFlags`. -/
abbrev flags : Con UInt8 := bitwise 1 (struct [
  field "battery_serviceability_flags" (enumAdapter (ubits 2) E.GenericBatteryFlagsServiceability),
  field "battery_charging_flags" (enumAdapter (ubits 2) E.GenericBatteryFlagsCharging),
  field "battery_indicator_flags" (enumAdapter (ubits 2) E.GenericBatteryFlagsIndicator),
  field "battery_presence_flags" (enumAdapter (ubits 2) E.GenericBatteryFlagsPresence)])
/-- generic/battery.py:82-87 `GenericBatteryStatus`. -/
abbrev status : Con UInt8 := struct [
  field "battery_level" (defaultCount (uintLE 1) 1), field "time_to_discharge" (defaultCount (bytesIntLE 3) 3),
  field "time_to_charge" (defaultCount (bytesIntLE 3) 3), field "flags" flags]
end Battery

/-! ### light/lightness.py -/
namespace Lightness
/-- light/lightness.py:64-66 `LightLightnessDefault`. -/
abbrev default : Con UInt8 := struct [field "lightness" (uintLE 2)]
/-- light/lightness.py:68-70 `LightLightnessStatusMinimal`. -/
abbrev statusMinimal : List (Item UInt8) := [field "present_lightness" (uintLE 2)]
/-- light/lightness.py:72-76 `LightLightnessStatusOptional`. -/
abbrev statusOptional : List (Item UInt8) := [
  embedded statusMinimal, field "target_lightness" (uintLE 2), field "remaining_time" (transitionTime true)]
/-- light/lightness.py:78-81 `LightLightnessStatus`. -/
abbrev status := optionalMinimal statusOptional statusMinimal
/-- light/lightness.py:83-86 `LightLightnessRange`. -/
abbrev range : List (Item UInt8) := [field "range_min" (uintLE 2), field "range_max" (uintLE 2)]
/-- light/lightness.py:88-91 `LightLightnessRangeStatus`. -/
abbrev rangeStatus : Con UInt8 := struct [field "status" Config.statusCode, embedded range]
/-- light/lightness.py:93-96 `LightLightnessSetMinimal`. -/
abbrev setMinimal : List (Item UInt8) := [field "lightness" (uintLE 2), field "tid" (uintLE 1)]
/-- light/lightness.py:98-101 `LightLightnessSetOptional`. -/
abbrev setOptional : List (Item UInt8) := [embedded setMinimal, embedded optionalSetParameters]
/-- light/lightness.py:103-106 `LightLightnessSet`. -/
abbrev set := optionalMinimal setOptional setMinimal
end Lightness

/-! ### light/ctl.py -/
namespace CTL
/-- light/ctl.py:62-66 `LightCTLDefault`. -/
abbrev default : List (Item UInt8) := [
  field "ctl_lightness" (uintLE 2), field "ctl_temperature" (uintLE 2), field "ctl_delta_uv" (uintLE 2)]
/-- light/ctl.py:68-71 `LightCTLSetMinimal`. -/
abbrev setMinimal : List (Item UInt8) := [embedded default, field "tid" (uintLE 1)]
/-- light/ctl.py:73-76 `LightCTLSetOptional`. -/
abbrev setOptional : List (Item UInt8) := [embedded setMinimal, embedded optionalSetParameters]
/-- light/ctl.py:78-81 `LightCTLSet`. -/
abbrev set := optionalMinimal setOptional setMinimal
/-- light/ctl.py:83-86 `LightCTLStatusMinimal`. -/
abbrev statusMinimal : List (Item UInt8) := [field "present_ctl_lightness" (uintLE 2), field "present_ctl_temperature" (uintLE 2)]
/-- light/ctl.py:88-93 `LightCTLStatusOptional`. -/
abbrev statusOptional : List (Item UInt8) := [
  embedded statusMinimal, field "target_ctl_lightness" (uintLE 2), field "target_ctl_temperature" (uintLE 2),
  field "remaining_time" (transitionTime true)]
/-- light/ctl.py:95-98 `LightCTLStatus`. -/
abbrev status := optionalMinimal statusOptional statusMinimal
/-- light/ctl.py:100-103 `LightCTLTemperatureStatusMinimal`. -/
abbrev temperatureStatusMinimal : List (Item UInt8) := [
  field "present_ctl_temperature" (uintLE 2), field "present_ctl_delta_uv" (uintLE 2)]
/-- light/ctl.py:105-110 `LightCTLTemperatureStatusOptional`. -/
abbrev temperatureStatusOptional : List (Item UInt8) := [
  embedded temperatureStatusMinimal, field "target_ctl_temperature" (uintLE 2), field "target_ctl_delta_uv" (uintLE 2),
  field "remaining_time" (transitionTime true)]
/-- light/ctl.py:112-115 `LightCTLTemperatureStatus`. -/
abbrev temperatureStatus := optionalMinimal temperatureStatusOptional temperatureStatusMinimal
/-- light/ctl.py:117-121 `LightCTLTemperatureSetMinimal`. -/
abbrev temperatureSetMinimal : List (Item UInt8) := [
  field "ctl_temperature" (uintLE 2), field "ctl_delta_uv" (uintLE 2), field "tid" (uintLE 1)]
/-- light/ctl.py:123-126 `LightCTLTemperatureSetOptional`. -/
abbrev temperatureSetOptional : List (Item UInt8) := [embedded temperatureSetMinimal, embedded optionalSetParameters]
/-- light/ctl.py:128-131 `LightCTLTemperatureSet`. -/
abbrev temperatureSet := optionalMinimal temperatureSetOptional temperatureSetMinimal
/-- light/ctl.py:133-136 `LightCTLRange`. -/
abbrev range : List (Item UInt8) := [field "range_min" (uintLE 2), field "range_max" (uintLE 2)]
/-- light/ctl.py:138-141 `LightCTLRangeStatus`. -/
abbrev rangeStatus : Con UInt8 := struct [field "status" Config.statusCode, embedded range]
end CTL

/-! ### scene.py -/
namespace Scene
/-- `ExprValidator(Int16ul, obj_ > 0)` in scene.py:52-55 `SceneRecallMinimal`. -/
abbrev sceneNumber : Con UInt8 := validator (uintLE 2) (fun v =>
  match asNum v with
  | some q => .ok (decide (0 < q))
  | none => .error .type)
/-- scene.py:52-55 `SceneRecallMinimal`. -/
abbrev recallMinimal : List (Item UInt8) := [field "scene_number" sceneNumber, field "tid" (uintLE 1)]
/-- scene.py:57-62 `SceneRecallWithTransition`. -/
abbrev recallOptional : List (Item UInt8) := [
  field "scene_number" sceneNumber, field "tid" (uintLE 1), field "transition_time" (transitionTime false), field "delay" delay]
/-- scene.py:64-67 `SceneRecall`. -/
abbrev recall := optionalMinimal recallOptional recallMinimal
/-- `EnumAdapter(Int8ul, SceneStatusCode)` in scene.py:69-72 `SceneStatusMinimal`. -/
abbrev statusCode : Con UInt8 := enumAdapter (uintLE 1) E.SceneStatusCode
/-- scene.py:69-72 `SceneStatusMinimal`. -/
abbrev statusMinimal : List (Item UInt8) := [field "status_code" statusCode, field "current_scene" (uintLE 2)]
/-- scene.py:74-79 `SceneStatusWithTargetScene`. -/
abbrev statusOptional : List (Item UInt8) := [
  field "status_code" statusCode, field "current_scene" (uintLE 2), field "target_scene" (uintLE 2),
  field "remaining_time" (transitionTime false)]
/-- scene.py:81-84 `SceneStatus`. -/
abbrev status := optionalMinimal statusOptional statusMinimal
/-- scene.py:88-92 `SceneRegisterStatus`. -/
abbrev registerStatus : Con UInt8 := struct [
  field "status_code" statusCode, field "current_scene" (uintLE 2), field "scenes" (greedyRange (uintLE 2))]
/-- scene.py:94-96 `SceneSetupWithValidation`. -/
abbrev setupWithValidation : Con UInt8 := struct [field "scene_number" sceneNumber]
/-- scene.py:98-100 `SceneSetup`. -/
abbrev setup : Con UInt8 := struct [field "scene_number" (uintLE 2)]
end Scene

/-! ### health.py -/
namespace Health
/-- health.py:29-32 `FaultTest`. -/
abbrev faultTest : Con UInt8 := struct [field "test_id" (uintLE 1), field "company_id" (uintLE 2)]
/-- health.py:34-38 `FaultStatus`. -/
abbrev faultStatus : Con UInt8 := struct [
  field "test_id" (uintLE 1), field "company_id" (uintLE 2),
  field "fault_array" (defaultC (greedyRange (uintLE 1)) (.list []))]
/-- health.py:40-42 `FastPeriodDivisor`. -/
abbrev fastPeriodDivisor : Con UInt8 := struct [
  field "fast_period_divisor" (rangeValidator (uintLE 1) none (some 15))]
/-- health.py:44-46 `Attention`. -/
abbrev attention : Con UInt8 := struct [field "attention" (uintLE 1)]
/-- health.py:48-50 `CompanyId`. -/
abbrev companyId : Con UInt8 := struct [field "company_id" (uintLE 2)]
end Health

end BM

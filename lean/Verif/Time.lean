import Verif.Property
import Verif.Silvair
/-!
# Model of `bluetooth_mesh/messages/time.py` and `silvair/emergency_lighting_test.py`

Aware `datetime` objects are pairs of an instant (microseconds since 1970-01-01 UTC) and a UTC offset (microseconds); naive ones are not
modelled (both adapters need an offset).
-/
namespace BM

/-! ### `datetime` (library) -/

/-- Microseconds in a second. -/
abbrev us : Int := 1000000

/-- First and past-the-end second of the calendar (0001-01-01, 10000-01-01). -/
def minSecond : Int := -62135596800
def endSecond : Int := 253402300800

/-- A time that `datetime` can represent. -/
def inCalendar (m : Int) : Bool := decide (minSecond * us ≤ m ∧ m < endSecond * us)

/-- `timedelta(...)` of a number of microseconds: at most 999999999 days. -/
def pyTimedelta (m : Int) : R Int :=
  if -999999999 ≤ m / (86400 * us) ∧ m / (86400 * us) ≤ 999999999 then .ok m else .error .overflow

/-- `timedelta(seconds=x)` (`unit` = 10^6) or `timedelta(minutes=x)` (`unit` = 60·10^6) of a number; of a float, the integral part is
exact and the fractional part is rounded half-even to microseconds. -/
def timedeltaOf (unit : Int) (x : Val) : R Int :=
  match x with
  | .flt q => pyTimedelta (rhe ((ftrunc q * unit : Int) + fmul (q - ftrunc q) unit))
  | x =>
    match asInt x with
    | some n => pyTimedelta (n * unit)
    | none => .error .type

/-- `td.total_seconds()`, `(dt - epoch).total_seconds()`. -/
def totalSeconds (m : Int) : Rat := rnd ((m : Rat) / 1000000)

/-- The integer field `k` of a dictionary lies in `lo … hi`. -/
def intField (d : Dict) (k : String) (lo hi : Int) : R Int := do
  let v ← dgetE d k
  match asInt v with
  | some n => if lo ≤ n ∧ n ≤ hi then .ok n else .error .value
  | none => .error .type

namespace Time

/-- time.py:59-61 `MESH_UNIX_EPOCH_DIFF`: seconds from 1970-01-01 to 2000-01-01. -/
def meshEpoch : Int := 946684800

/-- The capnproto form of a date, time.py:220-232 (in `TimeAdapter._encode`) and silvair/emergency_lighting_test.py:119-130: `datetime(...)`
with `timezone(timedelta(minutes=…))`. -/
def dictDate (d : Dict) : R (Int × Int) := do
  let z ← dgetE d "time_zone_offset"
  let off ← timedeltaOf (60 * us) z
  let y ← dgetE d "year"
  let mo ← dgetE d "month"
  let dd ← dgetE d "day"
  let h ← intField d "hour" 0 23
  let mi ← intField d "minute" 0 59
  let s ← intField d "second" 0 59
  let u ← intField d "microsecond" 0 999999
  if -86400 * us < off ∧ off < 86400 * us then
    let days ← Property.pyDate y mo dd
    .ok ((days * 86400 + h * 3600 + mi * 60 + s) * us + u - off, off)
  else .error .value

/-- The instant and the offset of the `date` entry. -/
def dateOf (v : Val) : R (Int × Int) :=
  match v with
  | .dict d => dictDate d
  | .datetime m off => .ok (m, off)
  | _ => .error .attribute

/-- time.py:87-92 `timedelta_to_mesh_time_zone_offset` (the offset is never `None` here). -/
def tzEncode (off : Int) : R Int :=
  let q := totalSeconds off
  let k := (q / 900).floor
  if ftrunc (rnd (q - 900 * k)) = 0 then .ok (k + 64) else .error .assertion

/-- time.py:95-96 `mesh_tai_utc_delta_to_timedelta`. -/
def deltaDecode (n : Int) : Int := (n - 255) * us

/-- time.py:99-101 `timedelta_to_mesh_tai_utc_delta`. -/
def deltaEncode (td : Int) : R Int :=
  let q := totalSeconds td
  if q.den = 1 then .ok (ftrunc (fadd q 255)) else .error .assertion

/-- The `tai_utc_delta` entry as a `timedelta`: time.py:237-238, silvair/emergency_lighting_test.py:132-133. -/
def deltaOf (v : Val) : R Int :=
  match v with
  | .timedelta td => .ok td
  | v =>
    match asInt v with
    | some n => pyTimedelta (n * us)
    | none => .error .attribute

/-- The `uncertainty` entry as a `timedelta`: time.py:234-235. -/
def uncertaintyOf (v : Val) : R Int :=
  match v with
  | .timedelta td => .ok td
  | .flt q => timedeltaOf us (.flt q)
  | _ => .error .attribute

/-- time.py:240: `passed_time.timestamp() - MESH_UNIX_EPOCH_DIFF - passed_time.utcoffset().total_seconds()`. -/
def totalTime (m off : Int) : Rat := fsub (fsub (totalSeconds m) meshEpoch) (totalSeconds off)

/-- time.py:108-109 `seconds_to_subsecond`. -/
def subsecond (x : Rat) : Int := rhe (fmul (fsub x (ftrunc x)) 256)

/-- `int(td.total_seconds() * 100)` (time.py:245). -/
def centiseconds (td : Int) : Int := ftrunc (fmul (totalSeconds td) 100)

/-- `Struct(*pre, StopIf(cond), *post)` (time.py:115-127): a true condition ends the struct. -/
def structStop (pre : List (Item UInt8)) (stop : Dict → R Bool) (post : List (Item UInt8)) : Con UInt8 where
  parse L _ s := do
    let (d, s) ← parseItems L pre [] s
    let t ← stop d
    if t then .ok (.dict d, s)
    else do
      let (d, s) ← parseItems L post d s
      .ok (.dict d, s)
  build L _ u := do
    let d ← asDict u
    let (b1, ctx) ← buildItems L d pre d
    let t ← stop ctx
    if t then .ok (b1, .dict ctx)
    else do
      let (b2, ctx) ← buildItems L d post ctx
      .ok (b1 ++ b2, .dict ctx)

/-- `this.tai_seconds == 0`. -/
def taiZero (ctx : Dict) : R Bool := do
  let v ← dgetE ctx "tai_seconds"
  .ok (hashInt v == some 0)

/-- time.py:111-113 `TimeMinimal`. -/
abbrev timeMinimal : Con UInt8 := struct [field "tai_seconds" (bytesIntLE 5)]
/-- time.py:115-126 `TimeOptional`. -/
abbrev timeOptional : Con UInt8 := structStop [field "tai_seconds" (bytesIntLE 5)] taiZero [
  field "subsecond" (uintLE 1), field "uncertainty" (uintLE 1),
  embeddedBitStruct "_" 2 true [field "tai_utc_delta" (ubits 15), field "time_authority" flagBit],
  field "time_zone_offset" (uintLE 1)]
/-- time.py:128-131 `Time`. -/
abbrev time : Con UInt8 := namedSelect [("optional", timeOptional), ("minimal", timeMinimal)]

/-- The value of an integer entry of the parsed struct. -/
def intEntry (d : Dict) (k : String) : R Int := do
  let v ← dgetE d k
  match asInt v with
  | some n => .ok n
  | none => .error .type

/-- time.py:193-211 `TimeAdapter._decode`.  `timezone` accepts offsets below 24 hours, `fromtimestamp` times of the calendar
(`ValueError`); a local time past the calendar is an `OverflowError` of the addition.  The float
`tai_seconds + subsecond / 256 + …` is exact (49 significant bits), so its value is given here in microseconds before rounding. -/
def timeDecode (v : Val) : R Val :=
  match v with
  | .dict d => do
    let tai ← intEntry d "tai_seconds"
    if tai = 0 then
      .ok (.dict [("date", .none), ("tai_utc_delta", .none), ("time_authority", .none), ("uncertainty", .none)])
    else do
      let tz ← intEntry d "time_zone_offset"
      let off := (tz - 64) * 900 * us
      let sub ← intEntry d "subsecond"
      let m := (tai + meshEpoch + (tz - 64) * 900) * us + rhe ((sub : Rat) * 15625 / 4)
      if tz - 64 < 96 ∧ m < endSecond * us ∧ m + off < endSecond * us then do
        let delta ← intEntry d "tai_utc_delta"
        let auth ← dgetE d "time_authority"
        let unc ← intEntry d "uncertainty"
        .ok (.dict [("date", .datetime m off), ("tai_utc_delta", .timedelta (deltaDecode delta)),
          ("time_authority", .bool (truthy auth)), ("uncertainty", .timedelta (unc * 10000))])
      else .error (if tz - 64 < 96 ∧ m < endSecond * us then .overflow else .value)
  | _ => .error .type

/-- time.py:213-244 `TimeAdapter._encode`. -/
def timeEncode (u : Val) : R Val :=
  match u with
  | .dict d => do
    let dv ← dgetE d "date"
    let (m, off) ← dateOf dv
    let uv ← dgetE d "uncertainty"
    let unc ← uncertaintyOf uv
    let tv ← dgetE d "tai_utc_delta"
    let td ← deltaOf tv
    let x := totalTime m off
    let delta ← deltaEncode td
    let auth ← dgetE d "time_authority"
    let tz ← tzEncode off
    .ok (.dict [("tai_seconds", .int (ftrunc x)), ("subsecond", .int (subsecond x)), ("uncertainty", .int (centiseconds unc)),
      ("tai_utc_delta", .int delta), ("time_authority", .bool (truthy auth)), ("time_zone_offset", .int tz)])
  | _ => .error .type

/-- time.py:253 `TimeSet`, time.py:255 `TimeStatus` (time.py:185-244 `TimeAdapter`). -/
abbrev timeSet : Con UInt8 := adapter time (fun _ => timeDecode) (fun _ => timeEncode)
/-- time.py:247-249 `TimeRoleMsg`. -/
abbrev timeRoleMsg : Con UInt8 := struct [field "time_role" (enumAdapter (uintLE 1) E.TimeRole)]
/-- time.py:259-262 `TimeZoneSet`. -/
abbrev timeZoneSet : Con UInt8 := struct [field "time_zone_offset_new" (uintLE 1), field "tai_of_zone_change" (bytesIntLE 5)]
/-- time.py:264-268 `TimeZoneStatus`. -/
abbrev timeZoneStatus : Con UInt8 := struct [field "time_zone_offset_current" (uintLE 1), field "time_zone_offset_new" (uintLE 1),
  field "tai_of_zone_change" (bytesIntLE 5)]
/-- time.py:75-80 `TAI_UTC_DeltaPaddedField`. -/
abbrev deltaField (k : String) : Item UInt8 := embeddedBitStruct "_" 2 true [anon (padding false 1), field k (ubits 15)]
/-- time.py:272-275 `TAIUTCDeltaSet`. -/
abbrev deltaSet : Con UInt8 := struct [deltaField "tai_utc_delta_new", field "tai_of_delta_change" (bytesIntLE 5)]
/-- time.py:277-281 `TAIUTCDeltaStatus`. -/
abbrev deltaStatus : Con UInt8 := struct [deltaField "tai_utc_delta_current", deltaField "tai_utc_delta_new",
  field "tai_of_delta_change" (bytesIntLE 5)]

end Time

namespace ELT
open Time

/-- silvair/emergency_lighting_test.py:95-100 `FunctionalExecutionResult`. -/
abbrev functionalResult : Con UInt8 := bitwise 1 (struct [anon (padding false 5), field "circuit_fault" flagBit,
  field "battery_fault" flagBit, field "lamp_fault" flagBit])
/-- silvair/emergency_lighting_test.py:102-108 `DurationExecutionResult`. -/
abbrev durationResult : Con UInt8 := bitwise 1 (struct [anon (padding false 4), field "battery_duration_fault" flagBit,
  field "circuit_fault" flagBit, field "battery_fault" flagBit, field "lamp_fault" flagBit])

/-- silvair/emergency_lighting_test.py:117-133 `TimestampAdapter._decode`. -/
def timestampDecode (v : Val) : R Val :=
  match v with
  | .dict d => do
    let raw ← intEntry d "tai_utc_delta_raw"
    let td := deltaDecode (raw % 32768)
    if raw / 32768 % 2 ≠ 0 then .error .value
    else do
      let tz ← intEntry d "time_zone_offset"
      let off := (tz - 64) * 900 * us
      let tai ← intEntry d "tai_seconds"
      let m := (tai + meshEpoch) * us
      if tz - 64 < 96 ∧ m < endSecond * us ∧ m + off < endSecond * us ∧ m + off - td < endSecond * us then
        .ok (.dict [("date", .datetime (m - td) off), ("tai_utc_delta", .timedelta td)])
      else .error .value
  | _ => .error .type

/-- silvair/emergency_lighting_test.py:135-165 `TimestampAdapter._encode`. -/
def timestampEncode (u : Val) : R Val :=
  match u with
  | .dict d => do
    let dv ← dgetE d "date"
    let (m, off) ← dateOf dv
    let tv ← dgetE d "tai_utc_delta"
    let td ← deltaOf tv
    if inCalendar m && inCalendar (m + td) then do
      let tai := ftrunc (totalSeconds (m + td)) - meshEpoch
      let raw ← deltaEncode td
      let tz ← tzEncode off
      .ok (.dict [("tai_seconds", .int tai), ("tai_utc_delta_raw", .int raw), ("time_zone_offset", .int tz)])
    else .error .overflow
  | _ => .error .type

/-- silvair/emergency_lighting_test.py:210-214 `Timestamp`. -/
abbrev timestamp : Con UInt8 := struct [field "tai_seconds" (bytesIntLE 5), field "time_zone_offset" (uintLE 1),
  field "tai_utc_delta_raw" (bytesIntLE 2)]
/-- silvair/emergency_lighting_test.py:111-165 `TimestampAdapter` over `Timestamp`. -/
abbrev timestampC : Con UInt8 := adapter timestamp (fun _ => timestampDecode) (fun _ => timestampEncode)

/-- silvair/emergency_lighting_test.py:222-226 `EmergencyLightingTestFunctionalTestStatusMinimal`. -/
abbrev functionalMinimal : List (Item UInt8) := [field "tai_timestamp" timestampC,
  field "execution_status" (enumAdapter (uintLE 1) E.TestExecutionStatus), field "execution_result" functionalResult]
/-- silvair/emergency_lighting_test.py:228-231 `EmergencyLightingTestFunctionalTestStatusOptional`. -/
abbrev functionalOptional : List (Item UInt8) := [embedded functionalMinimal, field "relative_timestamp" (uintLE 4)]
/-- silvair/emergency_lighting_test.py:233-236 `EmergencyLightingTestFunctionalTestStatus`. -/
abbrev functionalStatus : Con UInt8 := optionalMinimal functionalOptional functionalMinimal
/-- silvair/emergency_lighting_test.py:244-249 `EmergencyLightingTestDurationTestStatusMinimal`. -/
abbrev durationMinimal : List (Item UInt8) := [field "tai_timestamp" timestampC,
  field "execution_status" (enumAdapter (uintLE 1) E.TestExecutionStatus), field "execution_result" durationResult,
  field "duration_result" (uintLE 2)]
/-- silvair/emergency_lighting_test.py:251-254 `EmergencyLightingTestDurationTestStatusOptional`. -/
abbrev durationOptional : List (Item UInt8) := [embedded durationMinimal, field "relative_timestamp" (uintLE 4)]
/-- silvair/emergency_lighting_test.py:256-259 `EmergencyLightingTestDurationTestStatus`. -/
abbrev durationStatus : Con UInt8 := optionalMinimal durationOptional durationMinimal
/-- silvair/emergency_lighting_test.py:179-188 `EmergencyLightingTestPropertyDict`. -/
abbrev propertyDict : List (Int × Con UInt8) := [
  (0xFF84, struct Property.timeSecond32), (0xFF85, struct Property.timeSecond32), (0xFF86, struct Property.timeSecond32),
  (0xFF87, struct Property.timeSecond32), (0xFF88, struct Property.timeSecond32), (0xFF89, struct Property.timeSecond32),
  (0xFF8A, struct Property.timeSecond32), (0xFF8B, struct Property.timeSecond32)]
/-- silvair/emergency_lighting_test.py:262-264 `EmergencyLightingTestPropertyGet`. -/
abbrev propertyGet : List (Item UInt8) := [field "property_id" (enumAdapter (uintLE 2) E.EmergencyLightingTestProperty)]
/-- silvair/emergency_lighting_test.py:266 `EmergencyLightingTestPropertySet`, silvair/emergency_lighting_test.py:268 `EmergencyLightingTestPropertyStatus`. -/
abbrev propertySet : Con UInt8 := propertyMixin E.EmergencyLightingTestProperty propertyDict propertyGet

end ELT
end BM

import Verif.SpecSilvair
import Verif.Time
/-!
# Wire formats of the time model and of the emergency lighting test model

Times are computed by the package in double precision; `rnd q` is the double nearest to `q`.  How far this is from exact
arithmetic is the subject of `Props/Clock.lean`.
-/
namespace BM
namespace F

/-- A number of microseconds in seconds, as a double. -/
def secondsF (m : Int) : Rat := rnd ((m : Rat) / 10 ^ 6)

/-- The entry `k` of a dictionary is the integer `n`, between `lo` and `hi`. -/
def IntIs (d : Dict) (k : String) (lo hi n : Int) : Prop := ∃ x, dget d k = some x ∧ asInt x = some n ∧ lo ≤ n ∧ n ≤ hi

/-- `u` denotes the instant `m` (microseconds since 1970-01-01 UTC) seen at the UTC offset `off` (microseconds): an aware `datetime`, or
a dictionary with the local calendar date and time and the offset in minutes. -/
def InstantMeans (u : Val) (m off : Int) : Prop :=
  (-86400 * us < off ∧ off < 86400 * us) ∧
  (u = .datetime m off ∨
   ∃ d y mo dd z, ∃ days h mi s mu : Int, u = .dict d ∧ dget d "year" = some y ∧ dget d "month" = some mo ∧ dget d "day" = some dd ∧
    Property.pyDate y mo dd = .ok days ∧ IntIs d "hour" 0 23 h ∧ IntIs d "minute" 0 59 mi ∧ IntIs d "second" 0 59 s ∧
    IntIs d "microsecond" 0 999999 mu ∧ dget d "time_zone_offset" = some z ∧ timedeltaOf (60 * us) z = .ok off ∧
    m = (days * 86400 + h * 3600 + mi * 60 + s) * us + mu - off)

/-- `u` denotes a difference of `td` microseconds between TAI and UTC: a `timedelta`, or a number of seconds. -/
def DeltaMeans (u : Val) (td : Int) : Prop :=
  u = .timedelta td ∨ ∃ n, asInt u = some n ∧ pyTimedelta (n * us) = .ok td

/-- `u` denotes an uncertainty of `unc` microseconds: a `timedelta`, or a float in seconds. -/
def UncertaintyMeans (u : Val) (unc : Int) : Prop :=
  u = .timedelta unc ∨ ∃ q, u = .flt q ∧ timedeltaOf us u = .ok unc

/-- A UTC offset that is (up to a fraction of a second, which is dropped) `k` quarters of an hour. -/
def Quarters (off k : Int) : Prop := ∃ r, 0 ≤ r ∧ r < us ∧ off = k * 900 * us + r

/-- What a time message says: an instant and an offset, an uncertainty, the TAI-UTC difference and whether the sender is an authority. -/
structure TimeVal where
  m : Int
  off : Int
  unc : Int
  td : Int
  auth : Bool

def TimeMeans (u : Val) (t : TimeVal) : Prop :=
  ∃ d ud uu ut ua, u = .dict d ∧ dget d "date" = some ud ∧ InstantMeans ud t.m t.off ∧
    dget d "uncertainty" = some uu ∧ UncertaintyMeans uu t.unc ∧
    dget d "tai_utc_delta" = some ut ∧ DeltaMeans ut t.td ∧ dget d "time_authority" = some ua ∧ t.auth = truthy ua

/-- Seconds since 2000-01-01 that are sent: the Unix time less the UTC offset (see C23). -/
def TimeVal.seconds (t : TimeVal) : Rat := rnd (rnd (secondsF t.m - 946684800) - secondsF t.off)

/-- The fields of a time message. -/
structure TimeFields where
  tai : Nat
  sub : Nat
  unc : Nat
  delta : Nat
  auth : Bool
  tz : Nat

/-- The fields that represent a time. -/
structure TimeFits (t : TimeVal) (f : TimeFields) : Prop where
  tai : (f.tai : Int) = ftrunc t.seconds ∧ f.tai < 2 ^ 40 ∧ f.tai ≠ 0
  sub : (f.sub : Int) = rhe (rnd (rnd (t.seconds - f.tai) * 256)) ∧ f.sub < 256
  unc : (f.unc : Int) = ftrunc (rnd (secondsF t.unc * 100)) ∧ f.unc < 256
  delta : t.td = ((f.delta : Int) - 255) * us ∧ f.delta < 2 ^ 15
  tz : Quarters t.off ((f.tz : Int) - 64) ∧ f.tz < 160
  auth : f.auth = t.auth

/-- The bytes of the fields: 40-bit seconds, 1/256 seconds, 10 ms uncertainty, 15-bit delta and authority bit, time zone. -/
def TimeFields.bytes (f : TimeFields) : List UInt8 :=
  leBytes 5 f.tai ++ [UInt8.ofNat f.sub, UInt8.ofNat f.unc] ++ leBytes 2 (2 * f.delta + f.auth.toNat) ++ [UInt8.ofNat f.tz]

/-- The instant, in microseconds, and the offset reported for received fields. -/
def TimeFields.off (f : TimeFields) : Int := ((f.tz : Int) - 64) * 900 * us
def TimeFields.instant (f : TimeFields) : Int := ((f.tai : Int) + 946684800) * us + rhe ((f.sub : Rat) * 10 ^ 6 / 256) + f.off

/-- A received time within the calendar (before the year 10000, in UTC and locally) and what is reported for it. -/
def TimeFields.Reads (f : TimeFields) (v : Val) : Prop :=
  f.instant < endSecond * us ∧ f.instant + f.off < endSecond * us ∧
  v = .dict [("date", .datetime f.instant f.off), ("tai_utc_delta", .timedelta (((f.delta : Int) - 255) * us)),
    ("time_authority", .bool f.auth), ("uncertainty", .timedelta (f.unc * 10000))]

/-- What is reported when the time is not known. -/
def unknownTime : Val := .dict [("date", .none), ("tai_utc_delta", .none), ("time_authority", .none), ("uncertainty", .none)]

/-- A time.  Times less than one second from 2000-01-01 are sent as the unknown time. -/
def time : Fmt UInt8 := fun u b v => ∃ t, TimeMeans u t ∧
  ((∃ f, TimeFits t f ∧ f.Reads v ∧ b = f.bytes) ∨
   (ftrunc t.seconds = 0 ∧ us ∣ t.td ∧ t.td.natAbs < 2 ^ 32 * 1000000 ∧ (∃ k, Quarters t.off k) ∧ b = List.replicate 5 0 ∧ v = unknownTime))

/-- Objects that are encoded, but not to a message that means the same.  Either the time does not fit the message (of which then only the
first five bytes are sent, or which the receiver cannot read); or the TAI-UTC difference is over a century; or there is no such
Python object (`datetime` requires offsets below 24 hours). -/
def OddTime (u : Val) : Prop :=
  (∃ t, TimeMeans u t ∧ 0 < ftrunc t.seconds ∧ ftrunc t.seconds < 2 ^ 40 ∧ ¬ ∃ f v, TimeFits t f ∧ f.Reads v) ∨
  (∃ t, TimeMeans u t ∧ 2 ^ 32 * 1000000 ≤ t.td.natAbs) ∨
  (∃ d m off, u = .dict d ∧ dget d "date" = some (.datetime m off) ∧ ¬ (-86400 * us < off ∧ off < 86400 * us))

/-- Two differences of 15 bits, each in a 16-bit word whose top bit is reserved.  Both words are reported under `_`, the second one last. -/
def deltaPair (k₁ k₂ : String) : RI UInt8 :=
  ⟨["_", k₁, k₂], fun du b dv => ∃ u₁ u₂, ∃ n₁ n₂ : Nat, dget du k₁ = some u₁ ∧ dget du k₂ = some u₂ ∧ asInt u₁ = some (n₁ : Int) ∧
    asInt u₂ = some (n₂ : Int) ∧ n₁ < 2 ^ 15 ∧ n₂ < 2 ^ 15 ∧ b = leBytes 2 n₁ ++ leBytes 2 n₂ ∧
    dv = [("_", .dict [(k₂, .int n₂)]), (k₁, .int n₁), (k₂, .int n₂)]⟩

/-- `u` denotes the instant `m` at the UTC offset `off`, with a TAI-UTC difference of `td` microseconds. -/
def StampMeans (u : Val) (m off td : Int) : Prop :=
  ∃ d ud ut, u = .dict d ∧ dget d "date" = some ud ∧ InstantMeans ud m off ∧ dget d "tai_utc_delta" = some ut ∧ DeltaMeans ut td

/-- The fields of a time stamp. -/
structure StampFields where
  tai : Nat
  tz : Nat
  delta : Nat

/-- The fields that represent a time stamp.  Fractions of a second are dropped (see C24). -/
structure StampFits (m off td : Int) (f : StampFields) : Prop where
  tai : (f.tai : Int) = ftrunc (secondsF (m + td)) - 946684800 ∧ f.tai < 2 ^ 40
  delta : td = ((f.delta : Int) - 255) * us ∧ f.delta < 2 ^ 15
  tz : Quarters off ((f.tz : Int) - 64) ∧ f.tz < 160

/-- The bytes of the fields: TAI seconds, time zone, TAI-UTC difference. -/
def StampFields.bytes (f : StampFields) : List UInt8 := leBytes 5 f.tai ++ [UInt8.ofNat f.tz] ++ leBytes 2 f.delta
def StampFields.off (f : StampFields) : Int := ((f.tz : Int) - 64) * 900 * us
def StampFields.td (f : StampFields) : Int := ((f.delta : Int) - 255) * us
/-- The instant in microseconds since 1970-01-01 TAI. -/
def StampFields.instant (f : StampFields) : Int := ((f.tai : Int) + 946684800) * us

/-- A received time stamp within the calendar and what is reported for it. -/
def StampFields.Reads (f : StampFields) (v : Val) : Prop :=
  f.instant < endSecond * us ∧ f.instant + f.off < endSecond * us ∧ f.instant + f.off - f.td < endSecond * us ∧
  v = .dict [("date", .datetime (f.instant - f.td) f.off), ("tai_utc_delta", .timedelta f.td)]

/-- A time stamp. -/
def timestamp : Fmt UInt8 := fun u b v =>
  ∃ m off td f, StampMeans u m off td ∧ inCalendar m ∧ inCalendar (m + td) ∧ StampFits m off td f ∧ f.Reads v ∧ b = f.bytes

/-- Objects that are encoded, but not to a time stamp that a receiver can read: the TAI-UTC difference does not fit 15 bits, the offset
or the instant is out of the range of `datetime`; or there is no such Python object. -/
def OddStamp (u : Val) : Prop :=
  (∃ m off td, StampMeans u m off td ∧ inCalendar m ∧ inCalendar (m + td) ∧ ¬ ∃ f v, StampFits m off td f ∧ f.Reads v) ∨
  (∃ d m off, u = .dict d ∧ dget d "date" = some (.datetime m off) ∧ ¬ (-86400 * us < off ∧ off < 86400 * us))

/-- Messages whose time stamp, in the place where it is looked for, is odd. -/
def OddStamped (u : Val) : Prop := ∃ d, u = .dict d ∧ ∃ n ∈ ["optional", "minimal"], ∃ d' x,
  (dget d n).getD u = .dict d' ∧ dget d' "tai_timestamp" = some x ∧ OddStamp x

end F

namespace Spec
open F

/-! ### Time -/

def timeLossless : List MsgSpec := [
  msg 0x8237 "time_get" (record []) |>.sized 0, msg 0x8238 "time_role_get" (record []) |>.sized 0, msg 0x823B "time_zone_get" (record []) |>.sized 0,
  msg 0x823E "tai_utc_delta_get" (record []) |>.sized 0,
  msg 0x8239 "time_role_set" (record [fld "time_role" (enumOf (uint 1) E.TimeRole)]) |>.sized 1,
  msg 0x823A "time_role_status" (record [fld "time_role" (enumOf (uint 1) E.TimeRole)]) |>.sized 1,
  msg 0x823C "time_zone_set" (record [u8 "time_zone_offset_new", fld "tai_of_zone_change" (uint 5)]) |>.sized 6,
  msg 0x823D "time_zone_status" (record [u8 "time_zone_offset_current", u8 "time_zone_offset_new", fld "tai_of_zone_change" (uint 5)]) |>.sized 7]
/-- The reserved bit of the 16-bit word is ignored. -/
def timeStable : List MsgSpec := [
  msg 0x823F "tai_utc_delta_set" (record [bitGroup "_" 2 true [zeros false 1, fld "tai_utc_delta_new" (bitsU 15)],
    fld "tai_of_delta_change" (uint 5)]) |>.sized 7,
  msg 0x8240 "tai_utc_delta_status" (record [deltaPair "tai_utc_delta_current" "tai_utc_delta_new", fld "tai_of_delta_change" (uint 5)])]
def timePlain : List MsgSpec := [msgBut 0x5C "time_set" time OddTime, msgBut 0x5D "time_status" time OddTime]

/-! ### Emergency lighting test -/

abbrev elt : Nat → String → Fmt UInt8 → MsgSpec := vmsg 0xE93601 "silvair_elt"
abbrev eltId : RI UInt8 := fld "property_id" (enumOf (uint 2) E.EmergencyLightingTestProperty)

def eltLossless : List MsgSpec := [
  elt 0x00 "elt_functional_test_get" (record []) |>.sized 0, elt 0x01 "elt_functional_test_start" (record []) |>.sized 0,
  elt 0x02 "elt_functional_test_stop" (record []) |>.sized 0, elt 0x04 "elt_duration_test_get" (record []) |>.sized 0,
  elt 0x05 "elt_duration_test_start" (record []) |>.sized 0, elt 0x06 "elt_duration_test_stop" (record []) |>.sized 0,
  elt 0x08 "elt_property_get" (record [eltId]) |>.sized 2]

abbrev functionalShort : List (RI UInt8) := [
  fld "tai_timestamp" timestamp, fld "execution_status" (enumOf (uint 1) E.TestExecutionStatus),
  fld "execution_result" (packed 1 (record [zeros false 5, fld "circuit_fault" bit, fld "battery_fault" bit, fld "lamp_fault" bit]))]
abbrev functionalLong : List (RI UInt8) := [embed functionalShort, u32 "relative_timestamp"]
abbrev durationShort : List (RI UInt8) := [
  fld "tai_timestamp" timestamp, fld "execution_status" (enumOf (uint 1) E.TestExecutionStatus),
  fld "execution_result" (packed 1 (record [zeros false 4, fld "battery_duration_fault" bit, fld "circuit_fault" bit, fld "battery_fault" bit,
    fld "lamp_fault" bit])), u16 "duration_result"]
abbrev durationLong : List (RI UInt8) := [embed durationShort, u32 "relative_timestamp"]

/-- Time stamps at the very end of the calendar are read, but not written. -/
def eltPlain : List MsgSpec := [
  vmsgBut 0xE93601 "silvair_elt" 0x03 "elt_functional_test_status" (longShort "relative_timestamp" functionalLong functionalShort)
    (fun u => OddLong "relative_timestamp" functionalLong u ∨ OddStamped u),
  vmsgBut 0xE93601 "silvair_elt" 0x07 "elt_duration_test_status" (longShort "relative_timestamp" durationLong durationShort)
    (fun u => OddLong "relative_timestamp" durationLong u ∨ OddStamped u)]

section
variable [Platform]

def eltProperties : List PropSpec := [
  prop 0xFF84 "elt_duration_test_execution_timeout" seconds32, prop 0xFF85 "elt_functional_test_execution_timeout" seconds32,
  prop 0xFF86 "elt_duration_test_retry_period" seconds32, prop 0xFF87 "elt_functional_test_retry_period" seconds32,
  prop 0xFF88 "elt_duration_test_backup_automatic_delay" seconds32, prop 0xFF89 "elt_functional_test_backup_automatic_delay" seconds32,
  prop 0xFF8A "elt_duration_test_backup_automatic_interval" seconds32,
  prop 0xFF8B "elt_functional_test_backup_automatic_interval" seconds32]
abbrev eltValue : Fmt UInt8 := propertyMsg "EmergencyLightingTestProperty" eltProperties [eltId]
def eltStable : List MsgSpec := [
  elt 0x09 "elt_property_set" eltValue, elt 0x0A "elt_property_set_unacknowledged" eltValue, elt 0x0B "elt_property_status" eltValue]
end

end Spec
end BM

import Verif.SpecProperty
import Verif.SpecAccess
/-!
# Wire formats of the sensor and generic property messages
-/
namespace BM
namespace F

/-- A property identifier: a known one is reported as enumeration member, any other as a number. -/
abbrev propertyIdOf (E : EnumDef) : Fmt UInt8 := orElse (enumOf (uint 2) E) (uint 2)
abbrev propertyId : Fmt UInt8 := propertyIdOf E.PropertyID

/-- `u` names property `p`: a number equal to its identifier. -/
def Names (u : Val) (p : Spec.PropSpec) : Prop := hashInt u = some (p.id : Int)

/-- The remaining entries of a parsed header: all but `k`. -/
def without (k : String) (d : Dict) : Dict := d.filter (fun x => x.1 ≠ k)

/-- A header `rs` (with a `property_id`), then the value of that property, given under the property's name and in the
property's own format. -/
def propertyMsg (cls : String) (P : List Spec.PropSpec) (rs : List (RI UInt8)) : Fmt UInt8 := fun u b v =>
  ∃ d id p b₁ b₂ dh vv, u = .dict d ∧ dget d "property_id" = some id ∧ p ∈ P ∧ Names id p ∧
    seqRel rs d b₁ dh ∧ p.fmt ((dget d p.name).getD .none) b₂ vv ∧ b = b₁ ++ b₂ ∧
    v = .dict (without "property_id" dh ++ [("property_id", .enum cls p.id), (p.name, vv)])

/-- Objects with an odd value for the named property. -/
def OddProperty (P : List Spec.PropSpec) (u : Val) : Prop :=
  ∃ d id p, u = .dict d ∧ dget d "property_id" = some id ∧ p ∈ P ∧ Names id p ∧ p.odd ((dget d p.name).getD .none)

/-- `u` stands for the raw bytes `b`: the bytes themselves, a number of zero bytes, or a collection of byte values. -/
def Raw (u : Val) (b : List UInt8) : Prop :=
  u = .bytes b ∨ (∃ n : Nat, asInt u = some (n : Int) ∧ b = List.replicate n 0) ∨
  ((∀ s, u ≠ .str s) ∧ ∃ us, iter u = .ok us ∧ us.map asInt = b.map fun x => some (x.toNat : Int))

/-- What is read back for raw bytes: their values. -/
def rawValue (b : List UInt8) : Val := .list (b.map fun x => .int x.toNat)

/-- The key of a setting and of a raw value. -/
abbrev settingKey : String := "sensor_setting_property_id"
abbrev rawKey : String := "sensor_setting_raw"

/-- The value of a known property: under the property's name, else as `sensor_setting_raw`. -/
def settingValue (d : Dict) (name : String) : Val := ((dget d name).or (dget d rawKey)).getD .none

/-- The value of the setting `id` in the object `d`, and the entries it is read back as: a known property in its own format, any
other as raw bytes. -/
def setting (P : List Spec.PropSpec) (d : Dict) (id : Val) (b : List UInt8) (dv : Dict) : Prop :=
  (∃ p vv, p ∈ P ∧ Names id p ∧ p.fmt (settingValue d p.name) b vv ∧ dv = [(settingKey, .enum E.PropertyID.cls p.id), (p.name, vv)]) ∨
  (∃ k : Int, hashInt id = some k ∧ (∀ p ∈ P, (p.id : Int) ≠ k) ∧ Raw (settingValue d rawKey) b ∧
    dv = [(settingKey, .int k), (rawKey, rawValue b)])

/-- A header `rs` (with a `sensor_setting_property_id`), then the value of that setting. -/
def settingMsg (P : List Spec.PropSpec) (rs : List (RI UInt8)) : Fmt UInt8 := fun u b v =>
  ∃ d id b₁ b₂ dh dv, u = .dict d ∧ dget d settingKey = some id ∧ seqRel rs d b₁ dh ∧ setting P d id b₂ dv ∧ b = b₁ ++ b₂ ∧
    v = .dict (without settingKey dh ++ dv)

/-- Odd values of settings: the empty dictionary for a known property (it is encoded as nothing), and odd values of a known property. -/
def OddSetting (P : List Spec.PropSpec) (d : Dict) (id : Val) : Prop :=
  ∃ p ∈ P, Names id p ∧ (settingValue d p.name = .dict [] ∨ p.odd (settingValue d p.name))

/-- Objects with an odd value, or that name the property by a string (only its raw bytes are then taken from the object). -/
def OddSettingMsg (P : List Spec.PropSpec) (u : Val) : Prop :=
  ∃ d id, u = .dict d ∧ dget d settingKey = some id ∧ ((∃ s, id = .str s) ∨ OddSetting P d id)

/-- The marshalled property header: format A (two bytes: 0, length-1 in 4 bits, identifier in 11 bits) or format B (three bytes:
1, length-1 in 7 bits, identifier in 16 bits), least significant bits first. -/
def Mpid (fmtB : Bool) (length id : Nat) (b : List UInt8) : Prop :=
  match fmtB with
  | false => 1 ≤ length ∧ length ≤ 16 ∧ id < 2048 ∧ b.length = 2 ∧ leNat b = (length - 1) * 2 + id * 32
  | true => 1 ≤ length ∧ length ≤ 128 ∧ id < 65536 ∧ b.length = 3 ∧ leNat b = 1 + (length - 1) * 2 + id * 256

/-- One sensor value: a marshalled property header and as many bytes as it says. -/
def sensorData (P : List Spec.PropSpec) : Fmt UInt8 := fun u b v =>
  ∃ d id uf ul, ∃ n l : Nat, ∃ b₁ b₂ dv, u = .dict d ∧ dget d settingKey = some id ∧ dget d "format" = some uf ∧ dget d "length" = some ul ∧
    asInt id = some (n : Int) ∧ asInt ul = some (l : Int) ∧ Mpid (truthy uf) l n b₁ ∧ setting P d id b₂ dv ∧ b₂.length = l ∧ b = b₁ ++ b₂ ∧
    v = .dict ([("format", .int (if truthy uf then 1 else 0)), ("length", .int l)] ++ dv)

/-- Odd sensor values: an odd setting, a length that is not the length of the value, or a length that does not fit format A. -/
def OddData (P : List Spec.PropSpec) (u : Val) : Prop :=
  ∃ d id uf ul, u = .dict d ∧ dget d settingKey = some id ∧ dget d "format" = some uf ∧ dget d "length" = some ul ∧
    (OddSetting P d id ∨ (∃ b dv, setting P d id b dv ∧ asInt ul ≠ some (b.length : Int)) ∨
      (truthy uf = false ∧ ∃ l, asInt ul = some l ∧ 16 < l))

end F

namespace Spec
open F
section
variable [Platform]

abbrev propId (k : String) : RI UInt8 := fld k propertyId

def propertyLossless : List MsgSpec := [
  msg 0x822E "generic_user_properties_get" (record []) |>.sized 0, msg 0x822C "generic_admin_properties_get" (record []) |>.sized 0,
  msg 0x822A "generic_manufacturer_properties_get" (record []) |>.sized 0, msg 0x4F "generic_client_properties_get" (record []) |>.sized 0,
  msg 0x4B "generic_user_properties_status" (record [fld "property_ids" (listOf propertyId)]),
  msg 0x47 "generic_admin_properties_status" (record [fld "property_ids" (listOf propertyId)]),
  msg 0x43 "generic_manufacturer_properties_status" (record [fld "property_ids" (listOf propertyId)]),
  msg 0x50 "generic_client_properties_status" (record [fld "property_ids" (listOf propertyId)]),
  msg 0x822F "generic_user_property_get" (record [propId "property_id"]),
  msg 0x822D "generic_admin_property_get" (record [propId "property_id"]),
  msg 0x822B "generic_manufacturer_property_get" (record [propId "property_id"]),
  msg 0x44 "generic_manufacturer_property_set"
    (record [fld "property_id" (enumOf (uint 2) E.PropertyID), fld "access" (enumOf (uint 1) E.ManufacturerUserAccess)]) |>.sized 3,
  msg 0x45 "generic_manufacturer_property_set_unacknowledged"
    (record [fld "property_id" (enumOf (uint 2) E.PropertyID), fld "access" (enumOf (uint 1) E.ManufacturerUserAccess)]) |>.sized 3]

/-- A property and its value. -/
def propertyValue : Fmt UInt8 := propertyMsg E.PropertyID.cls properties [propId "property_id"]
/-- A property, its access rights and its value. -/
def propertyAccess : Fmt UInt8 := propertyMsg E.PropertyID.cls properties [embed [propId "property_id"], fld "access" (uint 1)]

/-- The property messages with a value.  The odd objects are those with an odd value: a date that is a number beyond the calendar. -/
def propertyStable : List MsgSpec := [
  msgBut 0x4C "generic_user_property_set" (propertyValue) (OddProperty properties),
  msgBut 0x4D "generic_user_property_set_unacknowledged" (propertyValue) (OddProperty properties),
  msgBut 0x4E "generic_user_property_status" (propertyAccess) (OddProperty properties),
  msgBut 0x48 "generic_admin_property_set" (propertyAccess) (OddProperty properties),
  msgBut 0x49 "generic_admin_property_set_unacknowledged" (propertyAccess) (OddProperty properties),
  msgBut 0x4A "generic_admin_property_status" (propertyAccess) (OddProperty properties),
  msgBut 0x46 "generic_manufacturer_property_status" (propertyAccess) (OddProperty properties)]

/-! ### Sensors -/

abbrev sensorGet : Fmt UInt8 := orElse (named "optional" (record [propId "property_id"])) (named "minimal" (record []))

abbrev descriptorShort : List (RI UInt8) := [propId "sensor_property_id"]
abbrev descriptorLong : List (RI UInt8) := [
  embed descriptorShort,
  bitGroup "_" 3 true [fld "sensor_positive_tolerance" (bitsU 12), fld "sensor_negative_tolerance" (bitsU 12)],
  fld "sensor_sampling_funcion" (uint 1), fld "sensor_measurement_period" (uint 1), fld "sensor_update_interval" (uint 1)]
/-- What a short descriptor lacks. -/
def descriptorKeys : List String :=
  ["sensor_positive_tolerance", "sensor_negative_tolerance", "sensor_sampling_funcion", "sensor_measurement_period", "sensor_update_interval"]

/-- A short descriptor: at least one of the fields of the long one is missing. -/
def Short (u : Val) : Prop := ∃ d, u = .dict d ∧ dget d "optional" = none ∧ ∃ k ∈ descriptorKeys, dget d k = none

/-- One sensor descriptor: eight bytes, or just the property identifier. -/
def descriptor : Fmt UInt8 := fun u b v =>
  named "optional" (record descriptorLong) u b v ∨ (Short u ∧ named "minimal" (record descriptorShort) u b v)

/-- Descriptors up to the end of the message.  Short and long ones are told apart by the number of bytes left, so that fewer than eight
bytes must be left where a short one begins. -/
def descriptorsRel : List Val → List UInt8 → List Val → Prop
  | [], b, vs => b = [] ∧ vs = []
  | u :: us, b, vs => ∃ b₁ b₂ v vs', b = b₁ ++ b₂ ∧ vs = v :: vs' ∧ descriptor u b₁ v ∧ (b₁.length < 8 → b.length < 8) ∧ descriptorsRel us b₂ vs'

def descriptors : Fmt UInt8 := fun u b v => ∃ us vs, iter u = .ok us ∧ descriptorsRel us b vs ∧ v = .list vs

/-- Objects in which a complete descriptor does not have the long format (its short form is written), or a short descriptor is followed
by more than the format allows. -/
def OddDescriptors (u : Val) : Prop := ∃ us, iter u = .ok us ∧
  ((∃ x ∈ us, ¬ Short x ∧ Unencodable (named "optional" (record descriptorLong)) x) ∨
   (∃ us₁ x us₂ b vs, us = us₁ ++ x :: us₂ ∧ Short x ∧ manyRel descriptor (x :: us₂) b vs ∧ 8 ≤ b.length))

def sensorLossless : List MsgSpec := [
  msg 0x8230 "sensor_descriptor_get" sensorGet, msgBut 0x51 "sensor_descriptor_status" (descriptors) (OddDescriptors),
  msg 0x8231 "sensor_get" sensorGet]
/-- Sensor values.  Received messages that end in the middle of a value, or with values of the wrong length, do not re-encode. -/
def sensorPlain : List MsgSpec := [
  msgBut 0x52 "sensor_status" (listOf (sensorData properties)) (fun u => ∃ us, iter u = .ok us ∧ ∃ x ∈ us, OddData properties x)]

abbrev settingHeader : List (RI UInt8) := [embed [propId "sensor_property_id"], propId settingKey]
abbrev settingAccess : List (RI UInt8) := [embed settingHeader, fld "sensor_setting_access" (uint 1)]

def sensorSetupLossless : List MsgSpec := [
  msg 0x8234 "sensor_cadence_get" (record [propId "property_id"]), msg 0x8235 "sensor_settings_get" (record [propId "sensor_property_id"]),
  msg 0x58 "sensor_settings_status"
    (record [embed [propId "sensor_property_id"], fld "sensor_setting_property_ids" (listOf propertyId)]),
  msg 0x8236 "sensor_setting_get" (record settingHeader)]
def sensorSetupStable : List MsgSpec := [
  msgBut 0x59 "sensor_setting_set" (settingMsg properties settingHeader) (OddSettingMsg properties),
  msgBut 0x5A "sensor_setting_set_unacknowledged" (settingMsg properties settingHeader) (OddSettingMsg properties),
  msgBut 0x5B "sensor_setting_status" (settingMsg properties settingAccess) (OddSettingMsg properties)]

end
end Spec
end BM

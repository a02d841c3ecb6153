import Verif.PropertyDict
/-!
# Model of `PropertyMixin` (`properties.py`), `sensor.py` and `generic/property.py`
-/
namespace BM

/-- `obj.pop(k)`, the dictionary part. -/
def dpop : Dict → String → Dict
  | [], _ => []
  | (k', v) :: d, k => if k' = k then d else (k', v) :: dpop d k

/-- `DICT[id]`. -/
def dictGet (D : List (Int × Con UInt8)) (id : Val) : R (Con UInt8) :=
  match hashInt id with
  | some k =>
    match findCase k D with
    | some c => .ok c
    | none => .error .key
  | none => .error .key

/-- `member.name.lower()`. -/
def memberKey (E : EnumDef) (m : Val) : R String :=
  match asInt m with
  | some n =>
    match lookupValue E.members n with
    | some name => .ok (lower name)
    | none => .error .value
  | none => .error .value

/-- properties.py:775-799 `PropertyMixin` after a header with the given members (properties.py:781-790 `PropertyMixin._parse_property`,
properties.py:792-799 `PropertyMixin._build_property`): the value of the property named by `property_id`. -/
def propertyMixin (E : EnumDef) (D : List (Int × Con UInt8)) (hdr : List (Item UInt8)) : Con UInt8 where
  parse L ctx s := do
    let (d, s) ← parseItems L hdr [] s
    let id ← dgetE d "property_id"
    let id ← E.call id
    let name ← memberKey E id
    let c ← dictGet D id
    let (v, s) ← c.parse L ctx s
    .ok (.dict (dset (dset (dpop d "property_id") "property_id" id) name v), s)
  build L ctx u := do
    let d ← asDict u
    let (b1, _) ← buildItems L d hdr d
    let id ← dgetE d "property_id"
    let id ← E.call id
    let name ← memberKey E id
    let c ← dictGet D id
    let (b2, _) ← c.build L ctx ((dget d name).getD .none)
    .ok (b1 ++ b2, u)

namespace Sensor
open Property

/-- sensor.py:106-111 `SensorPropertyId` (`FieldAdapter` only matters for code generation). -/
abbrev propertyId : Con UInt8 := select [enumAdapter (uintLE 2) E.PropertyID, uintLE 2]
/-- sensor.py:113 `SensorGetMinimal`. -/
abbrev getMinimal : List (Item UInt8) := []
/-- sensor.py:115-117 `SensorGetOptional`. -/
abbrev getOptional : List (Item UInt8) := [field "property_id" propertyId]
/-- sensor.py:119-122 `SensorGet`. -/
abbrev get : Con UInt8 := optionalMinimal getOptional getMinimal
/-- sensor.py:124-126 `SensorSettingsGet`. -/
abbrev settingsGet : List (Item UInt8) := [field "sensor_property_id" propertyId]
/-- sensor.py:128-131 `SensorSettingGet`. -/
abbrev settingGet : List (Item UInt8) := [embedded settingsGet, field "sensor_setting_property_id" propertyId]

/-- The first statement of sensor.py:141-161 `SensorSettingRawMixin._parse_sensor_setting` and of
sensor.py:163-177 `SensorSettingRawMixin._build_sensor_setting`: the member, if the identifier has one, and the key of the value. -/
def settingKey (id : Val) : Val × String :=
  match E.PropertyID.call id with
  | .ok m =>
    match memberKey E.PropertyID m with
    | .ok name => (m, name)
    | .error _ => (id, "sensor_setting_raw")
  | .error _ => (id, "sensor_setting_raw")

/-- sensor.py:141-161 `SensorSettingRawMixin._parse_sensor_setting`; `kw` are the members already parsed.  (No property
construct raises `KeyError` when parsing, so the fallback is only reached for identifiers that are not in `PropertyDict`.) -/
def parseSetting [Platform] (L : Lib) (ctx : Dict) (s : List UInt8) (id : Val) (kw : Dict) : R (Val × List UInt8) := do
  let (id, name) := settingKey id
  match dictGet propertyDict id with
  | .ok c =>
    let (v, s) ← c.parse L ctx s
    .ok (.dict (dset (dset kw "sensor_setting_property_id" id) name v), s)
  | .error _ => .ok (.dict (dset (dset kw "sensor_setting_property_id" id) name (.list (s.map fun x => .int x.toNat))), [])

/-- `bytes(list)`. -/
def listBytes : List Val → R (List UInt8)
  | [] => .ok []
  | u :: us =>
    match asInt u with
    | some n =>
      if 0 ≤ n ∧ n < 256 then do
        let bs ← listBytes us
        .ok (UInt8.ofNat n.toNat :: bs)
      else .error .value
    | none => .error .type

/-- `bytes(x)`: of an integer, that many zero bytes; of a collection of integers, these bytes. -/
def pyBytes (u : Val) : R (List UInt8) :=
  match u with
  | .bytes b => .ok b
  | .str _ => .error .type
  | u =>
    match asInt u with
    | some n => if 0 ≤ n then .ok (List.replicate n.toNat 0) else .error .value
    | none => do
      let us ← iter u
      listBytes us

/-- sensor.py:163-177 `SensorSettingRawMixin._build_sensor_setting`: any `KeyError`, also one raised by the property construct,
leads to `bytes(value)`.  (Property constructs that raise `KeyError` after writing some members leave these bytes in the stream;
then `bytes(value)` raises as well.) -/
def buildSetting [Platform] (L : Lib) (ctx : Dict) (d : Dict) (id : Val) : R (List UInt8) :=
  let (id, name) := settingKey id
  let u := ((dget d name).or (dget d "sensor_setting_raw")).getD .none
  match (do let c ← dictGet propertyDict id; c.build L ctx u : R (List UInt8 × Val)) with
  | .ok (b, _) => .ok b
  | .error .key => pyBytes u
  | .error e => .error e

/-- sensor.py:180-197 `_SensorSettingSet` and sensor.py:203-221 `_SensorSettingStatus`: a header and the setting. -/
def settingCon [Platform] (hdr : List (Item UInt8)) : Con UInt8 where
  parse L ctx s := do
    let (d, s) ← parseItems L hdr [] s
    let id ← dgetE d "sensor_setting_property_id"
    parseSetting L ctx s id (dpop d "sensor_setting_property_id")
  build L ctx u := do
    let d ← asDict u
    let (b1, _) ← buildItems L d hdr d
    let id ← dgetE d "sensor_setting_property_id"
    let b2 ← buildSetting L ctx d id
    .ok (b1 ++ b2, u)

/-- sensor.py:200 `SensorSettingSet`. -/
abbrev settingSet [Platform] : Con UInt8 := settingCon settingGet
/-- sensor.py:224 `SensorSettingStatus`. -/
abbrev settingStatus [Platform] : Con UInt8 := settingCon [embedded settingGet, field "sensor_setting_access" (uintLE 1)]
/-- sensor.py:226-229 `SensorSettingsStatus`. -/
abbrev settingsStatus : List (Item UInt8) := [
  embedded settingsGet, field "sensor_setting_property_ids" (greedyRange propertyId)]
/-- sensor.py:231-233 `SensorDescriptorMinimal`. -/
abbrev descriptorMinimal : List (Item UInt8) := [field "sensor_property_id" propertyId]
/-- sensor.py:235-241 `SensorDescriptorOptional`. -/
abbrev descriptorOptional : List (Item UInt8) := [
  embedded descriptorMinimal, Config.doubleKeyIndex "sensor_negative_tolerance" "sensor_positive_tolerance",
  field "sensor_sampling_funcion" (uintLE 1), field "sensor_measurement_period" (uintLE 1), field "sensor_update_interval" (uintLE 1)]
/-- sensor.py:243-246 `SensorDescriptorStatusItem`. -/
abbrev descriptorStatusItem : Con UInt8 := optionalMinimal descriptorOptional descriptorMinimal
/-- sensor.py:248 `SensorDescriptorStatus`. -/
abbrev descriptorStatus : Con UInt8 := greedyRange descriptorStatusItem

/-- `bytes([n])`. -/
def oneByte (n : Int) : R (List UInt8) := if 0 ≤ n ∧ n < 256 then .ok [UInt8.ofNat n.toNat] else .error .value

/-- The header of sensor.py:251-289 `_SensorData` (sensor.py:259-274 `_SensorData._parse`): format bit, length, identifier. -/
def mpidParse (s : List UInt8) : R ((Nat × Nat × Nat) × List UInt8) := do
  let (h, s) ← takeN 2 s
  match h with
  | [b0, b1] =>
    if b0.toNat &&& 1 = 1 then
      let (h', s) ← takeN 1 s
      match h' with
      | [b2] => .ok ((1, (b0.toNat >>> 1) + 1, b1.toNat ||| (b2.toNat <<< 8)), s)
      | _ => .error .stream
    else .ok ((0, ((b0.toNat >>> 1) &&& 0b1111) + 1, ((b0.toNat >>> 5) &&& 0b111) ||| (b1.toNat <<< 3)), s)
  | _ => .error .stream

/-- The header written by sensor.py:276-289 `_SensorData._build`.  `x - 1 << 1 | 1` and `(x - 1) << 1 | (id & 7) << 5` on Python
integers: negative lengths and identifiers give negative numbers, which `bytes([·])` rejects. -/
def mpidBuild (format length id : Val) : R (List UInt8) :=
  match asInt length, asInt id with
  | some l, some i =>
    if truthy format then do
      let b0 ← (if 1 ≤ l then oneByte (((l - 1).toNat <<< 1 ||| 1 : Nat) : Int) else .error .value : R (List UInt8))
      if 0 ≤ i ∧ i < 65536 then .ok (b0 ++ leBytes 2 i.toNat) else .error .overflow
    else do
      let b0 ← (if 1 ≤ l then oneByte (((l - 1).toNat <<< 1 ||| (i % 8).toNat <<< 5 : Nat) : Int) else .error .value : R (List UInt8))
      let b1 ← oneByte (i / 8)
      .ok (b0 ++ b1)
  | _, _ => .error .type

/-- sensor.py:251-289 `_SensorData` and sensor.py:291 `SensorData`.  `stream.read(length)` returns fewer bytes at the end. -/
def data [Platform] : Con UInt8 where
  parse L ctx s := do
    let ((format, length, id), s) ← mpidParse s
    let (v, _) ← parseSetting L ctx (s.take length) (.int id) [("format", .int format), ("length", .int length)]
    .ok (v, s.drop length)
  build L ctx u :=
    match u with
    | .dict d => do
      let id ← dgetE d "sensor_setting_property_id"
      let format ← dgetE d "format"
      let length ← dgetE d "length"
      let h ← mpidBuild format length id
      let b ← buildSetting L ctx d id
      .ok (h ++ b, u)
    | _ => .error .type

/-- sensor.py:293 `SensorStatus`. -/
abbrev status [Platform] : Con UInt8 := greedyRange data

end Sensor

namespace GenericProperty
open Property

/-- generic/property.py:72 `GenericPropertiesGet`. -/
abbrev propertiesGet : List (Item UInt8) := []
/-- generic/property.py:74-76 `GenericPropertiesStatus`. -/
abbrev propertiesStatus : List (Item UInt8) := [field "property_ids" (greedyRange Sensor.propertyId)]
/-- generic/property.py:78-80 `GenericPropertyGet`. -/
abbrev propertyGet : List (Item UInt8) := [field "property_id" Sensor.propertyId]
/-- generic/property.py:83-98 `_GenericUserPropertySet` and generic/property.py:120 `GenericUserPropertySet`. -/
abbrev userPropertySet [Platform] : Con UInt8 := propertyMixin E.PropertyID propertyDict propertyGet
/-- generic/property.py:101-117 `_GenericPropertyStatus`, generic/property.py:122 `GenericAdminPropertySet` and
generic/property.py:129 `GenericPropertyStatus`. -/
abbrev propertyStatus [Platform] : Con UInt8 := propertyMixin E.PropertyID propertyDict [embedded propertyGet, field "access" (uintLE 1)]
/-- generic/property.py:124-127 `GenericManufacturerPropertySet`. -/
abbrev manufacturerPropertySet : List (Item UInt8) := [
  field "property_id" (enumAdapter (uintLE 2) E.PropertyID), field "access" (enumAdapter (uintLE 1) E.ManufacturerUserAccess)]

end GenericProperty
end BM

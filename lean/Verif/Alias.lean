import Verif.Sensor
/-!
# Model of the containers with an alias (`util.py`: `AliasedContainer`, and the interpreted form of `SwitchStruct`)

`AccessMessage` uses the compiled form of the message classes (`__init__.py:69`), whose results are plain containers; the
classes themselves (`ConfigMessage.parse(...)`, …) are interpreted, and their results answer one more name.
Simplified: attribute access `m.name` (util.py:316-320) is item access with another exception, so only items are modelled; the
members of a container are `Val`s, so a container inside a container is seen as the dictionary of its entries.
-/
namespace BM

/-- util.py:312-326 `AliasedContainer`: a dictionary with `ORIGINAL` and `ALIAS`.  Only `__getitem__` and `__getattr__` are
overridden: `get`, `in`, `keys` and assignment are those of the dictionary. -/
structure Container where
  entries : Dict
  original : String
  alias : String

namespace Container

/-- util.py:322-326 `AliasedContainer.__getitem__`. -/
def item (m : Container) (name : String) : R Val :=
  dgetE m.entries (if name = m.original then m.alias else name)

/-- `dict.get(name)`, not overridden. -/
def get (m : Container) (name : String) : Option Val := dget m.entries name

/-- `m[name] = v`, not overridden. -/
def set (m : Container) (name : String) (v : Val) : Container := { m with entries := dset m.entries name v }

end Container

/-- `key.name.lower()` for a member of `E`. -/
def keyName (E : EnumDef) (k : Val) : R String :=
  match k with
  | .enum _ n =>
    match lookupValue E.members n with
    | some N => .ok (lower N)
    | none => .error .attribute
  | _ => .error .attribute

/-- util.py:391-403 `SwitchStruct._decode`. -/
def switchDecode (key : String) (E : EnumDef) (sw : String) (obj : Dict) : R Container := do
  let k ← dgetE obj key
  let name ← keyName E k
  let v ← match dget obj sw with
    | some v => .ok v
    | none => dgetE obj name
  .ok ⟨dset [(key, k)] name v, sw, name⟩

/-- util.py:409-412: `try: obj[a] except KeyError: obj[b]`. -/
def itemOr (item : String → R Val) (a b : String) : R Val :=
  match item a with
  | .ok v => .ok v
  | .error _ => item b

/-- util.py:405-414 `SwitchStruct._encode`; `item` is `obj[...]`.  (The only exception of `obj[...]` is `KeyError`.) -/
def switchEncode (key : String) (E : EnumDef) (sw : String) (item : String → R Val) : R Dict := do
  let k ← item key
  let k ← E.call k
  let name ← keyName E k
  let v ← itemOr item name sw
  .ok (dset [(key, k)] sw v)

/-- util.py:385-389: `Struct(key, switch)` as in `SwitchStruct.__init__`. -/
def switchMembers (key : String) (keyCon : Con UInt8) (sw : String) (cases : List (Int × Con UInt8)) : Con UInt8 :=
  struct [field key keyCon, field sw (switchC (this key) cases)]

/-- `SwitchStruct.parse` interpreted: `Adapter._parse`. -/
def switchParse (key : String) (keyCon : Con UInt8) (E : EnumDef) (sw : String) (cases : List (Int × Con UInt8)) (L : Lib)
    (s : List UInt8) : R (Container × List UInt8) := do
  let (v, rest) ← (switchMembers key keyCon sw cases).parse L [] s
  let d ← asDict v
  let m ← switchDecode key E sw d
  .ok (m, rest)

/-- `SwitchStruct.build`: `Adapter._build`, for an object with the given items. -/
def switchBuild (key : String) (keyCon : Con UInt8) (E : EnumDef) (sw : String) (cases : List (Int × Con UInt8)) (L : Lib)
    (item : String → R Val) : R (List UInt8) := do
  let d ← switchEncode key E sw item
  let (b, _) ← (switchMembers key keyCon sw cases).build L [] (.dict d)
  .ok b

/-- properties.py:786-790: the container of `PropertyMixin._parse_property` for a result of `propertyMixin`. -/
def propertyContainer (E : EnumDef) (d : Dict) : R Container := do
  let id ← dgetE d "property_id"
  let name ← keyName E id
  .ok ⟨d, "property_value", name⟩

/-- sensor.py:153-161: the container of `SensorSettingRawMixin._parse_sensor_setting` for a result of `settingCon`. -/
def settingContainer (d : Dict) : R Container := do
  let id ← dgetE d "sensor_setting_property_id"
  .ok ⟨d, "sensor_setting_raw", (Sensor.settingKey id).2⟩

end BM

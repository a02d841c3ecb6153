import Verif.SpecAll
/-!
# What is sent for objects outside of the formats

Some messages are built from objects outside of their format (the `odd` objects excluded from C08).  The formats below describe everything
that is sent for such messages: an object `u` is sent as the bytes `b` if `G u b v` for some `v`; `v` has no meaning here.
-/
namespace BM
namespace F

/-- A date given as a number of days beyond the calendar: it is written although no receiver accepts it. -/
def FarDate (u : Val) (b : List UInt8) : Prop :=
  ∃ d w, ∃ n : Nat, u = .dict d ∧ dget d "date" = some w ∧ (asInt w = some (n : Int) ∨ w = .date n) ∧ 2932896 < n ∧ n < 2 ^ 24 ∧ b = leBytes 3 n

/-- The properties that hold a date. -/
def dateIds : List Nat := [0x0C, 0xA0]
/-- The properties whose value is text, not a record. -/
def textIds : List Nat := [0x0E, 0x10, 0x11, 0x12, 0x19, 0x1A, 0x99, 0x9A, 0xB4]

/-- What is sent as value of a property. -/
def valueSent (p : Spec.PropSpec) : Fmt UInt8 := fun u b v => p.fmt u b v ∨ (p.id ∈ dateIds ∧ FarDate u b)

/-- What is sent for a property and its value. -/
def propertySent (P : List Spec.PropSpec) (rs : List (RI UInt8)) : Fmt UInt8 := fun u b _ =>
  ∃ d id p b₁ b₂ dh v, u = .dict d ∧ dget d "property_id" = some id ∧ p ∈ P ∧ Names id p ∧
    seqRel rs d b₁ dh ∧ valueSent p ((dget d p.name).getD .none) b₂ v ∧ b = b₁ ++ b₂

/-- What is sent as the value of the setting `id`: for a known property its value, but nothing for an empty dictionary instead of a
record; for an unknown property, or one given by its name, the raw bytes. -/
def SettingSent (P : List Spec.PropSpec) (d : Dict) (id : Val) (b : List UInt8) : Prop :=
  (∃ p ∈ P, Names id p ∧ ((∃ v, valueSent p (settingValue d p.name) b v) ∨ (p.id ∉ textIds ∧ settingValue d p.name = .dict [] ∧ b = []))) ∨
  ((∀ p ∈ P, ¬ Names id p) ∧ Raw (settingValue d rawKey) b)

/-- What is sent for a setting after its header. -/
def settingSent (P : List Spec.PropSpec) (rs : List (RI UInt8)) : Fmt UInt8 := fun u b _ =>
  ∃ d id b₁ b₂ dh, u = .dict d ∧ dget d settingKey = some id ∧ seqRel rs d b₁ dh ∧ SettingSent P d id b₂ ∧ b = b₁ ++ b₂

/-- What is sent as header of a sensor value.  In format A there are four bits for the length; longer ones, up to 128, spill over into the
identifier. -/
def MpidSent (fmtB : Bool) (length id : Nat) (b : List UInt8) : Prop :=
  match fmtB with
  | false => 1 ≤ length ∧ length ≤ 128 ∧ id < 2048 ∧ b = [UInt8.ofNat (2 * (length - 1) ||| 32 * (id % 8)), UInt8.ofNat (id / 8)]
  | true => Mpid true length id b

/-- What is sent for a sensor value: the length is the one given, whatever the length of the value. -/
def dataSent (P : List Spec.PropSpec) : Fmt UInt8 := fun u b _ =>
  ∃ d id uf ul, ∃ n l : Nat, ∃ b₁ b₂, u = .dict d ∧ dget d settingKey = some id ∧ dget d "format" = some uf ∧ dget d "length" = some ul ∧
    asInt id = some (n : Int) ∧ asInt ul = some (l : Int) ∧ MpidSent (truthy uf) l n b₁ ∧ SettingSent P d id b₂ ∧ b = b₁ ++ b₂

/-- The long form of a message, or the short form for objects that cannot be written in the long form, whatever the reason. -/
abbrev longElseShort (long short : List (RI UInt8)) : Fmt UInt8 := orElse (named "optional" (record long)) (named "minimal" (record short))

/-- What is sent for a rule: for a rule given by its name only the identifier. -/
def ruleSent : Fmt UInt8 := fun u b v => Spec.rule u b v ∨
  ∃ d s x, ∃ n : Nat, u = .dict d ∧ dget d "rule_id" = some (.str s) ∧ dget d "rule" = some x ∧ (s, (n : Int)) ∈ E.RuleIDs.members ∧ b = [UInt8.ofNat n]

abbrev scheduleSent : Fmt UInt8 := record [fld "array_of_slots" (withCount 1 Spec.slot), fld "rules" (listOf ruleSent)]

end F

namespace Spec
open F

/-- The messages with such objects, and everything that is sent for them. -/
def sent [Platform] : List MsgSpec :=
  let propertyHeader := [propId "property_id"]
  let accessHeader := [embed [propId "property_id"], fld "access" (uint 1)]
  [msg 0x4C "generic_user_property_set" (propertySent properties propertyHeader),
  msg 0x4D "generic_user_property_set_unacknowledged" (propertySent properties propertyHeader),
  msg 0x4E "generic_user_property_status" (propertySent properties accessHeader),
  msg 0x48 "generic_admin_property_set" (propertySent properties accessHeader),
  msg 0x49 "generic_admin_property_set_unacknowledged" (propertySent properties accessHeader),
  msg 0x4A "generic_admin_property_status" (propertySent properties accessHeader),
  msg 0x46 "generic_manufacturer_property_status" (propertySent properties accessHeader),
  msg 0x59 "sensor_setting_set" (settingSent properties settingHeader),
  msg 0x5A "sensor_setting_set_unacknowledged" (settingSent properties settingHeader),
  msg 0x5B "sensor_setting_status" (settingSent properties settingAccess),
  msg 0x51 "sensor_descriptor_status" (listOf (longElseShort descriptorLong descriptorShort)),
  msg 0x52 "sensor_status" (listOf (dataSent properties))]

/-- The vendor messages with such objects. -/
def sentVendor : List MsgSpec := [
  vmsg 0xFD3601 "silvair_nds_setup" 0x01 "publication_set" (longElseShort ndsLong ndsShort),
  vmsg 0xFD3601 "silvair_nds_setup" 0x02 "publication_status" (longElseShort ndsLong ndsShort)]

def sentRRule : List MsgSpec := [
  rrule 0x08 (record [u8 "entry_id", fld "scheduler_register_entry" scheduleSent]),
  rrule 0x0B (longElseShort [embed entryShort, fld "scheduler_register_entry" scheduleSent] entryShort)]

end Spec
end BM

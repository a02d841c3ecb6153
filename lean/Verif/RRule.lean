import Verif.Silvair
/-!
# Model of `bluetooth_mesh/messages/silvair/rrule_scheduler.py` and `debugV2.py`
-/
namespace BM

/-- `Prefixed(len, c)` (silvair/rrule_scheduler.py:124). -/
def prefixed (len c : Con UInt8) : Con UInt8 where
  parse L ctx s := do
    let (n, s) ← len.parse L ctx s
    match asInt n with
    | some n => do
      let (b, rest) ← takeN n.toNat s
      let (v, _) ← c.parse L ctx b
      .ok (v, rest)
    | none => .error .type
  build L ctx u := do
    let (b, r) ← c.build L ctx u
    let (l, _) ← len.build L ctx (.int b.length)
    .ok (l ++ b, r)

/-- The elements of a list of integer-like values as a Python set: sorted, without repetitions (the order in which Python iterates
over a set is not modelled; see `C28_set_any_order`). -/
def insertInt (x : Int) : List Int → List Int
  | [] => [x]
  | y :: l => if x < y then x :: y :: l else if x = y then y :: l else y :: insertInt x l

/-- `set(l)`. -/
def intSet : List Val → R (List Int)
  | [] => .ok []
  | v :: vs =>
    match asInt v with
    | some n => do
      let l ← intSet vs
      .ok (insertInt n l)
    | none => .error .type

/-- util.py:101-106 `SetAdapter` over a construct that yields a list of integers or members. -/
def setAdapter (c : Con UInt8) : Con UInt8 := adapter c
  (fun _ v => match v with
    | .list l => do
      let s ← intSet l
      .ok (.set s)
    | _ => .error .type)
  (fun _ u => .ok u)

namespace RRule

/-- silvair/rrule_scheduler.py:135-139 `Slots`. -/
abbrev slots : Con UInt8 := struct [field "slot_id" (uintLE 2), field "element" (uintLE 1),
  field "slot_parameter" (prefixed (uintLE 1) greedyBytes)]
/-- silvair/rrule_scheduler.py:141-150 `DateTime`. -/
abbrev dateTime : Con UInt8 := reversed 5 (bitwise 5 (struct [field "second" (ubits 6), field "minute" (ubits 6), field "hour" (ubits 5),
  field "day" (ubits 5), field "month" (ubits 4), field "year" (ubits 14)]))
/-- silvair/rrule_scheduler.py:152 `RuleID`. -/
abbrev ruleId : Con UInt8 := enumAdapter (uintLE 1) E.RuleIDs
/-- silvair/rrule_scheduler.py:154 `Freq`. -/
abbrev freq : Con UInt8 := enumAdapter (uintLE 1) E.Freqs
/-- silvair/rrule_scheduler.py:156 `Day`. -/
abbrev day : Con UInt8 := enumAdapter (sintLE 1) E.Days
/-- The cases of silvair/rrule_scheduler.py:158-181 `Rules`. -/
abbrev ruleCases : List (Int × Con UInt8) := [
  (0x00, freq), (0x01, dateTime), (0x02, uintLE 2), (0x03, uintLE 2),
  (0x04, prefixedArray (uintLE 1) (uintLE 1)), (0x05, prefixedArray (uintLE 1) (uintLE 1)), (0x06, prefixedArray (uintLE 1) (uintLE 1)),
  (0x07, prefixedArray (uintLE 1) day), (0x08, prefixedArray (uintLE 1) (sintLE 1)), (0x09, prefixedArray (uintLE 1) (sintLE 2)),
  (0x0A, prefixedArray (uintLE 1) (sintLE 1)), (0x0B, uintLE 2), (0x0C, prefixedArray (uintLE 1) (sintLE 2)),
  (0x0D, dateTime), (0x0E, prefixedArray (uintLE 1) dateTime), (0x0F, prefixedArray (uintLE 1) dateTime)]
/-- silvair/rrule_scheduler.py:158-181 `Rules`. -/
abbrev rules : Con UInt8 := struct [field "rule_id" ruleId, field "rule" (switchC (this "rule_id") ruleCases)]
/-- silvair/rrule_scheduler.py:183-186 `SchedulerRegisterEntry`. -/
abbrev schedulerRegisterEntry : Con UInt8 := struct [field "array_of_slots" (prefixedArray (uintLE 1) slots), field "rules" (greedyRange rules)]
/-- silvair/rrule_scheduler.py:190-192 `RulesListStatus`. -/
abbrev rulesListStatus : Con UInt8 := struct [field "rule_ids" (setAdapter (greedyRange ruleId))]
/-- silvair/rrule_scheduler.py:196-198 `RegisterMaxSizeStatus`. -/
abbrev registerMaxSizeStatus : Con UInt8 := struct [field "register_max_size" (uintLE 4)]
/-- silvair/rrule_scheduler.py:202-204 `SchedulerModeSet`. -/
abbrev schedulerModeSet : Con UInt8 := struct [field "scheduler_mode" (enumAdapter (uintLE 1) E.SchedulerModes)]
/-- silvair/rrule_scheduler.py:208-210 `ScheduleRegisterEntryGet`. -/
abbrev entryGet : Con UInt8 := struct [field "entry_id" (uintLE 1)]
/-- silvair/rrule_scheduler.py:212-215 `ScheduleRegisterEntrySet`. -/
abbrev entrySet : Con UInt8 := struct [field "entry_id" (uintLE 1), field "scheduler_register_entry" schedulerRegisterEntry]
/-- silvair/rrule_scheduler.py:221-224 `ScheduleRegisterEntryStatusMinimal`. -/
abbrev entryStatusMinimal : List (Item UInt8) := [field "entry_id" (uintLE 1), field "status" (enumAdapter (uintLE 1) E.StatusCodes)]
/-- silvair/rrule_scheduler.py:226-229 `ScheduleRegisterEntryStatusOptional`. -/
abbrev entryStatusOptional : List (Item UInt8) := [embedded entryStatusMinimal, field "scheduler_register_entry" schedulerRegisterEntry]
/-- silvair/rrule_scheduler.py:231-234 `ScheduleRegisterEntryStatus`. -/
abbrev entryStatus : Con UInt8 := optionalMinimal entryStatusOptional entryStatusMinimal
/-- silvair/rrule_scheduler.py:238-240 `ScheduleRegisterListStatus`. -/
abbrev listStatus : Con UInt8 := struct [field "entry_ids" (setAdapter (greedyRange (uintLE 1)))]

end RRule

namespace DebugV2
variable [Platform]

/-- `Float32l`, `Float64l` (silvair/debugV2.py:121): the value read is known by its bit pattern. -/
def floatLE (w : Nat) : Con UInt8 where
  parse _ _ s := do
    let (b, rest) ← takeN w s
    .ok (.fbits w (leNat b), rest)
  build _ _ u := do
    let b ← Platform.packF w u
    .ok (b, u)

/-- The cases of silvair/debugV2.py:125-146 `DebugV2Parameter`. -/
abbrev parameterCases : List (Int × Con UInt8) := [
  (0x00, uintLE 1), (0x01, uintLE 2), (0x02, uintLE 4), (0x03, uintLE 8), (0x04, sintLE 1), (0x05, sintLE 2), (0x06, sintLE 4),
  (0x07, sintLE 8), (0x08, floatLE 4), (0x09, floatLE 8), (0x0A, uintLE 1), (0x0B, pascalString),
  (0x0C, prefixedArray (uintLE 1) (uintLE 1)), (0xFF, struct [])]
/-- silvair/debugV2.py:125-146 `DebugV2Parameter`. -/
abbrev parameter : Con UInt8 := switchStruct "data_type" (enumAdapter (uintLE 1) E.DebugV2DataTypes) E.DebugV2DataTypes "parameter" parameterCases
/-- silvair/debugV2.py:148-153 `DebugV2SubMessage`. -/
abbrev subMessage : Con UInt8 := struct [field "subopcode" (enumAdapter (uintLE 1) E.DebugV2SubOpcode), field "parameter_type" (uintLE 1),
  field "page_number" (uintLE 1), field "payload" (greedyRange parameter)]

end DebugV2
end BM

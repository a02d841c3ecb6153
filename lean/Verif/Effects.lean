import Verif.Tables
import Verif.Access
/-!
# What `build` does to the caller's object

`construct` itself does not assign to the object it builds from.  The package does so in exactly these places:
`__init__.py:90` (a string opcode is replaced by the member), `config.py:702-707` (`KeyIndicesAdapter._encode` sorts and empties the list),
`time.py:230,233` (`TimeAdapter._encode` replaces numbers of seconds by `timedelta`s) and
`silvair/emergency_lighting_test.py:152` (`TimestampAdapter._encode`, the same for time stamps).  Here the object is described after a call
of `AccessMessage.build`, whether it succeeded or raised.  Simplified: the object is a tree (no list or dictionary occurs in it twice), and
a list whose sorting raises is taken to be left as it was.
-/
namespace BM
namespace Effects
open Time

/-- time.py:229-230: a `float` uncertainty becomes a `timedelta`; `none` if that raises or there is no such entry. -/
def uncertaintyAfter (d : Dict) : Option Dict :=
  match dget d "uncertainty" with
  | none => none
  | some (.flt q) =>
    match timedeltaOf us (.flt q) with
    | .ok td => some (dset d "uncertainty" (.timedelta td))
    | .error _ => none
  | some _ => some d

/-- time.py:232-233, silvair/emergency_lighting_test.py:151-152: an `int` difference becomes a `timedelta`. -/
def deltaAfter (d : Dict) : Dict :=
  match dget d "tai_utc_delta" with
  | none => d
  | some v =>
    match asInt v with
    | none => d
    | some n =>
      match pyTimedelta (n * us) with
      | .ok td => dset d "tai_utc_delta" (.timedelta td)
      | .error _ => d

/-- time.py:214-227, silvair/emergency_lighting_test.py:136-149: `true` if the adapter raises before it reaches the assignments: no `date`,
or a dictionary that is not a date. -/
def raisesEarly (d : Dict) : Bool :=
  match dget d "date" with
  | none => true
  | some (.dict x) => match dictDate x with | .error _ => true | .ok _ => false
  | some _ => false

/-- time.py:213-244 `TimeAdapter._encode`: the caller's object afterwards. -/
def timeAfter (u : Val) : Val :=
  match u with
  | .dict d =>
    if raisesEarly d then u
    else match uncertaintyAfter d with
      | none => u
      | some d => .dict (deltaAfter d)
  | u => u

/-- silvair/emergency_lighting_test.py:135-165 `TimestampAdapter._encode`: the caller's object afterwards. -/
def stampAfter (u : Val) : Val :=
  match u with
  | .dict d => if raisesEarly d then u else .dict (deltaAfter d)
  | u => u

/-- silvair/emergency_lighting_test.py:222-226, 244-249: the time stamp is the first member of both forms. -/
def stampIn (u : Val) : Val :=
  match u with
  | .dict d =>
    match dget d "tai_timestamp" with
    | some t => .dict (dset d "tai_timestamp" (stampAfter t))
    | none => u
  | u => u

/-- util.py:446-447 `NameAdapter._encode`: the alternative is built from the entry of its name, else from the object itself. -/
def altAfter (name : String) (u : Val) : Val :=
  match u with
  | .dict d =>
    match dget d name with
    | some x => .dict (dset d name (stampIn x))
    | none => stampIn u
  | u => u

/-- silvair/emergency_lighting_test.py:233-236, 256-259: the minimal form is tried if the optional one fails. -/
def statusAfter (L : Lib) (ctx : Dict) (opt : List (Item UInt8)) (u : Val) : Val :=
  match (nameAdapter "optional" (struct opt)).build L ctx u with
  | .ok _ => altAfter "optional" u
  | .error _ => altAfter "minimal" (altAfter "optional" u)

/-- The payload of a `SwitchStruct` (util.py:405-414) is found under the name of the member or under the name of the switch: `f` acts
on it. -/
def atPayload (name switch : String) (f : Val → Val) (d : Dict) : Dict :=
  match dget d name with
  | some u => dset d name (f u)
  | none =>
    match dget d switch with
    | some u => dset d switch (f u)
    | none => d

/-- silvair/emergency_lighting_test.py:271-297: the sub-messages with time stamps. -/
def testAfter (L : Lib) (u : Val) : Val :=
  match u with
  | .dict d =>
    match (dget d "subopcode").bind hashInt with
    | some 3 => .dict (atPayload "elt_functional_test_status" "payload" (statusAfter L [] ELT.functionalOptional) d)
    | some 7 => .dict (atPayload "elt_duration_test_status" "payload" (statusAfter L [] ELT.durationOptional) d)
    | _ => u
  | u => u

/-- config.py:696-709 `KeyIndicesAdapter._encode` on the list under `key`; `pre` are the members of the struct before it, which must be
built first. -/
def listAfter (L : Lib) (pre : List (Item UInt8)) (key : String) (u : Val) : Val :=
  match u with
  | .dict d =>
    match buildItems L d pre d, dget d key with
    | .ok _, some (.list us) =>
      match Config.keyIndicesEncode us with
      | .ok (_, rest) => .dict (dset d key (.list rest))
      | .error _ => u
    | _, _ => u
  | u => u

/-- The payload of the message with opcode `n` after it was built (see the messages: time.py:308-327, config.py:1177-1256,
silvair/emergency_lighting_test.py:271-297). -/
def payloadAfter [Platform] (L : Lib) (n : Int) (u : Val) : Val :=
  if n = 0x5C ∨ n = 0x5D then timeAfter u
  else if n = 0xE93601 then testAfter L u
  else if n = 0x8043 then listAfter L [] "net_key_indices" u
  else if n = 0x8002 then listAfter L [field "status" Config.statusCode, Config.netKeyIndex] "app_key_indices" u
  else if n = 0x804C then listAfter L [field "status" Config.statusCode, embedded Config.sigModelGet] "app key indices" u
  else if n = 0x804E then listAfter L [field "status" Config.statusCode, embedded Config.vendorModelGet] "app_key_indices" u
  else u

/-- The registered message an object asks for, and the object with the opcode as the member (__init__.py:84-96). -/
def resolve [Platform] (d : Dict) : Option (Int × Entry × Dict) :=
  match dget d "opcode" with
  | some (.str s) =>
    match findName s (opcodeTable Tables.registry []) with
    | some (n, e) => some (n, e, dset d "opcode" (.enum e.1.cls n))
    | none => none
  | some k =>
    match hashInt k with
    | some n =>
      match tget (opcodeTable Tables.registry []) n with
      | some e => some (n, e, d)
      | none => none
    | none => none
  | none => none

/-- __init__.py:84-98 `_AccessMessage._build`: the caller's object afterwards. -/
def objectAfter [Platform] (L : Lib) (d : Dict) : Dict :=
  match resolve d with
  | some (n, e, d) =>
    match lookupValue e.1.members n with
    | some N => atPayload (lower N) "params" (payloadAfter L n) d
    | none => d
  | none => d

end Effects
end BM

import Verif.Spec
/-!
# Access messages: the specification of opcodes and of the outer object
-/
namespace BM

/-- The opcodes of the Mesh Profile: one byte 0x00–0x7E, two bytes 0x8000–0xBFFF, three bytes 0xC00000–0xFFFFFF. -/
def WellFormed (n : Nat) : Prop := n ≤ 0x7E ∨ (0x8000 ≤ n ∧ n ≤ 0xBFFF) ∨ (0xC00000 ≤ n ∧ n ≤ 0xFFFFFF)

instance : DecidablePred WellFormed := fun _ => by unfold WellFormed; infer_instance

/-- The bytes of an opcode, most significant first. -/
def wireOpcode (n : Nat) : List UInt8 :=
  if n ≤ 0x7E then [UInt8.ofNat n]
  else if n ≤ 0xFFFF then [UInt8.ofNat (n / 256), UInt8.ofNat (n % 256)]
  else [UInt8.ofNat (n / 65536), UInt8.ofNat (n / 256 % 256), UInt8.ofNat (n % 256)]

/-- A sub-message of a vendor message: its number, written as one byte after the opcode, and the key under which its payload is
reported. -/
structure Sub where
  num : Nat
  key : String

/-- The specification of one message type: its opcode, the key under which the decoded payload is reported, and the format of
the payload; vendor messages are told apart further by a sub-opcode.  `odd` describes objects outside the format that the package
nevertheless encodes (to something that does not mean what the object says); there are none for most messages.  `size` is the
length of the payload in bytes, for messages of a fixed length. -/
structure MsgSpec where
  op : Nat
  name : String
  fmt : Fmt UInt8
  odd : Val → Prop := fun _ => False
  sub : Option Sub := none
  size : Option Nat := none

/-- A message type whose payload always occupies `n` bytes. -/
abbrev MsgSpec.sized (m : MsgSpec) (n : Nat) : MsgSpec := { m with size := some n }

/-- A message type without such objects. -/
abbrev msg (op : Nat) (name : String) (fmt : Fmt UInt8) : MsgSpec := { op, name, fmt }

/-- A message type with odd objects. -/
abbrev msgBut (op : Nat) (name : String) (fmt : Fmt UInt8) (odd : Val → Prop) : MsgSpec := { op, name, fmt, odd }

/-- Upper case of an ASCII name. -/
def upper (s : String) : String := String.ofList (s.toList.map Char.toUpper)

/-- `k` spells the opcode: its number (or anything equal to it, such as the enum member), or its name. -/
def Spells (m : MsgSpec) (k : Val) : Prop := hashInt k = some (m.op : Int) ∨ k = .str (upper m.name)

/-- What precedes the payload on the wire. -/
def header (m : MsgSpec) : List UInt8 :=
  wireOpcode m.op ++ match m.sub with | none => [] | some s => [UInt8.ofNat s.num]

/-- The parameters in the user's object: under the message's own name, else under `params`. -/
def outerPayload (m : MsgSpec) (d : Dict) : Option Val := (dget d m.name).or (dget d "params")

/-- The payload of a sub-message in the user's parameters: the sub-opcode must be given by number (or by the member); the payload
is found under the sub-message's own key, else under `payload`. -/
def innerPayload (s : Sub) : Val → Option Val
  | .dict d =>
    if (dget d "subopcode").bind hashInt = some (s.num : Int) then (dget d s.key).or (dget d "payload") else none
  | _ => none

/-- The payload in the user's object. -/
def payload (m : MsgSpec) (d : Dict) : Option Val :=
  match m.sub with
  | none => outerPayload m d
  | some s => (outerPayload m d).bind (innerPayload s)

/-- The object reported for a message with payload `v`; `cls` and `subcls` are the enumeration classes of the opcode and of the
sub-opcode. -/
def report (m : MsgSpec) (cls subcls : String) (v : Val) : Val :=
  .dict [("opcode", .enum cls m.op), (m.name,
    match m.sub with
    | none => v
    | some s => .dict [("subopcode", .enum subcls s.num), (s.key, v)])]

end BM

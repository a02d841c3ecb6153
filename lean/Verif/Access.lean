import Verif.Tables
/-!
# Model of `bluetooth_mesh/messages/__init__.py`
-/
namespace BM

/-- An opcode enumeration together with the payload table of its message class. -/
abbrev Entry := EnumDef × List (Int × Con UInt8)

/-- `d[k] = v` on a dictionary with integer keys. -/
def tset {β} : List (Int × β) → Int → β → List (Int × β)
  | [], k, v => [(k, v)]
  | (k', v') :: t, k, v => if k' = k then (k, v) :: t else (k', v') :: tset t k v

/-- `d[k]` on a dictionary with integer keys. -/
def tget {β} : List (Int × β) → Int → Option β
  | [], _ => none
  | (k', v) :: t, k => if k' = k then some v else tget t k

/-- __init__.py:70-72: the inner loop of `_AccessMessage.__init__`. -/
def registerClass (e : Entry) : List (String × Int) → List (Int × Entry) → List (Int × Entry)
  | [], t => t
  | (_, n) :: ms, t => registerClass e ms (tset t n e)

/-- __init__.py:64-69 `_AccessMessage.__init__`: `self._opcodes`. -/
def opcodeTable : List Entry → List (Int × Entry) → List (Int × Entry)
  | [], t => t
  | e :: es, t => opcodeTable es (registerClass e e.1.members t)

/-- The message construct of a class: `SwitchStruct("opcode" / Opcode(cls), "params" / Switch(this.opcode, cases))`, e.g.
config.py:1177-1256. -/
def messageCon (e : Entry) : Con UInt8 := switchStruct "opcode" (opcodeC (some e.1)) e.1 "params" e.2

/-- __init__.py:71-82 `_AccessMessage._parse` on a stream with contents `buf` positioned at `pos`. -/
def accessParseAt (reg : List Entry) (L : Lib) (buf : List UInt8) (pos : Nat) : R (Val × List UInt8) := do
  let (n, rest) ← opcodeNum (buf.drop pos)
  match tget (opcodeTable reg []) n with
  | none => .ok (.dict [("opcode", .int n), ("params", .bytes rest)], [])
  | some e => do
    let (v, rest) ← (messageCon e).parse L [] buf
    match v with
    | .dict d => .ok (.dict (dset d "opcode" (.enum e.1.cls n)), rest)
    | _ => .error .attribute

/-- `AccessMessage.parse(data)`. -/
def accessParse (reg : List Entry) (L : Lib) (s : List UInt8) : R (Val × List UInt8) := accessParseAt reg L s 0

/-- `next(v for k, v in self._opcodes.items() if v[0].name == name)` (__init__.py:93). -/
def findName (name : String) : List (Int × Entry) → Option (Int × Entry)
  | [] => none
  | (n, e) :: t => if lookupValue e.1.members n = some name then some (n, e) else findName name t

/-- __init__.py:84-98 `_AccessMessage._build`: the bytes written and the caller's object afterwards.
Simplified: of the changes to the caller's object only the replacement of a string opcode by the member is modelled here; the
lists emptied by `KeyIndices` inside the payload are not (`keyIndices` models that effect on its own). -/
def accessBuild (reg : List Entry) (L : Lib) (u : Val) : R (List UInt8 × Val) :=
  match u with
  | .dict d => do
    let op ← dgetE d "opcode"
    match op with
    | .str s =>
      match findName s (opcodeTable reg []) with
      | none => .error .stopIteration
      | some (n, e) => do
        let d := dset d "opcode" (.enum e.1.cls n)
        let (b, _) ← (messageCon e).build L [] (.dict d)
        .ok (b, .dict d)
    | op =>
      match hashInt op with
      | none => .error .type
      | some n =>
        match tget (opcodeTable reg []) n with
        | some e => do
          let (b, _) ← (messageCon e).build L [] (.dict d)
          .ok (b, u)
        | none => do
          let (b, _) ← (opcodeC none).build L [] op
          let p ← dgetE d "params"
          match p with
          | .bytes p => .ok (b ++ p, u)
          | _ => .error .type
  | _ => .error .type

end BM

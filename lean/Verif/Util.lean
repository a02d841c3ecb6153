import Verif.Construct
import Verif.Float
/-!
# Model of `bluetooth_mesh/messages/util.py`
-/
namespace BM

/-- A Python `enum.IntEnum` class: its name and its members in definition order (aliases included). -/
structure EnumDef where
  cls : String
  members : List (String × Int)

/-- `cls._value2member_map_` membership. -/
def EnumDef.has (E : EnumDef) (n : Int) : Bool := E.members.any (fun m => m.2 == n)

/-- `cls[name]`. -/
def lookupName : List (String × Int) → String → Option Int
  | [], _ => none
  | (k, n) :: ms, s => if k = s then some n else lookupName ms s

/-- `cls(n).name`: the first member with that value. -/
def lookupValue : List (String × Int) → Int → Option String
  | [], _ => none
  | (k, n) :: ms, x => if n = x then some k else lookupValue ms x

/-- `cls(x)`: by value; integral floats and booleans find the member they are equal to. -/
def EnumDef.call (E : EnumDef) (x : Val) : R Val :=
  match hashInt x with
  | some n => if E.has n then .ok (.enum E.cls n) else .error .value
  | none => .error .value

/-- util.py:68-69 `Reversed(subcon)`: the `n` bytes of a fixed-size construct in reverse order. -/
def reversed {α} (n : Nat) (c : Con α) : Con α where
  buildNone := c.buildNone
  parse L ctx s := do
    let (b, rest) ← takeN n s
    let (v, _) ← c.parse L ctx b.reverse
    .ok (v, rest)
  build L ctx u := do
    let (b, _) ← c.build L ctx u
    if b.length = n then .ok (b.reverse, u) else .error .stream

/-- Indices (from `i`) of the true bits; util.py:77-86 `BitListAdapter._decode` with `reversed=False`. -/
def bitIndices : Nat → List Bool → List Int
  | _, [] => []
  | i, b :: bs => if b then (i : Int) :: bitIndices (i + 1) bs else bitIndices (i + 1) bs

/-- `bit in obj` for the collections a caller may pass (membership by Python equality with an integer). -/
def containsInt (u : Val) (n : Int) : R Bool :=
  match u with
  | .set l => .ok (l.contains n)
  | .list l => .ok (l.any fun v => hashInt v == some n)
  | .bytes b => .ok (b.any fun x => (x.toNat : Int) == n)
  | .dict _ => .ok false
  | _ => .error .type

/-- util.py:88-94 `BitListAdapter._encode` with `reversed=False`: one Boolean for each of the `8 * size` bits. -/
def bitListBits (u : Val) : Nat → Nat → R (List Bool)
  | _, 0 => .ok []
  | i, n + 1 => do
    let b ← containsInt u i
    let bs ← bitListBits u (i + 1) n
    .ok (b :: bs)

/-- util.py:97-98 `BitList(size)`, i.e. `BitListAdapter(Bitwise(Bit[size * 8]), reversed=False)`.  (`reversed=True` is
never used in the repository.) -/
def bitList (size : Nat) : Con UInt8 where
  parse _ _ s := do
    let (b, rest) ← takeN size s
    .ok (.set (bitIndices 0 (bytesBits b)), rest)
  build _ _ u := do
    let bs ← bitListBits u 0 (8 * size)
    match bitsBytes bs with
    | some b => .ok (b, u)
    | none => .error .integer

/-- util.py:117-120 `_EnumAdapter._decode`. -/
def enumDecode (E : EnumDef) (v : Val) : R Val :=
  match hashInt v with
  | some n => if E.has n then .ok (.enum E.cls n) else .error .validation
  | none => .error .validation

/-- util.py:122-129 `_EnumAdapter._encode`: names by `enum[obj]` (`KeyError` when unknown), everything else by
`enum(obj)`, whose `ValueError` becomes a `ValidationError`. -/
def enumEncode (E : EnumDef) (u : Val) : R Val :=
  match u with
  | .str s =>
    match lookupName E.members s with
    | some n => .ok (.enum E.cls n)
    | none => .error .key
  | u =>
    match hashInt u with
    | some n => if E.has n then .ok (.enum E.cls n) else .error .validation
    | none => .error .validation

/-- util.py:109-133 `EnumAdapter(subcon, enum)`. -/
def enumAdapter {α} (c : Con α) (E : EnumDef) : Con α :=
  adapter c (fun _ => enumDecode E) (fun _ => enumEncode E)

/-- util.py:141-152 `_LogAdapter._decode` over an 8-bit subcon (`MAX_TYPE_VALUE = 255`); `math.pow(2, n)` is exact. -/
def logDecode (maxValue : Nat) (infinity : Bool) (v : Val) : R Val :=
  match asInt v with
  | some n =>
    if n = 0 then .ok (.int 0)
    else if n = 255 ∧ infinity = true then .ok .inf
    else if n > maxValue then .error .validation
    else .ok (.int (2 ^ (n - 1).toNat))
  | none => .error .type

/-- util.py:154-169 `_LogAdapter._encode`. -/
def logEncode [Platform] (maxValue : Nat) (infinity : Bool) (u : Val) : R Val :=
  match u with
  | .inf => if infinity then .ok (.int 255) else .error .validation
  | u =>
    match asNum u with
    | some q =>
      if q = 0 then .ok (.int 0)
      else do
        let l ← Platform.mlog q 2
        let value := fadd l 1
        if (maxValue : Rat) < value then .error .validation else .ok (.int (ftrunc value))
    | none => .error .type

/-- util.py:136-171 `LogAdapter(Int8ul, max_value=…, infinity=…)` (every use has an 8-bit subcon and a maximum). -/
def logAdapter [Platform] (maxValue : Nat) (infinity : Bool := false) : Con UInt8 :=
  adapter (uintLE 1) (fun _ => logDecode maxValue infinity) (fun _ => logEncode maxValue infinity)

/-- util.py:175-182 `validate_range` (ordering comparisons raise `TypeError` on non-numbers). -/
def inRange (mn mx : Option Int) (v : Val) : R Bool :=
  match asNum v with
  | some q =>
    .ok ((match mn with | some m => decide (¬ q < m) | none => true) &&
         (match mx with | some m => decide (¬ (m : Rat) < q) | none => true))
  | none => .error .type

/-- util.py:174-184 `RangeValidator`. -/
def rangeValidator {α} (c : Con α) (mn mx : Option Int) : Con α := validator c (inRange mn mx)

/-- util.py:199-221 `EmbeddedBitStruct(name, *fields, reversed=…)` of `n` bytes, as a member of a `Struct`:
parsing stores the bit struct under `name` and copies each named bit field into the enclosing object; building
packs the bit fields found in the enclosing object.  (The code builds from the *context*, which starts as a copy of the
object and is only extended with the values of earlier members; member names are distinct, so both agree.) -/
def embeddedBitStruct (name : String) (n : Nat) (rev : Bool) (fields : List (Item Bool)) : Item UInt8 :=
  let bs : Con UInt8 := bitwise n (struct fields)
  let c := if rev then reversed n bs else bs
  { buildNone := true
    parse := fun L acc s => do
      let (v, rest) ← c.parse L acc s
      match v with
      | .dict d => .ok (dmerge (dset acc name v) d, rest)
      | _ => .error .type
    build := fun L obj ctx => do
      let (b, _) ← c.build L ctx (.dict obj)
      .ok (b, dset ctx name (.dict obj)) }

/-! ### Opcode -/

/-- `self.type(opcode)`: `int` or an opcode enumeration; a `ValueError` becomes `ValidationError` (util.py:257-258). -/
def opcodeType (E : Option EnumDef) (n : Int) (err : Err) : R Val :=
  match E with
  | none => .ok (.int n)
  | some E => if E.has n then .ok (.enum E.cls n) else .error err

/-- util.py:232-258 `Opcode._parse`, the number part. -/
def opcodeNum (s : List UInt8) : R (Nat × List UInt8) :=
  match s with
  | [] => .error .stream
  | b0 :: s1 =>
    let op := b0.toNat
    if op = 0x7F then .error .validation
    else if op >>> 7 = 0 then .ok (op, s1)
    else
      match s1 with
      | [] => .error .stream
      | b1 :: s2 =>
        let len := op >>> 6
        let op := op <<< 8 ||| b1.toNat
        if len = 2 then .ok (op, s2)
        else if len = 3 then
          match s2 with
          | [] => .error .stream
          | b2 :: s3 => .ok (op <<< 8 ||| b2.toNat, s3)
        else .error .validation

/-- `n.to_bytes(k, byteorder="big")`. -/
def toBytesBE (k : Nat) (n : Int) : R (List UInt8) :=
  if 0 ≤ n ∧ n.toNat < 256 ^ k then .ok (leBytes k n.toNat).reverse else .error .overflow

/-- util.py:260-268 `Opcode._build`, the bytes written. -/
def opcodeBytes (n : Int) : R (List UInt8) :=
  if n > 0xFFFF then toBytesBE 3 n
  else if n > 0xFF then toBytesBE 2 n
  else toBytesBE 1 n

/-- util.py:224-271 `Opcode(type)`. -/
def opcodeC (E : Option EnumDef) : Con UInt8 where
  parse _ _ s := do
    let (n, rest) ← opcodeNum s
    let v ← opcodeType E n .validation
    .ok (v, rest)
  build _ _ u :=
    match asInt u with
    | some n => do
      let b ← opcodeBytes n
      let v ← opcodeType E n .value
      .ok (b, v)
    | none => .error .type

/-! ### Switches and selects -/

/-- util.py:384-438 `SwitchStruct(key, switch)`.  Parsing (compiled form, lines 416-438, and interpreted form, lines
391-403) yields the key under its name and the value under the lower-cased member name; the interpreted form additionally
aliases the switch name to it.  Building (lines 405-414) takes the value from the lower-cased member name, else from the
switch name. -/
def switchStruct (keyName : String) (keyCon : Con UInt8) (E : EnumDef) (swName : String)
    (cases : List (Int × Con UInt8)) : Con UInt8 where
  parse L ctx s := do
    let (k, s) ← keyCon.parse L ctx s
    match asInt k with
    | none => .error .value
    | some n =>
      match lookupValue E.members n with
      | none => .error .value
      | some name =>
        let (v, s) ← (caseOf k cases passC).parse L [(keyName, k)] s
        .ok (.dict [(keyName, k), (lower name, v)], s)
  build L _ u :=
    match u with
    | .dict d => do
      let k0 ← dgetE d keyName
      let k ← E.call k0
      match asInt k with
      | none => .error .value
      | some n =>
        match lookupValue E.members n with
        | none => .error .value
        | some name =>
          let v ← match dget d (lower name) with
            | some v => .ok v
            | none => dgetE d swName
          let (b1, _) ← keyCon.build L [(keyName, k), (swName, v)] k
          let (b2, _) ← (caseOf k cases passC).build L [(keyName, k), (swName, v)] v
          .ok (b1 ++ b2, u)
    | _ => .error .type

/-- util.py:441-447 `NameAdapter(name / c)`. -/
def nameAdapter {α} (name : String) (c : Con α) : Con α where
  buildNone := c.buildNone
  parse L ctx s := do
    let (v, rest) ← c.parse L ctx s
    match v with
    | .dict d => .ok (.dict (dset d "_name" (.str name)), rest)
    | _ => .error .attribute
  build L ctx u :=
    match u with
    | .dict d => do
      let (b, _) ← c.build L ctx ((dget d name).getD u)
      .ok (b, u)
    | _ => .error .attribute

/-- util.py:450-460 `NamedSelect(name₁=c₁, …)`. -/
def namedSelect {α} (alts : List (String × Con α)) : Con α :=
  select (alts.map fun a => nameAdapter a.1 a.2)

/-- util.py:463-474 `IfThenElseDefault(cond, then, default)`. -/
def ifThenElseDefault {α} (cond : Dict → R Bool) (c : Con α) (dflt : Val) : Con α where
  buildNone := c.buildNone
  parse L ctx s := do
    let t ← cond ctx
    if t then c.parse L ctx s else .ok (dflt, s)
  build L ctx u := do
    let t ← cond ctx
    if t then c.build L ctx u else .ok ([], u)

end BM

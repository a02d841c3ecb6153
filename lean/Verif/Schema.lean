import Verif.Case
import Mathlib.Data.Nat.Log
/-!
# Model of `bluetooth_mesh/messages/capnproto/generator.py`

The generator walks through the constructs of the messages and prints a Cap'n Proto schema.  Constructs are represented here by trees
that keep what the generator looks at.  `VariableNames` (a table from object identities to the names of module variables) is represented by
the label `nm` of each tree: the name of the variable that holds the construct, if there is one.

Dictionaries of fields are objects with identity in Python: the stack of the visitor and the table of structs refer to the same
dictionaries.  They are addresses of a heap here.
-/
namespace BM.Schema
open Case

/-- What `Visitor.make_type` distinguishes. -/
inductive Leaf
  /-- `StringEncoded` -/
  | text
  /-- `Bytes`, `GreedyBytes` -/
  | data
  /-- `FormatField` with its type character -/
  | format (c : Char)
  /-- `BitsInteger` -/
  | bits (n : Nat) (signed : Bool)
  /-- `BytesInteger` -/
  | bytesInt (n : Nat) (signed : Bool)
  /-- `Flag` -/
  | flag
  /-- any other construct -/
  | other
  deriving DecidableEq

/-- What `convert` distinguishes, in the order of its tests; `nm` is the name of the variable that holds the construct. -/
inductive Con
  /-- `Struct` -/
  | struct (nm : Option String) (subcons : List Con)
  /-- `Switch`: names of the keys and constructs; `default` with its name, if it has a name and is not `Pass` -/
  | switch (nm : Option String) (cases : List (String × Con)) (dflt : Option (String × Con))
  /-- `Select` -/
  | select (nm : Option String) (subcons : List Con)
  /-- `Renamed` -/
  | renamed (nm : Option String) (name : String) (subcon : Con)
  /-- `IfThenElse` without an alternative; of its construct only the type matters -/
  | ifThen (nm : Option String) (thensubcon : Leaf)
  /-- `StringEncoded` -/
  | text (nm : Option String)
  /-- `GreedyRange`, `Array` -/
  | many (nm : Option String) (subcon : Con)
  /-- `FocusedSeq`: the construct under the name of the selected field -/
  | focused (nm : Option String) (subcon : Con)
  /-- `Computed`, `Pass`, `StopIf` -/
  | skip (nm : Option String)
  /-- a construct without `_subcon` and `subcon` -/
  | leaf (nm : Option String) (l : Leaf)
  /-- any other construct: `_subcon`, else `subcon` -/
  | wrap (nm : Option String) (subcon : Con)

/-- generator.py:53-54 `VariableNames.__getitem__`. -/
def Con.nm : Con → Option String
  | .struct n _ | .switch n _ _ | .select n _ | .renamed n _ _ | .ifThen n _ | .text n | .many n _ | .focused n _ | .skip n | .leaf n _ | .wrap n _ => n

/-- The value of a field: the name of its type, or the address of a dictionary (a union). -/
inductive FieldType
  | ty (t : String)
  | ref (a : Nat)
  deriving DecidableEq

/-- A dictionary of fields.  The key is `None` for a union without a name. -/
abbrev Fields := List (Option String × FieldType)

/-- `d[k] = v`. -/
def setField : Fields → Option String → FieldType → Fields
  | [], k, v => [(k, v)]
  | (k', v') :: d, k, v => if k' = k then (k, v) :: d else (k', v') :: setField d k v

/-- `d.get(k)`. -/
def getField (d : Fields) (k : Option String) : Option FieldType := (d.find? fun e => e.1 == k).map Prod.snd

/-- generator.py:187-283 `Visitor`: the objects, the tables `types` and `structs`, the stack (innermost first). -/
structure Visitor where
  heap : List Fields
  types : List (String × Nat)
  structs : List (String × Nat)
  stack : List (Option String × Nat)
  hasUnion : Bool

/-- `d[k] = v` for tables of addresses. -/
def setAddr : List (String × Nat) → String → Nat → List (String × Nat)
  | [], k, v => [(k, v)]
  | (k', v') :: d, k, v => if k' = k then (k, v) :: d else (k', v') :: setAddr d k v

/-- `d.get(k)` for tables of addresses. -/
def getAddr (d : List (String × Nat)) (k : String) : Option Nat := (d.find? fun e => e.1 == k).map Prod.snd

/-- generator.py:188-194 `Visitor.__init__`. -/
def Visitor.init (structName : String) : Visitor := ⟨[[]], [], [(structName, 0)], [(some structName, 0)], false⟩

/-- generator.py:196-199 `Visitor.current`. -/
def Visitor.current (v : Visitor) : R Nat :=
  match v.stack with
  | (_, a) :: _ => .ok a
  | [] => .error .key

/-- `self.current[k] = t`. -/
def Visitor.assign (v : Visitor) (k : Option String) (t : FieldType) : R Visitor := do
  let a ← v.current
  return { v with heap := v.heap.modify a fun d => setField d k t }

/-- generator.py:201-207 `Visitor._camelcase`: the same as `camelcase` of util.py, and `None` for `None`. -/
def fieldName : Option String → Option String := Option.map camelcase

/-- generator.py:209-245 `Visitor.make_type`, the entry `FORMAT_FIELD_TYPES`. -/
def formatType : Char → Option String
  | 'c' => "UInt8" | 'b' => "Int8" | 'B' => "UInt8" | 'h' => "Int16" | 'H' => "UInt16" | 'i' => "Int32" | 'I' => "UInt32" | 'l' => "Int32" | 'L' => "UInt32"
  | 'q' => "Int64" | 'Q' => "UInt64" | 'f' => "Float32" | 'd' => "Float64" | _ => none

/-- generator.py:237, 241 (in `Visitor.make_type`): `max(2 ** math.ceil(math.log2(n)), 8)`.  The logarithm is computed exactly here (`math.log2`
is exact for powers of two, and nowhere near an integer for other small numbers); it is an error for 0. -/
def width (n : Nat) : R Nat := if n = 0 then .error .value else .ok (max (2 ^ Nat.clog 2 n) 8)

/-- generator.py:209-245 `Visitor.make_type`; `None` for other constructs. -/
def makeType : Leaf → R (Option String)
  | .text => .ok (some "Text")
  | .data => .ok (some "Data")
  | .format c => match formatType c with | some t => .ok (some t) | none => .error .key
  | .bits n signed => do let w ← width n; return some ((if signed then "Int" else "UInt") ++ toString w)
  | .bytesInt n signed => do let w ← width (n * 8); return some ((if signed then "Int" else "UInt") ++ toString w)
  | .flag => .ok (some "Bool")
  | .other => .ok none

/-- generator.py:247-252 `Visitor.enter_struct`. -/
def Visitor.enterStruct (v : Visitor) (field : Option String) (name : String) (many : Bool) : R Visitor := do
  let v ← v.assign (fieldName field) (.ty (if many then "List(" ++ name ++ ")" else name))
  match getAddr v.structs name with
  | some a => return { v with stack := (some name, a) :: v.stack }
  | none => return { v with heap := v.heap ++ [[]], structs := v.structs ++ [(name, v.heap.length)], stack := (some name, v.heap.length) :: v.stack }

/-- generator.py:254-259 `Visitor.enter_union`.  If the entry is the name of a type, the next use of it as a dictionary is an error in Python; it
is an error at once here. -/
def Visitor.enterUnion (v : Visitor) (field : Option String) : R Visitor := do
  let a ← v.current
  let k := fieldName field
  match getField (v.heap.getD a []) k with
  | some (.ref r) => return { v with stack := (k, r) :: v.stack, hasUnion := true }
  | some (.ty _) => .error .type
  | none =>
    let r := v.heap.length
    return { v with heap := (v.heap.modify a fun d => setField d k (.ref r)) ++ [[]], stack := (k, r) :: v.stack, hasUnion := true }

/-- generator.py:261-270 `Visitor.exit`. -/
def Visitor.exit (v : Visitor) : R Visitor :=
  match v.stack with
  | [] => .error .key
  | (name, a) :: rest =>
    if v.stack.length = 3 then
      if v.hasUnion then .ok { v with hasUnion := false, stack := rest }
      else
        match name with
        | none => .error .key
        | some n =>
          if (getAddr v.structs n).isSome then
            .ok { v with types := setAddr v.types n a, structs := v.structs.filter (fun e => e.1 != n), hasUnion := false, stack := rest }
          else .error .key
    else .ok { v with stack := rest }

/-- generator.py:275-283 `Visitor.field`.  The name of the struct is `none` for `None`, which is printed as `None`. -/
def Visitor.field (v : Visitor) (l : Leaf) (field : Option String) (structName : Option String) (many : Bool) : R Visitor := do
  let t ← makeType l
  let t := (t.or structName).getD "None"
  v.assign (fieldName field) (.ty (if many then "List(" ++ t ++ ")" else t))

/-- generator.py:68 (in `convert`): `struct_name or names[con] or f"{message_name}Params"`.  No name is empty. -/
def structNameOf (given : Option String) (con : Con) (message : Option String) : String := (given.or con.nm).getD (message.getD "None" ++ "Params")

mutual
/-- generator.py:60-184 `convert`.  `field_name` and the names of keys are strings. -/
def convert (con : Con) (v : Visitor) (field : Option String) (given : Option String) (many : Bool) (message : Option String) : R Visitor :=
  let name := structNameOf given con message
  if field.any isPrivate then .ok v
  else
    match con with
    | .skip _ => .ok v
    | .struct _ subs => do
      let v ← v.enterStruct field name many
      let v ← convertAll subs v message
      v.exit
    | .switch _ cases dflt =>
      if many then do
        let v ← v.enterStruct field name many
        let v ← v.enterUnion none
        let v ← convertCases cases v message
        let v ← convertDefault dflt v name message
        let v ← v.exit
        v.exit
      else do
        let v ← v.enterUnion field
        let v ← convertCases cases v message
        let v ← convertDefault dflt v name message
        v.exit
    | .select _ subs =>
      if many then do
        let v ← v.enterStruct field name many
        let v ← v.enterUnion none
        let v ← convertAll subs v message
        let v ← v.exit
        v.exit
      else do
        let v ← v.enterUnion field
        let v ← convertAll subs v message
        v.exit
    | .renamed _ n sub => convert sub v (some n) none many message
    | .ifThen _ l => v.field l field none false
    | .text _ => v.field .text field (some name) false
    | .many _ sub => convert sub v field none true message
    | .focused _ sub => convert sub v field (some name) false none
    | .leaf _ l => v.field l field (some name) many
    | .wrap _ sub => convert sub v field (some name) many message
/-- generator.py:79-80, 115-120 (in `convert`): the loops over the sub-constructs. -/
def convertAll : List Con → Visitor → Option String → R Visitor
  | [], v, _ => .ok v
  | c :: cs, v, message => do
    let v ← convert c v none none false message
    convertAll cs v message
/-- generator.py:91-93 (in `convert`): the loop over the cases of a switch. -/
def convertCases : List (String × Con) → Visitor → Option String → R Visitor
  | [], v, _ => .ok v
  | (k, c) :: cs, v, message => do
    let v ← convert c v (some k) none false message
    convertCases cs v message
/-- generator.py:94-101 (in `convert`): the default of a switch. -/
def convertDefault : Option (String × Con) → Visitor → String → Option String → R Visitor
  | none, v, _, _ => .ok v
  | some (k, c), v, name, message => convert c v (some k) (some name) false message
end

/-! ### Printing -/

/-- The fields of a struct with its unions. -/
inductive Tree
  | field (name : Option String) (type : String)
  | union (name : Option String) (fields : List Tree)

/-- The dictionaries below an address.  The first argument bounds the depth. -/
def tree (heap : List Fields) : Nat → Nat → List Tree
  | 0, _ => []
  | f + 1, a => (heap.getD a []).map fun e =>
    match e.2 with
    | .ty t => .field e.1 t
    | .ref r => .union e.1 (tree heap f r)

/-- A line of the schema: a field with its ordinal; beginning and end of a union. -/
inductive Line
  | field (name : Option String) (tag : Nat) (type : String)
  | openUnion (name : Option String)
  | close
  deriving DecidableEq

mutual
/-- generator.py:303-321 `describe` (in `generate`): the lines and the next ordinal. -/
def describe : List Tree → Nat → List Line × Nat
  | [], tag => ([], tag)
  | t :: ts, tag =>
    let (l₁, tag₁) := describeOne t tag
    let (l₂, tag₂) := describe ts tag₁
    (l₁ ++ l₂, tag₂)
/-- generator.py:307-321 (in `describe`): one entry. -/
def describeOne : Tree → Nat → List Line × Nat
  | .field n t, tag => ([.field n tag t], tag + 1)
  | .union n fs, tag =>
    let (l, tag') := describe fs tag
    (.openUnion n :: (l ++ [.close]), tag')
end

/-! ### The whole schema -/

/-- `d.update(e)`. -/
def update (d e : Fields) : Fields := e.foldl (fun d x => setField d x.1 x.2) d

/-- generator.py:290-291 (in `generate`): the loop over the messages.  A message is given with the name of the variable that holds its opcode. -/
def visitAll : List (Option String × Con) → Visitor → R Visitor
  | [], v => .ok v
  | (opcode, m) :: ms, v => do
    let v ← convert m v opcode none false m.nm
    visitAll ms v

/-- generator.py:296-298 (in `generate`): one turn of the second loop; `u` is the address of the union of `AccessMessage`. -/
def gather (u : Nat) (v : Visitor) (m : Con) : Visitor :=
  match m.nm with
  | none => v
  | some n =>
    let found := (getAddr v.structs n).or (getAddr v.types n)
    let v := { v with structs := v.structs.filter (fun e => e.1 != n) }
    match found with
    | none => v
    | some a =>
      match getField (v.heap.getD a []) none with
      | some (.ref r) => { v with heap := v.heap.modify u fun d => update d (v.heap.getD r []) }
      | _ => v

/-- generator.py:286-298 (in `generate`): the visitor at the time of printing. -/
def collect (messages : List (Option String × Con)) : R Visitor := do
  let v ← visitAll messages (Visitor.init "AccessMessage")
  let u := v.heap.length
  let v := { v with heap := v.heap ++ [[], [(some "opcode", .ty "UInt32"), (none, .ref u)]], structs := setAddr v.structs "AccessMessage" (u + 1) }
  return messages.foldl (fun v m => gather u v m.2) v

/-- generator.py:323-327 (in `generate`): the structs that are printed, with the lines between their braces. -/
def printed (v : Visitor) : List (String × List Line) :=
  (v.types ++ v.structs).map fun e => (e.1, (describe (tree v.heap (v.heap.length + 2) e.2) 0).1)

/-- generator.py:286-327 `generate`. -/
def generate (messages : List (Option String × Con)) : R (List (String × List Line)) := do
  let v ← collect messages
  return printed v

end BM.Schema

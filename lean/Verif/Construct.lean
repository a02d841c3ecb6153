import Verif.Py
import Verif.Num
import Verif.Float
/-!
# construct 2.9.45 combinators

The repository is written on top of `construct==2.9.45` (`/repo/pyproject.toml:18`).  The library is not part of the
repository; each definition below states the behaviour of one library class and cites a place of the repository
that relies on it.  This file is part of the trusted base.
-/
namespace BM

/-- Behaviour of the library that is not fixed by the repository: what construct does with integers that do not fit a
`BitsInteger` / `BytesInteger` field (2.9.45 is believed to keep the low bits silently; later versions raise).  Negative
numbers in unsigned fields always raise `IntegerError`. -/
structure Lib where
  bitsOvf : (width : Nat) → (signed : Bool) → Int → R (List Bool)
  bytesOvf : (width : Nat) → (signed : Bool) → Int → R (List UInt8)
  bits_neg : ∀ n k, k < 0 → ∃ e, bitsOvf n false k = .error e
  bytes_neg : ∀ n k, k < 0 → ∃ e, bytesOvf n false k = .error e

/-- The library rejects integers that do not fit. -/
structure Lib.Strict (L : Lib) : Prop where
  bits : ∀ n s k, ∃ e, L.bitsOvf n s k = .error e
  bytes : ∀ n s k, ∃ e, L.bytesOvf n s k = .error e

/-- `n` is the bit pattern of a NaN, in the single or double precision format of `w` bytes. -/
def NanBits (w n : Nat) : Prop :=
  if w = 4 then n / 2 ^ 23 % 2 ^ 8 = 255 ∧ n % 2 ^ 23 ≠ 0 else n / 2 ^ 52 % 2 ^ 11 = 2047 ∧ n % 2 ^ 52 ≠ 0

/-- Behaviour of the platform's floating-point library that is not fixed by IEEE 754: `math.log(x, base)`, `x ** y` and the
packing of a Python number into a `w`-byte wire float.  The accuracy of `math.log(·, 2)` on the integers that matter here
(up to 2^17) is assumed: exact on powers of two, and otherwise at least 2^-20 away from the neighbouring integers (the
true logarithm is at least 2^-17 away); larger integers have logarithms of at least 17.  For powers and logarithms to the
base 1.1 (used by one property type) a modest accuracy is assumed: powers have a relative error of at most 2^-40, and the
logarithm of a number within 2.5 % of `1.1 ^ k` differs from `k` by at most 0.3 (the true bound is 0.27).
A wire float of `w` bytes packs to `w` bytes, and one that has been read and is not a NaN packs to the bytes it was read from. -/
class Platform where
  mlog : Rat → Rat → R Rat
  mpow : Rat → Int → R Rat
  packF : Nat → Val → R (List UInt8)
  log_pow : ∀ k : Nat, k ≤ 17 → mlog ((2 ^ k : Nat) : Rat) 2 = .ok (k : Rat)
  log_between : ∀ k v : Nat, k < 17 → 2 ^ k < v → v < 2 ^ (k + 1) →
    ∃ l, mlog (v : Rat) 2 = .ok l ∧ (k : Rat) + 1 / 2 ^ 20 ≤ l ∧ l ≤ (k : Rat) + 1 - 1 / 2 ^ 20
  log_large : ∀ v : Nat, 2 ^ 17 ≤ v → ∃ l, mlog (v : Rat) 2 = .ok l ∧ (17 : Rat) ≤ l
  pow11 : ∀ k : Int, -64 ≤ k → k ≤ 191 → ∃ x, mpow (rnd (11 / 10)) k = .ok x ∧
    (11 / 10 : Rat) ^ k * (1 - 1 / 2 ^ 40) ≤ x ∧ x ≤ (11 / 10 : Rat) ^ k * (1 + 1 / 2 ^ 40)
  log11 : ∀ (k : Int) (q : Rat), -64 ≤ k → k ≤ 191 → (11 / 10 : Rat) ^ k * (39 / 40) ≤ q → q ≤ (11 / 10 : Rat) ^ k * (41 / 40) →
    ∃ l, mlog q (rnd (11 / 10)) = .ok l ∧ (k : Rat) - 3 / 10 ≤ l ∧ l ≤ (k : Rat) + 3 / 10
  packF_len : ∀ w u b, packF w u = .ok b → b.length = w
  packF_bits : ∀ w n, (w = 4 ∨ w = 8) → n < 256 ^ w → ¬ NanBits w n → packF w (.fbits w n) = .ok (leBytes w n)

/-- A construct over streams of `α` (`UInt8`, or `Bool` inside `Bitwise`).  The `Dict` argument is the context of
the enclosing `Struct` (`this`); `build` also returns construct's *buildret*.  `buildNone` is `flagbuildnone`. -/
structure Con (α : Type) where
  buildNone : Bool := false
  parse : Lib → Dict → List α → R (Val × List α)
  build : Lib → Dict → Val → R (List α × Val)

/-- `stream_read(stream, n)`. -/
def takeN {α} (n : Nat) (s : List α) : R (List α × List α) :=
  if n ≤ s.length then .ok (s.take n, s.drop n) else .error .stream

/-! ### Leaf constructs -/

/-- `FormatField('<', 'B'/'H'/'L'/'Q')`: `Int8ul`, `Int16ul`, `Int32ul`, `Int64ul` (e.g. config.py:429). -/
def uintLE (n : Nat) : Con UInt8 where
  parse _ _ s := do
    let (b, rest) ← takeN n s
    .ok (.int (leNat b), rest)
  build _ _ u :=
    match asInt u with
    | some k => if 0 ≤ k ∧ k.toNat < 256 ^ n then .ok (leBytes n k.toNat, u) else .error .formatField
    | none => .error .formatField

/-- `Int8sl`, `Int16sl`, `Int32sl`, `Int64sl` (e.g. config.py:567). -/
def sintLE (n : Nat) : Con UInt8 where
  parse _ _ s := do
    let (b, rest) ← takeN n s
    .ok (.int (toSigned (256 ^ n) (leNat b)), rest)
  build _ _ u :=
    match asInt u with
    | some k =>
      if -(256 ^ n : Nat) ≤ 2 * k ∧ 2 * k < (256 ^ n : Nat) then .ok (leBytes n (ofSigned (256 ^ n) k), u)
      else .error .formatField
    | none => .error .formatField

/-- `BytesInteger(n, swapped=True)`, `Int24ul` (e.g. config.py:1091). -/
def bytesIntLE (n : Nat) : Con UInt8 where
  parse _ _ s := do
    let (b, rest) ← takeN n s
    .ok (.int (leNat b), rest)
  build L _ u :=
    match asInt u with
    | some k =>
      if 0 ≤ k ∧ k.toNat < 256 ^ n then .ok (leBytes n k.toNat, u)
      else do
        let b ← L.bytesOvf n false k
        .ok (b, u)
    | none => .error .integer

/-- `BytesInteger(n)`: big-endian. -/
def bytesIntBE (n : Nat) : Con UInt8 where
  parse _ _ s := do
    let (b, rest) ← takeN n s
    .ok (.int (leNat b.reverse), rest)
  build L _ u :=
    match asInt u with
    | some k =>
      if 0 ≤ k ∧ k.toNat < 256 ^ n then .ok ((leBytes n k.toNat).reverse, u)
      else do
        let b ← L.bytesOvf n false k
        .ok (b, u)
    | none => .error .integer

/-- `BytesInteger(n, swapped=True, signed=True)`: `Int24sl`. -/
def bytesSIntLE (n : Nat) : Con UInt8 where
  parse _ _ s := do
    let (b, rest) ← takeN n s
    .ok (.int (toSigned (256 ^ n) (leNat b)), rest)
  build L _ u :=
    match asInt u with
    | some k =>
      if -(256 ^ n : Nat) ≤ 2 * k ∧ 2 * k < (256 ^ n : Nat) then .ok (leBytes n (ofSigned (256 ^ n) k), u)
      else do
        let b ← L.bytesOvf n true k
        .ok (b, u)
    | none => .error .integer

/-- `BitsInteger(n)` (e.g. config.py:571). -/
def ubits (n : Nat) : Con Bool where
  parse _ _ s := do
    let (b, rest) ← takeN n s
    .ok (.int (bitsNat b), rest)
  build L _ u :=
    match asInt u with
    | some k =>
      if 0 ≤ k ∧ k.toNat < 2 ^ n then .ok (natBits n k.toNat, u)
      else do
        let b ← L.bitsOvf n false k
        .ok (b, u)
    | none => .error .integer

/-- `BitsInteger(n, signed=True)` (config.py:572). -/
def sbits (n : Nat) : Con Bool where
  parse _ _ s := do
    let (b, rest) ← takeN n s
    .ok (.int (toSigned (2 ^ n) (bitsNat b)), rest)
  build L _ u :=
    match asInt u with
    | some k =>
      if -(2 ^ n : Nat) ≤ 2 * k ∧ 2 * k < (2 ^ n : Nat) then .ok (natBits n (ofSigned (2 ^ n) k), u)
      else do
        let b ← L.bitsOvf n true k
        .ok (b, u)
    | none => .error .integer

/-- `Flag` on bytes: `stream_read(1) != b"\x00"`. -/
def flag : Con UInt8 where
  parse _ _ s := do
    let (b, rest) ← takeN 1 s
    .ok (.bool (b != [0]), rest)
  build _ _ u := .ok ([if truthy u then 1 else 0], u)

/-- `Flag` inside `Bitwise` (config.py:417). -/
def flagBit : Con Bool where
  parse _ _ s := do
    let (b, rest) ← takeN 1 s
    .ok (.bool (b != [false]), rest)
  build _ _ u := .ok ([truthy u], u)

/-- `Bytes(n)`: builds from a byte string of exactly that length, or from an integer, big-endian (config.py:857). -/
def bytesN (n : Nat) : Con UInt8 where
  parse _ _ s := do
    let (b, rest) ← takeN n s
    .ok (.bytes b, rest)
  build L _ u :=
    match u with
    | .bytes b => if b.length = n then .ok (b, u) else .error .stream
    | u =>
      match asInt u with
      | some k =>
        if 0 ≤ k ∧ k.toNat < 256 ^ n then .ok ((leBytes n k.toNat).reverse, u)
        else do
          let b ← L.bytesOvf n false k
          .ok (b, u)
      | none => .error .type

/-- `GreedyBytes` (config.py:795): everything to the end; builds from bytes, or from an integer as one byte. -/
def greedyBytes : Con UInt8 where
  parse _ _ s := .ok (.bytes s, [])
  build L _ u :=
    match u with
    | .bytes b => .ok (b, u)
    | u =>
      match asInt u with
      | some k =>
        if 0 ≤ k ∧ k.toNat < 256 then .ok (leBytes 1 k.toNat, u)
        else do
          let b ← L.bytesOvf 1 false k
          .ok (b, u)
      | none => .error .type

/-- `Padding(n)`: skips on parse, writes zeros on build (config.py:670). -/
def padding {α} (zero : α) (n : Nat) : Con α where
  buildNone := true
  parse _ _ s := do
    let (_, rest) ← takeN n s
    .ok (.none, rest)
  build _ _ _ := .ok (List.replicate n zero, .none)

/-- `Pass`. -/
def passC {α} : Con α where
  buildNone := true
  parse _ _ s := .ok (.none, s)
  build _ _ u := .ok ([], u)

/-! ### Adapters -/

/-- `Adapter`: `_decode` after parsing, `_encode` before building; the buildret is the *original* object. -/
def adapter {α} (c : Con α) (dec enc : Lib → Val → R Val) : Con α where
  buildNone := c.buildNone
  parse L ctx s := do
    let (v, rest) ← c.parse L ctx s
    let v' ← dec L v
    .ok (v', rest)
  build L ctx u := do
    let u' ← enc L u
    let (b, _) ← c.build L ctx u'
    .ok (b, u)

/-- `ExprValidator` / `Validator`: the same check on both paths (e.g. util.py:184). -/
def validator {α} (c : Con α) (p : Val → R Bool) : Con α :=
  let chk : Lib → Val → R Val := fun _ v => do
    let ok ← p v
    if ok then .ok v else .error .validation
  adapter c chk chk

/-- `Rebuild(c, f)`: the value built is computed from the context (config.py:550). -/
def rebuild {α} (c : Con α) (f : Dict → R Val) : Con α where
  buildNone := true
  parse := c.parse
  build L ctx _ := do
    let u ← f ctx
    let (b, _) ← c.build L ctx u
    .ok (b, u)

/-- `Default(c, v)`: the value built is `v` when the key is missing or `None`. -/
def defaultC {α} (c : Con α) (dflt : Val) : Con α where
  buildNone := true
  parse := c.parse
  build L ctx u := do
    let u' := match u with | .none => dflt | u => u
    let (b, _) ← c.build L ctx u'
    .ok (b, u')

/-! ### Repetition -/

/-- Parse exactly `n` elements. -/
def parseMany {α} (p : List α → R (Val × List α)) : Nat → List α → R (List Val × List α)
  | 0, s => .ok ([], s)
  | n + 1, s => do
    let (v, s) ← p s
    let (vs, s) ← parseMany p n s
    .ok (v :: vs, s)

/-- Build all elements in order. -/
def buildMany {α} (p : Val → R (List α × Val)) : List Val → R (List α)
  | [] => .ok []
  | u :: us => do
    let (b, _) ← p u
    let bs ← buildMany p us
    .ok (b ++ bs)

/-- `Array(count, c)`, `c[n]`, with the count computed from the context (config.py:552). -/
def arrayC {α} (count : Dict → R Nat) (c : Con α) : Con α where
  parse L ctx s := do
    let n ← count ctx
    let (vs, rest) ← parseMany (c.parse L ctx) n s
    .ok (.list vs, rest)
  build L ctx u := do
    let n ← count ctx
    let us ← iter u
    if us.length = n then
      let b ← buildMany (c.build L ctx) us
      .ok (b, .list us)
    else .error .range

/-- The loop of `GreedyRange._parse`: elements are parsed until one raises; the stream is rewound to the last good
position.  The fuel is the stream length; an element that succeeds without consuming input makes the Python loop
run forever, which the model marks with `Err.diverge`. -/
def greedyLoop {α} (p : List α → R (Val × List α)) : Nat → List α → R (List Val × List α)
  | fuel, s =>
    match p s with
    | .error e => if e = .diverge then .error .diverge else .ok ([], s)
    | .ok (v, rest) =>
      if rest.length < s.length then
        match fuel with
        | 0 => .error .diverge
        | fuel + 1 => do
          let (vs, r) ← greedyLoop p fuel rest
          .ok (v :: vs, r)
      else .error .diverge

/-- `GreedyRange(c)` (e.g. config.py:910). -/
def greedyRange {α} (c : Con α) : Con α where
  parse L ctx s := do
    let (vs, rest) ← greedyLoop (c.parse L ctx) s.length s
    .ok (.list vs, rest)
  build L ctx u := do
    let us ← iter u
    let b ← buildMany (c.build L ctx) us
    .ok (b, .list us)

/-- `PrefixedArray(lengthfield, c)`. -/
def prefixedArray {α} (len c : Con α) : Con α where
  parse L ctx s := do
    let (n, s) ← len.parse L ctx s
    match asInt n with
    | some n =>
      let (vs, rest) ← parseMany (c.parse L ctx) n.toNat s
      .ok (.list vs, rest)
    | none => .error .type
  build L ctx u := do
    let us ← iter u
    let (b, _) ← len.build L ctx (.int us.length)
    let bs ← buildMany (c.build L ctx) us
    .ok (b ++ bs, .list us)

/-! ### Choice -/

/-- First alternative that parses; any exception moves on to the next. -/
def selectParse {α} (L : Lib) (ctx : Dict) : List (Con α) → List α → R (Val × List α)
  | [], _ => .error .select
  | c :: cs, s =>
    match c.parse L ctx s with
    | .ok r => .ok r
    | .error e => if e = .diverge then .error .diverge else selectParse L ctx cs s

/-- First alternative that builds. -/
def selectBuild {α} (L : Lib) (ctx : Dict) : List (Con α) → Val → R (List α × Val)
  | [], _ => .error .select
  | c :: cs, u =>
    match c.build L ctx u with
    | .ok (b, _) => .ok (b, u)
    | .error _ => selectBuild L ctx cs u

/-- `Select(c₁, c₂, …)` (config.py:715). -/
def select {α} (cs : List (Con α)) : Con α where
  buildNone := cs.any (·.buildNone)
  parse L ctx s := selectParse L ctx cs s
  build L ctx u := selectBuild L ctx cs u

def findCase {α} (k : Int) : List (Int × Con α) → Option (Con α)
  | [] => none
  | (n, c) :: cs => if n = k then some c else findCase k cs

/-- The construct selected by a key value; keys that are not equal to a case (including strings) give the default. -/
def caseOf {α} (key : Val) (cases : List (Int × Con α)) (dflt : Con α) : Con α :=
  match hashInt key with
  | some k => (findCase k cases).getD dflt
  | none => dflt

/-- `Switch(keyfunc, cases, default)` with integer-valued (IntEnum) cases. -/
def switchC {α} (key : Dict → R Val) (cases : List (Int × Con α)) (dflt : Con α := passC) : Con α where
  buildNone := cases.all (·.2.buildNone) && dflt.buildNone
  parse L ctx s := do
    let k ← key ctx
    (caseOf k cases dflt).parse L ctx s
  build L ctx u := do
    let k ← key ctx
    (caseOf k cases dflt).build L ctx u

/-- `this.name` / `this["name"]`. -/
def this (k : String) : Dict → R Val := fun ctx => dgetE ctx k

/-! ### Struct -/

/-- One member of a `Struct`: parsing extends the object under construction (which is also the context), building
reads the object and extends the context. -/
structure Item (α : Type) where
  buildNone : Bool := false
  parse : Lib → Dict → List α → R (Dict × List α)
  build : Lib → (obj ctx : Dict) → R (List α × Dict)

/-- `"name" / c` as a member of a `Struct`. -/
def field {α} (k : String) (c : Con α) : Item α where
  buildNone := c.buildNone
  parse L acc s := do
    let (v, rest) ← c.parse L acc s
    .ok (dset acc k v, rest)
  build L obj ctx := do
    let u ← if c.buildNone then .ok ((dget obj k).getD .none) else dgetE obj k
    let ctx := dset ctx k u
    let (b, r) ← c.build L ctx u
    .ok (b, match r with | .none => ctx | r => dset ctx k r)

/-- An unnamed member (only `Padding` in this repository). -/
def anon {α} (c : Con α) : Item α where
  buildNone := c.buildNone
  parse L acc s := do
    let (_, rest) ← c.parse L acc s
    .ok (acc, rest)
  build L _ ctx := do
    let (b, _) ← c.build L ctx .none
    .ok (b, ctx)

def parseItems {α} (L : Lib) : List (Item α) → Dict → List α → R (Dict × List α)
  | [], acc, s => .ok (acc, s)
  | it :: its, acc, s => do
    let (acc, s) ← it.parse L acc s
    parseItems L its acc s

def buildItems {α} (L : Lib) (obj : Dict) : List (Item α) → Dict → R (List α × Dict)
  | [], ctx => .ok ([], ctx)
  | it :: its, ctx => do
    let (b, ctx) ← it.build L obj ctx
    let (bs, ctx) ← buildItems L obj its ctx
    .ok (b ++ bs, ctx)

/-- `Struct(...)`. -/
def struct {α} (its : List (Item α)) : Con α where
  buildNone := its.all (·.buildNone)
  parse L _ s := do
    let (d, rest) ← parseItems L its [] s
    .ok (.dict d, rest)
  build L _ u := do
    let d ← asDict u
    let (b, ctx) ← buildItems L d its d
    .ok (b, .dict ctx)

/-- `Embedded(Struct(...))`: the members belong to the enclosing object (e.g. config.py:852). -/
def embedded {α} (its : List (Item α)) : Item α where
  buildNone := its.all (·.buildNone)
  parse L acc s := do
    let (d, rest) ← parseItems L its [] s
    .ok (dmerge acc d, rest)
  build L obj ctx := do
    let (b, ctx') ← buildItems L obj its obj
    .ok (b, dmerge ctx ctx')

/-! ### Bit-level constructs -/

/-- `Bitwise(c)` for a `c` of `8 * n` bits (`BitStruct`, e.g. config.py:625). -/
def bitwise (n : Nat) (c : Con Bool) : Con UInt8 where
  buildNone := c.buildNone
  parse L ctx s := do
    let (b, rest) ← takeN n s
    let (v, _) ← c.parse L ctx (bytesBits b)
    .ok (v, rest)
  build L ctx u := do
    let (bs, r) ← c.build L ctx u
    if bs.length = 8 * n then
      match bitsBytes bs with
      | some b => .ok (b, r)
      | none => .error .integer
    else .error .integer

end BM

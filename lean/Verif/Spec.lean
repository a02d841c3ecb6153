import Verif.Py
import Verif.Num
import Verif.Util
/-!
# Wire formats: the specification language

A format relates three things: a value `u` handed in by the user, the byte (or bit) string `b` that it is encoded as, and
the canonical value `v` that this string denotes.  `F u b v` is read "`u` may be written as `b`, which means `v`".
Formats are relations; they mention neither parsers nor builders.

The only vocabulary used: the numeric meaning of byte/bit strings (`leNat`, `bitsNat`, `toSigned`), the Python notions
`asInt` (the integer an `int`/`bool`/`IntEnum` object stands for), `iter` and dictionary lookup, and enumerations given as
tables of names and numbers.
-/
namespace BM

abbrev Fmt (α : Type) := Val → List α → Val → Prop

namespace F

/-- An unsigned little-endian integer of `n` bytes satisfying `P`. -/
def uintWhere (n : Nat) (P : Nat → Prop) : Fmt UInt8 := fun u b v =>
  ∃ k : Nat, asInt u = some (k : Int) ∧ P k ∧ b.length = n ∧ leNat b = k ∧ v = .int k

/-- An unsigned little-endian integer of `n` bytes. -/
def uint (n : Nat) : Fmt UInt8 := uintWhere n (fun _ => True)

/-- A signed (two's complement) little-endian integer of `n` bytes. -/
def sint (n : Nat) : Fmt UInt8 := fun u b v =>
  ∃ k : Int, asInt u = some k ∧ b.length = n ∧ toSigned (256 ^ n) (leNat b) = k ∧ v = .int k

/-- An unsigned big-endian integer of `n` bytes. -/
def uintBE (n : Nat) : Fmt UInt8 := fun u b v =>
  ∃ k : Nat, asInt u = some (k : Int) ∧ b.length = n ∧ leNat b.reverse = k ∧ v = .int k

/-- An unsigned integer of `n` bits, most significant bit first. -/
def bitsU (n : Nat) : Fmt Bool := fun u b v =>
  ∃ k : Nat, asInt u = some (k : Int) ∧ b.length = n ∧ bitsNat b = k ∧ v = .int k

/-- A signed integer of `n` bits. -/
def bitsS (n : Nat) : Fmt Bool := fun u b v =>
  ∃ k : Int, asInt u = some k ∧ b.length = n ∧ toSigned (2 ^ n) (bitsNat b) = k ∧ v = .int k

/-- One bit holding a truth value. -/
def bit : Fmt Bool := fun u b v => b = [truthy u] ∧ v = .bool (truthy u)

/-- One byte, 0 or 1, holding a truth value. -/
def byteFlag : Fmt UInt8 := fun u b v => b = [if truthy u then 1 else 0] ∧ v = .bool (truthy u)

/-- Exactly `n` raw bytes (an integer is accepted for its big-endian bytes). -/
def bytes (n : Nat) : Fmt UInt8 := fun u b v =>
  b.length = n ∧ v = .bytes b ∧ (u = .bytes b ∨ asInt u = some (leNat b.reverse : Int))

/-- Raw bytes up to the end (an integer below 256 is accepted for a single byte). -/
def rest : Fmt UInt8 := fun u b v =>
  v = .bytes b ∧ (u = .bytes b ∨ b.length = 1 ∧ asInt u = some (leNat b : Int))

/-- `u` denotes member number `k` of the enumeration: by name, or by (an object equal to) its number. -/
def EnumMeans (E : EnumDef) (u : Val) (k : Int) : Prop :=
  (∃ s, u = .str s ∧ lookupName E.members s = some k) ∨
  (hashInt u = some k ∧ ∃ m ∈ E.members, m.2 = k)

/-- An enumeration member carried by the numeric format `G`. -/
def enumOf {α} (G : Fmt α) (E : EnumDef) : Fmt α := fun u b v =>
  ∃ k w, EnumMeans E u k ∧ G (.enum E.cls k) b w ∧ v = .enum E.cls k

/-- Part of a record: the keys it contributes and the relation between the user's dictionary, the bytes and the
dictionary entries read back. -/
structure RI (α : Type) where
  keys : List String
  rel : Dict → List α → Dict → Prop

/-- A mandatory field. -/
def fld {α} (k : String) (G : Fmt α) : RI α :=
  ⟨[k], fun du b dv => ∃ u v, dget du k = some u ∧ G u b v ∧ dv = [(k, v)]⟩

/-- A field with a default, used when the key is missing or its value is `None`. -/
def fldDefault {α} (k : String) (dflt : Val) (G : Fmt α) : RI α :=
  ⟨[k], fun du b dv => ∃ u v, ((dget du k = some u ∧ u ≠ .none) ∨ ((dget du k = none ∨ dget du k = some .none) ∧ u = dflt)) ∧
    G u b v ∧ dv = [(k, v)]⟩

/-- Reserved space, written as zeros and not reported. -/
def zeros {α} (zero : α) (n : Nat) : RI α :=
  ⟨[], fun _ b dv => b = List.replicate n zero ∧ dv = []⟩

/-- Consecutive parts. -/
def seqRel {α} : List (RI α) → Dict → List α → Dict → Prop
  | [], _, b, dv => b = [] ∧ dv = []
  | r :: rs, du, b, dv => ∃ b₁ b₂ d₁ d₂, b = b₁ ++ b₂ ∧ dv = d₁ ++ d₂ ∧ r.rel du b₁ d₁ ∧ seqRel rs du b₂ d₂

/-- A record: the consecutive encodings of its parts; all other keys of the user's dictionary are ignored. -/
def record {α} (rs : List (RI α)) : Fmt α := fun u b v =>
  ∃ du dv, asDict u = .ok du ∧ seqRel rs du b dv ∧ v = .dict dv

/-- The parts of another record, in place. -/
def embed {α} (rs : List (RI α)) : RI α := ⟨rs.flatMap RI.keys, seqRel rs⟩

/-- A record packed into the bits of `n` bytes, most significant bit first. -/
def packed (n : Nat) (G : Fmt Bool) : Fmt UInt8 := fun u b v => b.length = n ∧ G u (bytesBits b) v

/-- A record packed into the bits of an `n`-byte little-endian word, most significant bit first. -/
def packedLE (n : Nat) (G : Fmt Bool) : Fmt UInt8 := fun u b v => b.length = n ∧ G u (bytesBits b.reverse) v

/-- Bit fields packed into an `n`-byte word (little-endian if `le`) but living in the enclosing record; the parsed record
additionally reports them together under `name`. -/
def bitGroup (name : String) (n : Nat) (le : Bool) (rs : List (RI Bool)) : RI UInt8 :=
  ⟨name :: rs.flatMap RI.keys, fun du b dv => ∃ d,
    b.length = n ∧ seqRel rs du (bytesBits (if le then b.reverse else b)) d ∧ dv = (name, .dict d) :: d⟩

/-- Elementwise encoding. -/
def manyRel {α} (G : Fmt α) : List Val → List α → List Val → Prop
  | [], b, vs => b = [] ∧ vs = []
  | u :: us, b, vs => ∃ b₁ b₂ v vs', b = b₁ ++ b₂ ∧ vs = v :: vs' ∧ G u b₁ v ∧ manyRel G us b₂ vs'

/-- Any number of elements, up to the end of the message. -/
def listOf {α} (G : Fmt α) : Fmt α := fun u b v =>
  ∃ us vs, iter u = .ok us ∧ manyRel G us b vs ∧ v = .list vs

/-- Exactly `n` elements. -/
def listN {α} (n : Nat) (G : Fmt α) : Fmt α := fun u b v =>
  ∃ us vs, iter u = .ok us ∧ us.length = n ∧ manyRel G us b vs ∧ v = .list vs

/-- A named alternative of a record: the user may wrap the fields in a dictionary under the alternative's name; the value
read back records the name of the alternative. -/
def named {α} (name : String) (G : Fmt α) : Fmt α := fun u b v =>
  ∃ d dv, u = .dict d ∧ G ((dget d name).getD u) b (.dict dv) ∧ v = .dict (dv ++ [("_name", .str name)])

/-- `u` cannot be written in the format. -/
def Unencodable {α} (G : Fmt α) (u : Val) : Prop := ¬ ∃ b v, G u b v

/-- The first of two formats in which `u` can be written. -/
def orElse {α} (G H : Fmt α) : Fmt α := fun u b v => G u b v ∨ (Unencodable G u ∧ H u b v)

end F
end BM

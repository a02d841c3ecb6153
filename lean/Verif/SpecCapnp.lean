import Verif.Case
import Verif.Schema
/-!
# What a Cap'n Proto message accepts (specification for C50)

`pycapnp` fills a message from a dictionary (`new_message(**params)`, tests/test_capnproto.py): it assigns every entry to the field of that
name.  `Accepts S T v`: assigning the Python value `v` to a field of type `T` raises no exception, for the schema `S`.  The rules are those of
the library (pycapnp and the C++ library below it), which is not part of the repository:

* an integer is accepted by an integer type that can hold it, and by the floating-point types;
* a floating-point number is accepted by the floating-point types, and by an integer type if it is equal to an integer that the type can hold;
* a boolean is accepted by `Bool` only, a string by `Text` and `Data`; `None` is never accepted;
* a list is accepted by `List(T)` if `T` accepts its elements;
* a dictionary is accepted by a struct if each of its keys is a member of the struct and the value is accepted there.  The members of a union
  without a name are members of the struct; a union with a name is one member, which accepts a dictionary of members of the union.  A union
  holds one member at a time, so that at most one key may belong to it.
-/
namespace BM.Capnp
open BM.Schema

/-- The integer types: the name, signed or not, the number of bits. -/
def intTypes : List (String × Bool × Nat) :=
  [("UInt8", false, 8), ("UInt16", false, 16), ("UInt32", false, 32), ("UInt64", false, 64), ("Int8", true, 8), ("Int16", true, 16), ("Int32", true, 32), ("Int64", true, 64)]

/-- The integers of a type. -/
def Holds (signed : Bool) (w : Nat) (k : Int) : Prop :=
  if signed then -2 ^ (w - 1) ≤ k ∧ k < 2 ^ (w - 1) else 0 ≤ k ∧ k < 2 ^ w

/-- The names of the fields among the entries. -/
def fieldNames : List Tree → List String
  | [] => []
  | .field (some n) _ :: ts => n :: fieldNames ts
  | .field none _ :: ts => fieldNames ts
  | .union (some n) _ :: ts => n :: fieldNames ts
  | .union none _ :: ts => fieldNames ts

mutual
/-- A field of type `T` accepts a value. -/
inductive Accepts (S : List (String × List Tree)) : String → Val → Prop
  | int {T s w n} : (T, s, w) ∈ intTypes → Holds s w n → Accepts S T (.int n)
  | whole {T s w} {n : Int} : (T, s, w) ∈ intTypes → Holds s w n → Accepts S T (.flt n)
  | float {T q} : T ∈ ["Float32", "Float64"] → Accepts S T (.flt q)
  | floatInt {T n} : T ∈ ["Float32", "Float64"] → Accepts S T (.int n)
  | floatBits {T w n} : T ∈ ["Float32", "Float64"] → Accepts S T (.fbits w n)
  | floatInf {T} : T ∈ ["Float32", "Float64"] → Accepts S T .inf
  | bool {b} : Accepts S "Bool" (.bool b)
  | text {T s} : T ∈ ["Text", "Data"] → Accepts S T (.str s)
  | list {T l} : (∀ v ∈ l, Accepts S T v) → Accepts S ("List(" ++ T ++ ")") (.list l)
  | struct {T fs d} : (T, fs) ∈ S → Members S fs d → Accepts S T (.dict d)
/-- The members of a struct accept the entries of a dictionary. -/
inductive Members (S : List (String × List Tree)) : List Tree → Dict → Prop
  | mk {fs d} : (∀ k v, (k, v) ∈ d → Member S fs k v) →
      (∀ us, .union none us ∈ fs → (d.filter fun e => (fieldNames us).contains e.1).length ≤ 1) → Members S fs d
/-- One entry. -/
inductive Member (S : List (String × List Tree)) : List Tree → String → Val → Prop
  | field {fs k T v} : .field (some k) T ∈ fs → Accepts S T v → Member S fs k v
  | group {fs k us d} : .union (some k) us ∈ fs → Members S [.union none us] d → Member S fs k (.dict d)
  | inUnion {fs us k v} : .union none us ∈ fs → Member S us k v → Member S fs k v
end

end BM.Capnp

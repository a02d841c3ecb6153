import Verif.Spec
import Verif.Float
/-!
# Wire formats of the mesh-specific fields
-/
namespace BM
namespace F

/-! ### Addresses: the ranges of the Bluetooth Mesh profile -/

def IsUnassigned (a : Nat) : Prop := a = 0
def IsUnicast (a : Nat) : Prop := 0x0001 ≤ a ∧ a ≤ 0x7FFF
def IsVirtual (a : Nat) : Prop := 0x8000 ≤ a ∧ a ≤ 0xBFFF
def IsGroup (a : Nat) : Prop := 0xC000 ≤ a ∧ a ≤ 0xFEFF
def IsReserved (a : Nat) : Prop := 0xFF00 ≤ a ∧ a ≤ 0xFFFB
def IsAllProxies (a : Nat) : Prop := a = 0xFFFC
def IsAllFriends (a : Nat) : Prop := a = 0xFFFD
def IsAllRelays (a : Nat) : Prop := a = 0xFFFE
def IsAllNodes (a : Nat) : Prop := a = 0xFFFF

instance : DecidablePred IsUnassigned := fun _ => by unfold IsUnassigned; infer_instance
instance : DecidablePred IsUnicast := fun _ => by unfold IsUnicast; infer_instance
instance : DecidablePred IsVirtual := fun _ => by unfold IsVirtual; infer_instance
instance : DecidablePred IsGroup := fun _ => by unfold IsGroup; infer_instance
instance : DecidablePred IsReserved := fun _ => by unfold IsReserved; infer_instance
instance : DecidablePred IsAllProxies := fun _ => by unfold IsAllProxies; infer_instance
instance : DecidablePred IsAllFriends := fun _ => by unfold IsAllFriends; infer_instance
instance : DecidablePred IsAllRelays := fun _ => by unfold IsAllRelays; infer_instance
instance : DecidablePred IsAllNodes := fun _ => by unfold IsAllNodes; infer_instance

/-- A 16-bit address of the given kind. -/
abbrev address (P : Nat → Prop) : Fmt UInt8 := uintWhere 2 P

/-- One byte of at most 0x7F (TTL, hop counts). -/
abbrev sevenBit : Fmt UInt8 := uintWhere 1 (· ≤ 0x7F)

/-! ### Scalar encodings -/

/-- The number denoted by byte `n` of a logarithmic field. -/
def logValue (n : Nat) : Nat := if n = 0 then 0 else 2 ^ (n - 1)

/-- A logarithmic byte with the given maximum: zero, (if allowed) infinity as 0xFF, or the integer part of the platform's
binary logarithm plus one.  (For integers this is `⌊log₂ k⌋ + 1`: theorem `C18_log_encode`.) -/
def log2 [Platform] (max : Nat) (infinity : Bool) : Fmt UInt8 := fun u b v =>
  (infinity = true ∧ u = .inf ∧ b = [255] ∧ v = .inf) ∨
  (asNum u = some 0 ∧ b = [0] ∧ v = .int 0) ∨
  (∃ q l n, asNum u = some q ∧ q ≠ 0 ∧ Platform.mlog q 2 = .ok l ∧ fadd l 1 ≤ max ∧ ftrunc (fadd l 1) = (n : Nat) ∧
    b = [UInt8.ofNat n] ∧ v = .int (logValue n))

/-- The integers in a collection, as Python's `in` sees them: the members of a set, the elements of a list that are equal to an integer, the
bytes of a byte string, none in a dictionary (its keys are strings).  Other objects are no collections (or have no integers: a string). -/
def members : Val → Option (List Int)
  | .set l => some l
  | .list l => some (l.filterMap hashInt)
  | .bytes b => some (b.map fun x => (x.toNat : Int))
  | .dict _ => some []
  | _ => none

/-- A set of small integers as a bit field of `n` bytes: bit `i`, counted from the most significant bit of the first byte, is
set exactly when `i` is in the collection.  Members that do not fit are not written. -/
def bitset (n : Nat) : Fmt UInt8 := fun u b v =>
  b.length = n ∧ (∀ i : Nat, i < 8 * n → ∃ l, members u = some l ∧ ((bytesBits b)[i]?.getD false = true ↔ (i : Int) ∈ l)) ∧
  v = .set ((List.range (8 * n)).filterMap fun (i : Nat) => if (bytesBits b)[i]?.getD false then some (i : Int) else none)

/-- A retransmit byte: count in the low three bits, number of interval steps minus one in the high five bits.  The interval
may be any number equal to that many steps. -/
def retransmit (step : Nat) : Fmt UInt8 := fun u b v =>
  ∃ d uc ui c s, u = .dict d ∧ dget d "count" = some uc ∧ dget d "interval" = some ui ∧
    asInt uc = some ((c : Nat) : Int) ∧ c ≤ 7 ∧ asNum ui = some ((((s : Nat) + 1) * step : Nat) : Rat) ∧ s < 32 ∧
    b = [UInt8.ofNat (8 * s + c)] ∧ v = .dict [("count", .int c), ("interval", .int (((s + 1) * step : Nat) : Int))]

/-- The bytes of a list of 12-bit key indices: three bytes for each pair, two for a last odd one, least significant byte
first; in a pair the later index takes the low 12 bits. -/
def keyBytes : List Nat → List UInt8
  | a :: b :: r => leBytes 3 (b + 4096 * a) ++ keyBytes r
  | [a] => leBytes 2 a
  | [] => []

/-- A list of key indices, in any order; on the air and when read back they are in ascending order. -/
def keyList : Fmt UInt8 := fun u b v =>
  ∃ (us : List Val) (ks ss : List Nat), u = .list us ∧ us.map asInt = ks.map (fun (k : Nat) => some (k : Int)) ∧ (∀ k ∈ ks, k < 4096) ∧
    ss.Perm ks ∧ ss.Pairwise (· ≤ ·) ∧ b = keyBytes ss ∧ v = .list (ss.map fun (k : Nat) => Val.int k)

/-! ### Transition times and delays (floating-point seconds) -/

/-- Step sizes in seconds of the four transition-time resolutions, as the binary64 numbers used in the computation. -/
def ttStep : Nat → Rat
  | 0 => rnd (1 / 10)
  | 1 => 1
  | 2 => 10
  | _ => 600

/-- The value of `k` steps at resolution `r` (a float for 100 ms steps, an integer otherwise). -/
def ttValue (r k : Nat) : Val := if r = 0 then .flt (fmul k (ttStep 0)) else .int ((k * (ttStep r).num.toNat : Nat) : Int)

/-- A transition-time byte: two bits of resolution, six bits of steps.  The finest resolution that reaches the requested time
with 63 steps is used; the number of steps is rounded down, and the request must round to at most `max` steps. -/
def transitionTime (max : Nat) : Fmt UInt8 := fun u b v =>
  ∃ q r k, asNum u = some q ∧ r < 4 ∧ q ≤ fmul (ttStep r) 63 ∧ (∀ r' < r, fmul (ttStep r') 63 < q) ∧
    rhe (fdiv q (ttStep r)) ≤ max ∧ ftrunc (fdiv q (ttStep r)) = (k : Nat) ∧
    b = [UInt8.ofNat (64 * r + k)] ∧ v = ttValue r k

/-- A delay byte: the integer part of 200 times the delay in seconds (5 ms units). -/
def delay : Fmt UInt8 := fun u b v =>
  ∃ q n, asNum u = some q ∧ ftrunc (fmul q 200) = (n : Nat) ∧ n < 256 ∧ b = [UInt8.ofNat n] ∧ v = .flt (fdiv n 200)

/-! ### Scaled counts -/

/-- A number of units of `res` (an exact decimal or binary fraction), carried by the integer format `G`.  The count written
is the quotient of the request by the resolution, computed in binary64 and rounded half to even.  The value read back is the
binary64 number nearest to count × resolution (an integer if the resolution is a whole number given as such).  If `unk` is
given, that count stands for "unknown", represented by the largest binary64 number. -/
def count (G : Fmt UInt8) (unk : Option Int) (res : Rat) (whole : Bool := false) : Fmt UInt8 := fun u b v =>
  ∃ (n : Int) (q : Rat) (w : Val), asNum u = some q ∧
    ((unk = some n ∧ q = floatMax) ∨ (¬ (unk.isSome = true ∧ q = floatMax) ∧ rhe (fdiv q (rnd res)) = n)) ∧
    G (.int n) b w ∧
    v = if unk = some n then .flt floatMax else if whole then .int (n * res.num) else .flt (rnd (n * res))

end F
end BM

/-!
# Python values, exceptions and dictionaries

The fragment of Python's data model that the repository's code touches.  Nothing in this file models a
definition of the repository; it fixes the vocabulary in which the repository is modelled and belongs to the
trusted base (CPython semantics).
-/
namespace BM

/-- Kinds of Python exceptions distinguished by the model (construct's own exceptions and built-in ones). -/
inductive Err
  | stream        -- construct.StreamError: not enough data
  | validation    -- construct.ValidationError
  | key           -- KeyError
  | value         -- ValueError
  | type          -- TypeError
  | attribute     -- AttributeError
  | assertion     -- AssertionError
  | formatField   -- construct.FormatFieldError
  | integer       -- construct.IntegerError
  | range         -- construct.RangeError
  | select        -- construct.SelectError
  | string        -- construct.StringError / UnicodeDecodeError
  | padding       -- construct.PaddingError
  | overflow      -- OverflowError
  | stopIteration -- StopIteration
  | zeroDivision  -- ZeroDivisionError
  | diverge       -- model-only marker: the Python loop would not terminate
  deriving DecidableEq, Repr

/-- A computation that may raise. -/
abbrev R := Except Err

abbrev Bytes := List UInt8

/-- Python values.  Floats are exact rationals (`flt`) or `+inf` (`inf`); `fbits w n` is an IEEE float known only
by its `w`-byte bit pattern `n` (wire floats).  `enum cls n` is the member of the `IntEnum` class `cls` with value
`n`.  Dates are days since 1970-01-01, date-times microseconds since the epoch together with a UTC offset in
microseconds, time deltas microseconds. -/
inductive Val
  | none
  | bool (b : Bool)
  | int (n : Int)
  | flt (q : Rat)
  | inf
  | fbits (w : Nat) (n : Nat)
  | str (s : String)
  | bytes (b : List UInt8)
  | list (l : List Val)
  | set (l : List Int)
  | dict (l : List (String × Val))
  | enum (cls : String) (n : Int)
  | date (days : Int)
  | datetime (micros : Int) (offset : Int)
  | timedelta (micros : Int)
  | ipv4 (b : List UInt8)

/-- Python `dict` / construct `Container`: insertion ordered, string keys. -/
abbrev Dict := List (String × Val)

/-- `d.get(k)`. -/
def dget : Dict → String → Option Val
  | [], _ => none
  | (k', v) :: d, k => if k' = k then some v else dget d k

/-- `d[k] = v`. -/
def dset : Dict → String → Val → Dict
  | [], k, v => [(k, v)]
  | (k', v') :: d, k, v => if k' = k then (k, v) :: d else (k', v') :: dset d k v

/-- `d.update(e)`. -/
def dmerge (d : Dict) : Dict → Dict
  | [] => d
  | (k, v) :: e => dmerge (dset d k v) e

/-- `d[k]`. -/
def dgetE (d : Dict) (k : String) : R Val :=
  match dget d k with
  | some v => .ok v
  | .none => .error .key

def dkeys (d : Dict) : List String := d.map Prod.fst

/-- The value of an integer-like object: `int`, `bool` and `IntEnum` members (all subclasses of `int`). -/
def asInt : Val → Option Int
  | .int n => some n
  | .bool b => some (if b then 1 else 0)
  | .enum _ n => some n
  | _ => none

/-- Integer to which an object is equal *and* hashes equal (dict lookup by value): integer-likes and integral floats. -/
def hashInt : Val → Option Int
  | .flt q => if q.den = 1 then some q.num else none
  | v => asInt v

/-- The numeric value of `int`-likes and finite floats. -/
def asNum : Val → Option Rat
  | .flt q => some q
  | v => (asInt v).map (fun n => (n : Rat))

/-- `bool(x)` (only used for `Flag`; `fbits` objects and dates are truthy). -/
def truthy : Val → Bool
  | .none => false
  | .bool b => b
  | .int n => n != 0
  | .flt q => q != 0
  | .str s => !s.isEmpty
  | .bytes b => !b.isEmpty
  | .list l => !l.isEmpty
  | .set l => !l.isEmpty
  | .dict d => !d.isEmpty
  | .enum _ n => n != 0
  | .timedelta u => u != 0
  | _ => true

/-- A `dict`-like argument of `Struct.build`; `None` counts as empty. -/
def asDict : Val → R Dict
  | .dict d => .ok d
  | .none => .ok []
  | _ => .error .type

/-- `list(iter(x))`. -/
def iter : Val → R (List Val)
  | .list l => .ok l
  | .set l => .ok (l.map .int)
  | .bytes b => .ok (b.map fun x => .int x.toNat)
  | .str s => .ok (s.toList.map fun c => .str (String.singleton c))
  | .dict d => .ok (d.map fun kv => .str kv.1)
  | _ => .error .type

/-- Unicode-free `str.lower` (all names lowered by the repository are ASCII identifiers). -/
def lower (s : String) : String := String.ofList (s.toList.map Char.toLower)

/-! ### Dictionary lemmas -/

@[simp] theorem dget_nil (k : String) : dget [] k = none := rfl

theorem dget_cons (k' : String) (v : Val) (d : Dict) (k : String) :
    dget ((k', v) :: d) k = if k' = k then some v else dget d k := rfl

@[simp] theorem dget_cons_self (k : String) (v : Val) (d : Dict) : dget ((k, v) :: d) k = some v := by
  simp [dget]

theorem dget_eq_none_iff (d : Dict) (k : String) : dget d k = none ↔ k ∉ dkeys d := by
  induction d with
  | nil => simp [dkeys]
  | cons x d ih =>
    obtain ⟨k', v⟩ := x
    by_cases h : k' = k
    · subst h; simp [dget, dkeys]
    · simp only [dget, h, if_false, ih, dkeys, List.map_cons, List.mem_cons, not_or]
      constructor
      · intro h'; exact ⟨fun e => h e.symm, h'⟩
      · exact fun h' => h'.2

theorem dget_append (d e : Dict) (k : String) :
    dget (d ++ e) k = (dget d k).or (dget e k) := by
  induction d with
  | nil => simp
  | cons x d ih =>
    obtain ⟨k', v⟩ := x
    by_cases h : k' = k <;> simp [dget, h, ih]

theorem dset_of_not_mem (d : Dict) (k : String) (v : Val) (h : k ∉ dkeys d) :
    dset d k v = d ++ [(k, v)] := by
  induction d with
  | nil => rfl
  | cons x d ih =>
    obtain ⟨k', v'⟩ := x
    simp only [dkeys, List.map_cons, List.mem_cons, not_or] at h
    have : ¬ k' = k := fun e => h.1 e.symm
    simp [dset, this, ih (by simpa [dkeys] using h.2)]

theorem dkeys_append (d e : Dict) : dkeys (d ++ e) = dkeys d ++ dkeys e := by simp [dkeys]

theorem dmerge_of_disjoint (d e : Dict) (hn : (dkeys e).Nodup)
    (h : ∀ k ∈ dkeys e, k ∉ dkeys d) : dmerge d e = d ++ e := by
  induction e generalizing d with
  | nil => simp [dmerge]
  | cons x e ih =>
    obtain ⟨k, v⟩ := x
    simp only [dkeys, List.map_cons, List.nodup_cons] at hn
    have hk : k ∉ dkeys d := h k (by simp [dkeys])
    rw [dmerge, dset_of_not_mem d k v hk, ih]
    · simp
    · exact hn.2
    · intro k' hk'
      rw [dkeys_append]
      simp only [List.mem_append, not_or]
      refine ⟨h k' (by simp only [dkeys, List.map_cons, List.mem_cons]; exact Or.inr hk'), ?_⟩
      simp only [dkeys, List.map_cons, List.map_nil, List.mem_singleton]
      rintro rfl
      exact hn.1 hk'

theorem dmerge_append (d e f : Dict) : dmerge d (e ++ f) = dmerge (dmerge d e) f := by
  induction e generalizing d with
  | nil => rfl
  | cons x e ih => obtain ⟨k, v⟩ := x; simp [dmerge, ih]

theorem dmerge_nil_of_nodup (e : Dict) (hn : (dkeys e).Nodup) : dmerge [] e = e := by
  rw [dmerge_of_disjoint [] e hn (by simp [dkeys])]; rfl

/-- Lookup in a concatenation of two dictionaries with disjoint keys. -/
theorem dget_append_left {d e : Dict} {k : String} (h : k ∈ dkeys d) : dget (d ++ e) k = dget d k := by
  rw [dget_append]
  cases h' : dget d k with
  | none => exact absurd h ((dget_eq_none_iff d k).1 h')
  | some v => rfl

theorem dget_append_right {d e : Dict} {k : String} (h : k ∉ dkeys d) : dget (d ++ e) k = dget e k := by
  rw [dget_append, (dget_eq_none_iff d k).2 h]; rfl

theorem dget_dset_self (d : Dict) (k : String) (v : Val) : dget (dset d k v) k = some v := by
  induction d with
  | nil => simp [dset]
  | cons x d ih =>
    obtain ⟨k', v'⟩ := x
    by_cases h : k' = k <;> simp [dset, dget, h, ih]

theorem dget_dset_ne (d : Dict) {k k' : String} (v : Val) (h : k ≠ k') : dget (dset d k v) k' = dget d k' := by
  induction d with
  | nil => simp [dset, dget, h]
  | cons x d ih =>
    obtain ⟨k₁, v₁⟩ := x
    by_cases h₁ : k₁ = k
    · subst h₁; simp [dset, dget, h]
    · by_cases h₂ : k₁ = k'
      · subst h₂; simp [dset, dget, h₁]
      · simp [dset, dget, h₁, h₂, ih]

end BM

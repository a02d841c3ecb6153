import Verif.Py
/-!
# IEEE-754 binary64 arithmetic on exact rationals

A finite Python float is represented by the rational number it denotes.  An arithmetic operation is the exact
operation followed by `rnd`, round-to-nearest-even to 53 significant bits.  Overflow to infinity and subnormals are
not modelled: every computation of the repository stays within 2^-100 … 2^100 (apart from the sentinel
`sys.float_info.max`, which is only compared, never computed with).
-/
namespace BM

/-- Round half to even to an integer: Python's `round(x)` on a float. -/
def rhe (q : Rat) : Int :=
  let f := q.floor
  let r := q - f
  if r < 1 / 2 then f else if 1 / 2 < r then f + 1 else if f % 2 = 0 then f else f + 1

/-- `2 ^ e` for an integer exponent. -/
def pow2 (e : Int) : Rat := if 0 ≤ e then ((2 ^ e.toNat : Nat) : Rat) else 1 / ((2 ^ (-e).toNat : Nat) : Rat)

/-- `⌊log₂ |q|⌋` for `q ≠ 0`. -/
def ilog2 (q : Rat) : Int :=
  let e0 : Int := (q.num.natAbs.log2 : Int) - (q.den.log2 : Int)
  if pow2 e0 ≤ (if q < 0 then -q else q) then e0 else e0 - 1

/-- Round to the nearest binary64 value, ties to even. -/
def rnd (q : Rat) : Rat :=
  if q = 0 then 0
  else
    let s := pow2 (52 - ilog2 q)
    rhe (q * s) / s

/-- Float multiplication, division, addition, subtraction. -/
def fmul (a b : Rat) : Rat := rnd (a * b)
def fdiv (a b : Rat) : Rat := rnd (a / b)
def fadd (a b : Rat) : Rat := rnd (a + b)
def fsub (a b : Rat) : Rat := rnd (a - b)

/-- `int(x)`: truncation toward zero. -/
def ftrunc (q : Rat) : Int := if 0 ≤ q then q.floor else -((-q).floor)

/-- `round(x, n)` for `n ≥ 1`: the binary64 value nearest to the correctly rounded (half-even on the exact value)
decimal with `n` fractional digits — CPython's `float.__round__` via `_Py_dg_dtoa` mode 3. -/
def roundN (q : Rat) (n : Nat) : Rat := rnd ((rhe (q * (10 ^ n : Nat)) : Rat) / (10 ^ n : Nat))

/-- `sys.float_info.max`. -/
def floatMax : Rat := ((2 ^ 53 - 1 : Nat) : Rat) * ((2 ^ 971 : Nat) : Rat)

-- sanity checks against CPython (tests, not proofs)
example : rnd (1 / 10) = 3602879701896397 / 36028797018963968 := by decide +kernel
example : rhe (5 / 2) = 2 ∧ rhe (7 / 2) = 4 ∧ rhe (-5 / 2) = -2 := by decide +kernel
example : ftrunc (fmul (fdiv 29 200) 200) = 28 := by decide +kernel

end BM

import Verif.Time
/-!
# Model of the case conversion of `bluetooth_mesh/messages/util.py`

Strings are lists of characters here.  Only ASCII strings are modelled: `str.lower`, `str.title` and the classes of the regular expression
are those of ASCII.
-/
namespace BM.Case

/-- `str.split("_")` (library). -/
def splitU : List Char → List (List Char)
  | [] => [[]]
  | c :: s => if c = '_' then [] :: splitU s else
    match splitU s with
    | [] => [[c]]
    | w :: ws => (c :: w) :: ws

/-- `str.title()` (library): a letter is capitalised unless it follows a letter.  `p`: the character before is a letter. -/
def title : Bool → List Char → List Char
  | _, [] => []
  | p, c :: s => (if p then c.toLower else c.toUpper) :: title c.isAlpha s

/-- util.py:487-488 (in `camelcase`), without the conversions between strings and lists. -/
def camelChars (s : List Char) : List Char :=
  match splitU ((s.map Char.toLower).map fun c => if c = ' ' then '_' else c) with
  | [] => []
  | head :: tail => head ++ tail.flatMap (title false)

/-- util.py:483-488 `camelcase`, for strings. -/
def camelcase (s : String) : String := String.ofList (camelChars s.toList)

/-- The class `[a-z\d]`. -/
def isLD (c : Char) : Bool := c.isLower || c.isDigit
/-- The class `\w`. -/
def isWord (c : Char) : Bool := c.isAlphanum || c == '_'

/-- `(?=[A-Z][a-z]|\d|\W|$)`. -/
def ahead : List Char → Bool
  | [] => true
  | c :: s => c.isDigit || !isWord c || (c.isUpper && match s with | d :: _ => d.isLower | [] => false)

/-- How many of the first `k` letters of `s` (capitals) are matched by `[A-Z]{1,}(?=…)`: as many as possible such that the lookahead
succeeds. -/
def capitals (s : List Char) : Nat → Option Nat
  | 0 => none
  | k + 1 => if ahead (s.drop (k + 1)) then some (k + 1) else capitals s k

/-- util.py:492 (in `snakecase`): `re.findall(r"[A-Z]?[a-z\d]+|[A-Z]{1,}(?=[A-Z][a-z]|\d|\W|$)|\d+", s)`.  The first argument bounds the
number of steps (every step consumes a character).  The third alternative never applies: the first one matches digits. -/
def findall : Nat → List Char → List (List Char)
  | 0, _ => []
  | _ + 1, [] => []
  | f + 1, c :: s =>
    if isLD c then (c :: s.takeWhile isLD) :: findall f (s.dropWhile isLD)
    else if c.isUpper then
      match s.takeWhile isLD with
      | [] =>
        match capitals (c :: s) ((c :: s).takeWhile Char.isUpper).length with
        | some k => (c :: s).take k :: findall f ((c :: s).drop k)
        | none => findall f s
      | w => (c :: w) :: findall f (s.dropWhile isLD)
    else findall f s

/-- util.py:491-493 `snakecase`, without the conversions between strings and lists. -/
def snakeChars (s : List Char) : List Char := ['_'].intercalate ((findall s.length s).map (List.map Char.toLower))

/-- util.py:491-493 `snakecase`. -/
def snakecase (s : String) : String := String.ofList (snakeChars s.toList)

/-! ### Calendar, from day numbers to dates (library) -/

/-- The year of a day: the number of days since 0001-01-01 (`datetime.date.fromordinal`). -/
def yearOf (n : Int) : Int :=
  let n400 := n / 146097
  let n := n % 146097
  let n100 := n / 36524
  let m := n % 36524
  let n4 := m / 1461
  let m := m % 1461
  let n1 := m / 365
  if n1 = 4 ∨ n100 = 4 then n400 * 400 + n100 * 100 + n4 * 4 + n1 else n400 * 400 + n100 * 100 + n4 * 4 + n1 + 1

/-- The month of the `k`-th day (from 0) of a year. -/
def monthOf (y k : Int) : Int :=
  let l := if Property.isLeap y then 1 else 0
  if k < 31 then 1 else if k < 59 + l then 2 else if k < 90 + l then 3 else if k < 120 + l then 4 else if k < 151 + l then 5
  else if k < 181 + l then 6 else if k < 212 + l then 7 else if k < 243 + l then 8 else if k < 273 + l then 9 else if k < 304 + l then 10
  else if k < 334 + l then 11 else 12

/-- Year, month and day of a day, counted from 1970-01-01. -/
def civil (days : Int) : Int × Int × Int :=
  let n := days + 719162
  let y := yearOf n
  let k := days - Property.dayNumber y 1 1
  let m := monthOf y k
  (y, m, k - Property.daysBeforeMonth y m + 1)

/-! ### Dictionaries -/

/-- `bytes.hex()` (library). -/
def hexDigit (n : Nat) : Char := if n < 10 then Char.ofNat (48 + n) else Char.ofNat (87 + n)
def hex (b : List UInt8) : String := String.ofList (b.flatMap fun x => [hexDigit (x.toNat / 16), hexDigit (x.toNat % 16)])

/-- `str.startswith("_")`. -/
def isPrivate (k : String) : Bool := k.toList.head? == some '_'

/-- util.py:512-522 (in `to_case_dict`): a `datetime`.  `datetime` values are aware: the time at the place is the instant plus the offset. -/
def dateTimeDict (micros offset : Int) : Val :=
  let u := micros + offset
  let days := u / (86400 * us)
  let t := u % (86400 * us)
  let (y, m, d) := civil days
  .dict [("year", .int y), ("month", .int m), ("day", .int d), ("hour", .int (t / (3600 * us))), ("minute", .int (t / (60 * us) % 60)),
    ("second", .int (t / us % 60)), ("microsecond", .int (t % us)), ("timeZoneOffset", .flt (fdiv (totalSeconds offset) 60))]

/-- util.py:524-525 (in `to_case_dict`): a `date`. -/
def dateDict (days : Int) : Val :=
  let (y, m, d) := civil days
  .dict [("year", .int y), ("month", .int m), ("day", .int d)]

mutual
/-- util.py:496-530 `to_case_dict`.  Dictionaries are `Container`s, whose attribute `_name` is the entry of this name: a dictionary with
such an entry that is not a `Container` is not modelled.  Names are strings. -/
def toCase (case : String → String) : Val → Val
  | .dict d =>
    match dget d "_name" with
    | some (.str name) => if name = "" then .dict (toCaseItems case [] d) else .dict [(name, .dict (toCaseItems case [] d))]
    | _ => .dict (toCaseItems case [] d)
  | .set l => .list (l.map .int)
  | .list l => .list (toCaseList case l)
  | .enum _ n => .int n
  | .bytes b => .str (hex b)
  | .datetime m off => dateTimeDict m off
  | .date n => dateDict n
  | .timedelta n => .flt (totalSeconds n)
  | v => v
/-- util.py:498 (in `to_case_dict`): the dictionary comprehension; `acc` is the dictionary under construction. -/
def toCaseItems (case : String → String) (acc : Dict) : List (String × Val) → Dict
  | [] => acc
  | (k, v) :: d => if isPrivate k then toCaseItems case acc d else toCaseItems case (dset acc (case k) (toCase case v)) d
/-- util.py:504 (in `to_case_dict`): the list comprehension. -/
def toCaseList (case : String → String) : List Val → List Val
  | [] => []
  | v :: l => toCase case v :: toCaseList case l
end

/-- util.py:533-534 `to_camelcase_dict`. -/
def toCamelcaseDict : Val → Val := toCase camelcase
/-- util.py:537-538 `to_snakecase_dict`. -/
def toSnakecaseDict : Val → Val := toCase snakecase

end BM.Case

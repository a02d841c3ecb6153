import Verif.Str
import Verif.Generics
/-!
# Model of `properties.py`: field adapters
-/
namespace BM
namespace Property

/-- properties.py:223-224 `TimeExponential8Validator._decode`: `round(pow(1.1, obj - 64), 4) if obj else 0`. -/
def timeExpDecode [Platform] (v : Val) : R Val :=
  match asInt v with
  | some n =>
    if n = 0 then .ok (.int 0)
    else do
      let x ← Platform.mpow (rnd (11 / 10)) (n - 64)
      .ok (.flt (roundN x 4))
  | none => .error .type

/-- properties.py:226-227 `TimeExponential8Validator._encode`: `round(log(obj, 1.1)) + 64 if obj else 0`. -/
def timeExpEncode [Platform] (u : Val) : R Val :=
  if truthy u = false then .ok (.int 0)
  else
    match u with
    | .inf => .error .overflow
    | u =>
      match asNum u with
      | some q => do
        let l ← Platform.mlog q (rnd (11 / 10))
        .ok (.int (rhe l + 64))
      | none => .error .type

/-- properties.py:220-227 `TimeExponential8Validator` over `Int8ul`. -/
def timeExp [Platform] : Con UInt8 := adapter (uintLE 1) (fun _ => timeExpDecode) (fun _ => timeExpEncode)

/-! ### Calendar (`datetime.date`, proleptic Gregorian calendar; library) -/

/-- Leap years. -/
def isLeap (y : Int) : Bool := y % 4 == 0 && (y % 100 != 0 || y % 400 == 0)

/-- Days in a month. -/
def daysInMonth (y m : Int) : Int :=
  if m = 2 then (if isLeap y then 29 else 28) else if m = 4 ∨ m = 6 ∨ m = 9 ∨ m = 11 then 30 else 31

/-- Days before the first of a month. -/
def daysBeforeMonth (y m : Int) : Int :=
  (if m ≤ 1 then 0 else if m = 2 then 31 else if m = 3 then 59 else if m = 4 then 90 else if m = 5 then 120 else if m = 6 then 151
   else if m = 7 then 181 else if m = 8 then 212 else if m = 9 then 243 else if m = 10 then 273 else if m = 11 then 304 else 334) +
  (if 2 < m ∧ isLeap y = true then 1 else 0)

/-- `date(y, m, d).toordinal() - date(1970, 1, 1).toordinal()`. -/
def dayNumber (y m d : Int) : Int :=
  (y - 1) * 365 + (y - 1) / 4 - (y - 1) / 100 + (y - 1) / 400 + daysBeforeMonth y m + d - 719163

/-- `date(y, m, d)`: `ValueError` outside the calendar; the result is the number of days since 1970-01-01. -/
def pyDate (y m d : Val) : R Int :=
  match asInt y, asInt m, asInt d with
  | some y, some m, some d =>
    if 1 ≤ y ∧ y ≤ 9999 ∧ 1 ≤ m ∧ m ≤ 12 ∧ 1 ≤ d ∧ d ≤ daysInMonth y m then .ok (dayNumber y m d) else .error .value
  | _, _, _ => .error .type

/-- Days from 1970-01-01 to 9999-12-31, the last day `date` can represent. -/
def lastDay : Int := 2932896

/-- properties.py:238-242 `DateAdapter._decode`: `EPOCH + timedelta(days=obj)`. -/
def dateDecode (v : Val) : R Val :=
  match v with
  | .none => .ok (.int 0)
  | v =>
    match asInt v with
    | some n => if n ≤ lastDay then .ok (.date n) else .error .overflow
    | none => .error .type

/-- properties.py:244-254 `DateAdapter._encode`.  (A `datetime` is a `date`, but subtracting the epoch from it raises.) -/
def dateEncode (u : Val) : R Val :=
  match u with
  | .none => .ok (.int 0)
  | .dict d => do
    let y ← dgetE d "year"
    let m ← dgetE d "month"
    let dd ← dgetE d "day"
    let n ← pyDate y m dd
    .ok (.int n)
  | .date n => .ok (.int n)
  | .datetime _ _ => .error .type
  | u => .ok u

/-- properties.py:230-254 `DateAdapter` over `Int24ul`. -/
def dateC : Con UInt8 := adapter (bytesIntLE 3) (fun _ => dateDecode) (fun _ => dateEncode)

/-- properties.py:277-278 `FixedString.decode_bytes`: byte strings are decoded before being encoded again. -/
def decodeBytes (u : Val) : R Val :=
  match u with
  | .bytes b => bytesStr b
  | u => .ok u

/-- properties.py:279-287 `FixedString(size)`. -/
def fixedString (n : Nat) : Con UInt8 := adapter (paddedString n) (fun _ v => .ok v) (fun _ => decodeBytes)

end Property
end BM

import Verif.Construct
/-!
# Textual addresses: `str.split`, `int(s, base)`, MAC and IP address adapters
-/
namespace BM

/-- `s.split(sep)` for a one-character separator, on the characters of the string. -/
def splitChar (sep : Char) : List Char → List (List Char)
  | [] => [[]]
  | c :: cs =>
    if c = sep then [] :: splitChar sep cs
    else
      match splitChar sep cs with
      | [] => [[c]]
      | p :: ps => (c :: p) :: ps

/-- The value of a digit in bases up to 16. -/
def digitVal (c : Char) : Option Nat :=
  if 48 ≤ c.toNat ∧ c.toNat ≤ 57 then some (c.toNat - 48)
  else if 97 ≤ c.toNat ∧ c.toNat ≤ 102 then some (c.toNat - 87)
  else if 65 ≤ c.toNat ∧ c.toNat ≤ 70 then some (c.toNat - 55)
  else none

/-- A digit of the given base. -/
def digitIn (base : Nat) (c : Char) : Option Nat :=
  match digitVal c with
  | some d => if d < base then some d else none
  | none => none

/-- The digits after the first one, with single underscores between digits. -/
def scanDigits (base : Nat) : Nat → List Char → Option (Nat × List Char)
  | acc, [] => some (acc, [])
  | acc, c :: cs =>
    if c = '_' then
      match cs with
      | [] => none
      | c' :: cs' =>
        match digitIn base c' with
        | some d => scanDigits base (acc * base + d) cs'
        | none => none
    else
      match digitIn base c with
      | some d => scanDigits base (acc * base + d) cs
      | none => some (acc, c :: cs)

/-- ASCII white space skipped by `int`. -/
def isSpace (c : Char) : Bool := c.toNat == 32 || (9 ≤ c.toNat && c.toNat ≤ 13)

/-- The unsigned part of `int(s, base)`: an optional `0x` prefix in base 16, digits, trailing white space. -/
def scanNat (base : Nat) (cs : List Char) : Option Nat :=
  let cs := match cs with
    | '0' :: x :: r => if base = 16 ∧ (x = 'x' ∨ x = 'X') then (match r with | '_' :: r => r | r => r) else cs
    | cs => cs
  match cs with
  | [] => none
  | c :: cs =>
    match digitIn base c with
    | none => none
    | some d =>
      match scanDigits base d cs with
      | none => none
      | some (n, r) => if r.all isSpace then some n else none

/-- `int(s, base)` for bases 10 and 16.  Simplified: a string with a non-ASCII character is rejected (Python also accepts
other Unicode digits and spaces), and there is no limit on the number of digits. -/
def pyInt (base : Nat) (cs : List Char) : Option Int :=
  match cs.dropWhile isSpace with
  | '+' :: cs => (scanNat base cs).map Int.ofNat
  | '-' :: cs => (scanNat base cs).map (fun n => -(n : Int))
  | cs => (scanNat base cs).map Int.ofNat

/-- `bytes(int(i, base) for i in parts)`. -/
def partsBytes (base : Nat) : List (List Char) → R (List UInt8)
  | [] => .ok []
  | p :: ps =>
    match pyInt base p with
    | none => .error .value
    | some n =>
      if 0 ≤ n ∧ n < 256 then do
        let bs ← partsBytes base ps
        .ok (UInt8.ofNat n.toNat :: bs)
      else .error .value

/-- A lower-case hexadecimal digit. -/
def hexDigit (n : Nat) : Char := if n < 10 then Char.ofNat (48 + n) else Char.ofNat (87 + n)

/-- `"{:02x}".format(b)`. -/
def hexByte (b : UInt8) : List Char := [hexDigit (b.toNat / 16), hexDigit (b.toNat % 16)]

/-- `sep.join(parts)`. -/
def joinChars (sep : Char) : List (List Char) → List Char
  | [] => []
  | [p] => p
  | p :: ps => p ++ sep :: joinChars sep ps

/-- util.py:296-301 `MacAddressAdapter` over `Bytes(6)`. -/
def macAddress : Con UInt8 := adapter (bytesN 6)
  (fun _ v => match v with
    | .bytes b => .ok (.str (String.ofList (joinChars ':' (b.map hexByte))))
    | _ => .error .type)
  (fun _ u => match u with
    | .str s => do
      let b ← partsBytes 16 (splitChar ':' s.toList)
      .ok (.bytes b)
    | _ => .error .attribute)

/-- util.py:304-309 `IpAddressAdapter` over `Bytes(4)`. -/
def ipAddress : Con UInt8 := adapter (bytesN 4)
  (fun _ v => match v with
    | .bytes b => .ok (.ipv4 b)
    | _ => .error .type)
  (fun _ u => match u with
    | .str s => do
      let b ← partsBytes 10 (splitChar '.' s.toList)
      .ok (.bytes b)
    | _ => .error .attribute)

end BM

import Verif.Tables
import Verif.Witness
/-! Generated by `tools/gen_conformance.py`: the test vectors of the repository, evaluated on the model.  Tests, not proofs. -/
namespace BM
open Config
namespace Conformance

instance : Platform := somePlatform

inductive Vec
  | parse (id : String) (c : Con UInt8) (sel : String) (s : List UInt8) (v : Val)
  | build (id : String) (c : Con UInt8) (u : Val) (s : List UInt8)
  | parseErr (id : String) (c : Con UInt8) (s : List UInt8) (e : Err)
  | buildErr (id : String) (c : Con UInt8) (u : Val) (e : Err)
  | buildDiff (id : String) (c : Con UInt8) (u : Val) (s : List UInt8)
  | accessBuild (id : String) (u : Val) (s : List UInt8)
  | accessParse (id : String) (s : List UInt8) (v : Val)

/-- `a == b` for a parsed object `a` and an expected object `b`: the public keys of `a` are keys of `b`. -/
partial def same : Val → Val → Bool
  | .dict a, .dict b => a.all fun (k, v) => k.startsWith "_" || (match dget b k with
    | some w => same v w
    | none => match dget b "payload" with   -- the test names the payload by its alias
      | some w => same v w
      | none => match dget b "parameter" with | some w => same v w | none => false)
  | .list a, .list b => a.length == b.length && (a.zip b).all fun (x, y) => same x y
  | .list a, .bytes b => a.length == b.length && (a.zip b).all fun (x, y) => same x (.int y.toNat)
  | .set a, .set b => a.all (b.contains ·) && b.all (a.contains ·)
  | .none, .none => true
  | .inf, .inf => true
  | .str a, .str b => a == b
  | .bytes a, .bytes b => a == b
  | .fbits w a, .fbits w' b => w == w' && a == b
  | .date a, .date b => a == b
  | .datetime a o, .datetime b p => a == b && o == p
  | .timedelta a, .timedelta b => a == b
  | .ipv4 a, .ipv4 b => a == b
  | a, b => match asNum a, asNum b with | some x, some y => x == y | _, _ => false

/-- The keys of the expected object that the parsed one does not have. -/
partial def extra : Val → Val → List String
  | .dict a, .dict b => b.flatMap fun (k, w) => match dget a k with | some v => (extra v w).map (k ++ "." ++ ·) | none => [k]
  | .list a, .list b => (a.zip b).flatMap fun (x, y) => extra x y
  | _, _ => []

partial def show_ : Val → String
  | .none => "None" | .bool b => toString b | .int n => toString n | .flt q => toString q | .inf => "inf" | .fbits w n => s!"fbits {w} {n}"
  | .str s => s!"{repr s}" | .bytes b => s!"bytes {b}" | .list l => s!"{l.map show_}" | .set l => s!"set {l}"
  | .dict d => "{" ++ String.intercalate ", " (d.map fun (k, v) => k ++ ": " ++ show_ v) ++ "}"
  | .enum c n => s!"{c}({n})" | .date d => s!"date {d}" | .datetime m o => s!"datetime {m} {o}" | .timedelta m => s!"timedelta {m}" | .ipv4 b => s!"ip {b}"

/-- What a test looks at; the entry of the payload also answers to `params` / `payload` (`AliasedContainer`). -/
def pick (sel : String) (v : Val) : Val :=
  match v with
  | .dict d =>
    if sel = "params" then match d.filter (fun kv => kv.1 ≠ "opcode") with | (_, w) :: _ => w | [] => .none
    else if sel = "sub" ∨ sel = "subsel" then .dict (d.map fun kv => if kv.1 = "subopcode" then kv else ("payload", kv.2))
    else if sel.startsWith "key:" then (dget d (sel.drop 4).toString).getD (.str "missing")
    else v
  | v => v

/-- For tests that look at some keys only. -/
def restrict : Val → Val → Val
  | .dict a, .dict b => .dict (a.filterMap fun (k, v) => match dget b k with
    | some (.dict w) => match v with | .dict v => some (k, .dict (v.filter fun kv => (dget w kv.1).isSome)) | v => some (k, v)
    | some _ => some (k, v) | none => none)
  | a, _ => a

def report : Vec → Option String
  | .parse id c sel s v => match c.parse strictLib [] s with
    | .ok (w, rest) =>
      let w := pick sel w
      let w := if sel = "subsel" then restrict w v else w
      if same w v && rest.isEmpty then
        let x := extra w v
        if x.isEmpty then none else some s!"note {id}: expected keys not produced {x}"
      else some s!"FAIL parse {id}: got {show_ w}, rest {rest}, expected {show_ v}"
    | .error e => some s!"FAIL parse {id}: raised {repr e}"
  | .build id c u s => match c.build strictLib [] u with
    | .ok (b, _) => if b == s then none else some s!"FAIL build {id}: got {b}, expected {s}"
    | .error e => some s!"FAIL build {id}: raised {repr e} for {show_ u}"
  | .parseErr id c s e => match c.parse strictLib [] s with
    | .ok (w, _) => some s!"FAIL parseErr {id}: got {show_ w}"
    | .error f => if e = f then none else some s!"FAIL parseErr {id}: raised {repr f}"
  | .buildErr id c u e => match c.build strictLib [] u with
    | .ok (b, _) => some s!"FAIL buildErr {id}: got {b}"
    | .error f => if e = f then none else some s!"FAIL buildErr {id}: raised {repr f}"
  | .buildDiff id c u s => match c.build strictLib [] u with
    | .ok (b, _) => if b == s then some s!"FAIL buildDiff {id}" else none
    | .error _ => none
  | .accessBuild id u s => match accessBuild Tables.registry strictLib u with
    | .ok (b, _) => if b == s then none else some s!"FAIL accessBuild {id}: got {b}"
    | .error e => some s!"FAIL accessBuild {id}: raised {repr e}"
  | .accessParse id s v => match accessParse Tables.registry strictLib s with
    | .ok (w, _) => if same w v then none else some s!"FAIL accessParse {id}: got {show_ w}"
    | .error e => some s!"FAIL accessParse {id}: raised {repr e}"

def run (l : List Vec) : IO Unit := do
  let mut n := 0
  for v in l do
    let t ← IO.monoMsNow
    match report v with
    | some x => IO.println x; if x.startsWith "FAIL" then n := n + 1
    | none => pure ()
    let t' ← IO.monoMsNow
    if t' - t > 2000 then IO.println s!"slow {t' - t}"; (← IO.getStdout).flush
  IO.println s!"{l.length} vectors, {n} failed"

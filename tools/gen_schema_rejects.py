#!/usr/bin/env python3
"""Writes lean/Verif/Props/SchemaRejects.lean: for each listed beginning an example of a message that decodes but does not fit the schema (the decoded values are
evaluated with the model and then proved)."""
import subprocess, os
EV = r"""import Verif.Tables
import Verif.Witness
import Verif.Access
import Verif.SpecCapnpMsgs
namespace BM
open Tables
instance : Platform := somePlatform
def sq (x : String) : String := "\"" ++ x ++ "\""
def bs (l : List UInt8) : String := "[" ++ ", ".intercalate (l.map fun x => toString x.toNat) ++ "]"
partial def pv : Val → String
  | .none => ".none"
  | .bool b => s!".bool {b}"
  | .int n => s!".int {n}"
  | .flt q => if q.den = 1 then s!".flt {q.num}" else s!".flt ({q.num} / {q.den})"
  | .inf => ".inf"
  | .fbits w n => s!".fbits {w} {n}"
  | .str s => s!".str {sq s}"
  | .bytes b => s!".bytes {bs b}"
  | .list l => ".list [" ++ ", ".intercalate (l.map pv) ++ "]"
  | .set l => s!".set {l}"
  | .dict l => ".dict [" ++ ", ".intercalate (l.map fun e => "(" ++ sq e.1 ++ ", " ++ pv e.2 ++ ")") ++ "]"
  | .enum c n => s!".enum {sq c} {n}"
  | .date d => s!".date {d}"
  | .datetime a b => s!".datetime {a} {b}"
  | .timedelta a => s!".timedelta {a}"
  | .ipv4 b => s!".ipv4 {bs b}"
def ex : List (List UInt8 × List UInt8) := [
  ([0x80, 0x39], [1, 0, 0x10, 0x10, 5, 0, 0, 0, 0]), ([0x06], [0, 1, 0, 0x10, 0x10, 5, 0, 0, 0, 0]), ([0x80, 0x3B], [1, 0, 2, 0, 0x11]), ([0x80, 0x3C], [0, 1, 0, 2, 0, 0x11, 0x11, 1, 2]),
  ([0x03], [1, 0, 2, 0, 3, 0, 5, 0, 0, 7, 0]), ([0x80, 0x1A], [1, 0] ++ (List.replicate 16 7) ++ [3, 0, 5, 0, 0, 7, 0]), ([0x80, 0x19], [0, 1, 0, 2, 0, 3, 0, 5, 0, 0, 7, 0]),
  ([0x82, 0x32], []), ([0x53], []), ([0x82, 0x33], []), ([0x54], []), ([0x55], []), ([0x56], []), ([0x57], []),
  ([0xF0, 0x36, 0x01, 0x00], []), ([0xF0, 0x36, 0x01, 0x02], []), ([0xF0, 0x36, 0x01, 0x03], []),
  ([0xF6, 0x36, 0x01, 0x04], []), ([0xF6, 0x36, 0x01, 0x05], []), ([0xF6, 0x36, 0x01, 0x06], []), ([0xF6, 0x36, 0x01, 0x08], []),
  ([0xFC, 0x36, 0x01, 0x05], []), ([0xFC, 0x36, 0x01, 0x06], []),
  ([0x5C, 0, 0, 0, 0, 0], []), ([0x5D, 0, 0, 0, 0, 0], []),
  ([0xF0, 0x36, 0x01, 0x01], List.replicate 13 0), ([0xF0, 0x36, 0x01, 0x08], [1,2,3,4]), ([0xF0, 0x36, 0x01, 0x09], [1,2,3,4]), ([0xF0, 0x36, 0x01, 0x0A], [1,2,3,4]), 
  ([0xF0, 0x36, 0x01, 0x0C], List.replicate 35 0),
  ([0xE8, 0x36, 0x01, 0x01], [0]), ([0xE8, 0x36, 0x01, 0x03], [1,2,3,4]), ([0xE8, 0x36, 0x01, 0x05], [0]), ([0xE8, 0x36, 0x01, 0x06], [0]), ([0xE8, 0x36, 0x01, 0x07], [1]),
  ([0xE8, 0x36, 0x01, 0x08], [1, 0]), ([0xE8, 0x36, 0x01, 0x09], [1]), ([0xE8, 0x36, 0x01, 0x0B], [1, 0]), ([0xE8, 0x36, 0x01, 0x0D], [1,2,3,4])]
#eval ex.map (·.1) == Spec.capnpRejects
#eval (do for e in ex do
            match accessParse registry strictLib (e.1 ++ e.2) with
            | .ok (v, r) => IO.println (bs e.1 ++ "|" ++ bs e.2 ++ "|" ++ pv v ++ "|" ++ bs r)
            | .error x => IO.println (bs e.1 ++ "|" ++ bs e.2 ++ "|ERR") : IO Unit)
end BM
"""
open("/tmp/w_pr.lean", "w").write(EV)
open("/tmp/w_pr.out", "w").write(subprocess.run(["lake", "env", "lean", "/tmp/w_pr.lean"], cwd="/verif/lean", capture_output=True, text=True).stdout)
import re
cases={}
for l in open('/verif/lean/Verif/Tables.lean'):
    m=re.match(r'\s*\(E\.(\w+), (\w+)\)',l)
    if m: cases[m[1]]=m[2]
out=['''import Verif.NotAccepted
import Verif.SpecCapnpMsgs
import Verif.RaisesMesh
import Verif.Props.Opcodes
/-!
# Messages that the generated Cap'n Proto schema does not take (C50)
-/
namespace BM.Props
open Tables Config Capnp BM.Schema BM.Case
variable [Platform]

/-- Some message that begins with `p` decodes to a value that the generated message type does not accept. -/
def RejectsAt (p : List UInt8) : Prop :=
  ∃ s v rest, p <+: s ∧ (∀ L, accessParse registry L s = .ok (v, rest)) ∧ ¬ Accepts schema "AccessMessage" (toCamelcaseDict v)

theorem rejectsAt {p : List UInt8} (t : List UInt8) (v : Val) (rest : List UInt8) {E : Entry} (he : E ∈ registry) {N : String} {n : Nat}
    (hN : (N, (n : Int)) ∈ E.1.members) {u : List UInt8} (hs : p ++ t = wireOpcode n ++ u)
    (h : ∀ L, ((findCase n E.2).getD passC).parse L [("opcode", .enum E.1.cls n)] u = .ok (v, rest))
    (hm : may schema 12 "AccessMessage" (toCamelcaseDict (.dict [("opcode", .enum E.1.cls n), (lower N, v)])) = false) : RejectsAt p := by
  refine ⟨p ++ t, _, rest, List.prefix_append _ _, fun L => ?_, not_accepts 12 hm⟩
  rw [hs, C04_parse he hN, h]
  rfl
''']
i=0
for l in open('/tmp/w_pr.out'):
    if not l.startswith('['): continue
    p,t,v,r=l.strip().split('|')
    hx=lambda x:'['+', '.join('0x%02X'%b for b in eval(x))+']'
    m=re.match(r'\.dict \[\("opcode", \.enum "(\w+)" (\d+)\), \("(\w+)", (.*)\)\]$',v)
    cls,n,name,val=m[1],int(m[2]),m[3],m[4]
    full=eval(p)+eval(t)
    nl=1 if n<256 else 2 if n<65536 else 3
    u=full[nl:]
    out.append(f'''
set_option maxRecDepth 1000000 in
set_option maxHeartbeats 4000000 in
theorem rejects{i} : RejectsAt {hx(p)} :=
  rejectsAt {hx(t)}
    ({val}) {r}
    (E := (E.{cls}, {cases[cls]})) (N := "{name.upper()}") (n := {hex(n)}) (u := {hx(str(u))})
    (by inreg) (by dsimp only; decide +kernel) rfl (fun L => by with_unfolding_all rfl) (by dsimp only; decide +kernel)
''')
    i+=1
out.append(f'''
/-- **C50 (exceptions).** Each of the listed beginnings does occur: some message that begins so is decoded, but its value is not accepted. -/
theorem C50_rejects : ∀ p ∈ Spec.capnpRejects, RejectsAt p := by
  unfold Spec.capnpRejects
  exact '''+' <| '.join(f'all_cons rejects{j}' for j in range(i))+' <| all_nil\n')
out.append('\nend BM.Props\n')
open('/verif/lean/Verif/Props/SchemaRejects.lean','w').write(''.join(out))

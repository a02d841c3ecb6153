#!/usr/bin/env python3
"""Writes lean/Verif/CapnpSchema.lean: the schema that the model of the generator prints for the messages of the repository, as a literal, together
with lemmas that find the entries.  The literal is the result of evaluating `generate Trees.messages`."""
import os, subprocess, re
HERE = os.path.dirname(os.path.abspath(__file__)); LEAN = os.path.join(HERE, "..", "lean")
EV = '''import Verif.SchemaTrees
open BM.Schema BM
def show1 : Line → String
  | .field n t ty => s!"F {n.getD "None"} {t} {ty}"
  | .openUnion n => s!"U {n.getD "-"}"
  | .close => "}"
#eval do
  match generate Trees.messages with
  | .ok l => for e in l do
      IO.println s!"S {e.1}"
      for x in e.2 do IO.println ("  " ++ show1 x)
  | .error _ => IO.println "ERR"
'''
open("/tmp/_ev.lean", "w").write(EV)
out = subprocess.run(["lake", "env", "lean", "/tmp/_ev.lean"], cwd=LEAN, capture_output=True, text=True).stdout
structs = []
stack = None
for line in out.splitlines():
    w = line.split()
    if not w: continue
    if w[0] == "S":
        structs.append((w[1], [])); stack = [structs[-1][1]]
    elif w[0] == "F":
        stack[-1].append(("F", w[1], w[3]))
    elif w[0] == "U":
        u = ("U", None if w[1] == "-" else w[1], []); stack[-1].append(u); stack.append(u[2])
    elif w[0] == "}":
        stack.pop()
defs = []
def lean(n, t):
    if t[0] == "F": return '.field (some "%s") "%s"' % (t[1], t[2])
    name = ("u_%s" % n) if t[1] is None else "g_%s_%s" % (n, t[1])
    defs.append((name, n, t[1], "[%s]" % ", ".join([lean(n, x) for x in t[2]])))
    return '.union %s %s' % ("none" if t[1] is None else '(some "%s")' % t[1], name)
o = ["""import Verif.Schema
/-!
# The schema of the messages

Generated by tools/gen_capnp_schema.py: what the model of capnproto/generator.py:286-327 prints for the messages of the repository (evaluated by the
tool; not a theorem).
-/
namespace BM.Capnp
open BM.Schema
"""]
for n, fs in structs:
    defs.clear()
    body = ", ".join([lean(n, t) for t in fs])
    for d in defs:
        o.append('/-- A union of the struct `%s` (printed by capnproto/generator.py:315-321). -/\ndef %s : List Tree := %s\n' % (d[1], d[0], d[3]))
    o.append('/-- The struct `%s` (printed by capnproto/generator.py:323-327). -/\ndef s_%s : List Tree := [%s]\n' % (n, n, body))
o.append('/-- All structs, in the order in which they are printed (capnproto/generator.py:323-327). -/\ndef schema : List (String × List Tree) := [\n  %s]\n' % ",\n  ".join('("%s", s_%s)' % (n, n) for n, _ in structs))
o.append('end BM.Capnp')
open(os.path.join(LEAN, "Verif", "CapnpSchema.lean"), "w").write("\n".join(o) + "\n")

# lemmas found by instance search
def camelcase(name):
    head, *tail = name.lower().replace(" ", "_").split("_")
    return "".join([head, *(i.title() for i in tail)])
trees = open(os.path.join(LEAN, "Verif", "SchemaTrees.lean")).read()
names = set(re.findall(r'\.renamed none "([^"]+)"', trees))
cases = set(re.findall(r'\("([^"]+)", ', trees))
o = ["""import Verif.Fit
/-!
# The members of the schema, for instance search

Generated by tools/gen_capnp_schema.py.
-/
namespace BM.Capnp
open BM.Schema
"""]
def members(fsname, fs):
    for i, t in enumerate(fs):
        if t[0] == "F":
            o.append('instance : HasMember %s "%s" (.type "%s") := member_field %d rfl' % (fsname, t[1], t[2], i))
        elif t[1] is None:
            members("u_" + cur, t[2])
            for m in t[2]:
                slot = '.type "%s"' % m[2] if m[0] == "F" else ".group g_%s_%s" % (cur, m[1])
                o.append('instance : HasMember %s "%s" (%s) := member_inner (us := u_%s) %d rfl' % (fsname, m[1], slot, cur, i))
        else:
            o.append('instance : HasMember %s "%s" (.group g_%s_%s) := member_group %d rfl' % (fsname, t[1], cur, t[1], i))
lists = set()
for i, (n, fs) in enumerate(structs):
    cur = n
    if not any(t[0] == "U" and t[1] is None for t in fs):
        o.append('instance : IsPlain "%s" s_%s := isPlain %d rfl rfl' % (n, n, i))
    else:
        o.append('instance : IsUnion "%s" s_%s u_%s := isUnion %d rfl rfl' % (n, n, n, i))
    members("s_" + n, fs)
    def walk(ts):
        for t in ts:
            if t[0] == "F":
                m = re.match(r"List\((.*)\)$", t[2])
                if m: lists.add(m.group(1))
            else: walk(t[2])
    walk(fs)
for l in sorted(lists): o.append('instance : IsList "List(%s)" "%s" := ⟨by decide +kernel⟩' % (l, l))
for k in sorted(names):
    if not k.startswith("_"): o.append('instance : Camel "%s" "%s" := ⟨by decide +kernel, by decide +kernel⟩' % (k, camelcase(k)))
for k in sorted(cases): o.append('instance : CamelName "%s" "%s" := ⟨by decide +kernel⟩' % (k, camelcase(k)))
o.append("end BM.Capnp")
open(os.path.join(LEAN, "Verif", "FitInst.lean"), "w").write("\n".join(o) + "\n")
print(len(structs), len(o))

#!/usr/bin/env python3
"""Reads every `XMessage = SwitchStruct(...)` table of /repo as text (ast) and writes lean/Verif/Tables.lean.

Payload constructs are resolved to the Lean definitions whose doc comment cites them (`file.py:a-b `Name``)."""
import ast, glob, os, re
ROOT = '/repo/bluetooth_mesh/messages/'
LEAN = '/verif/lean/Verif/'
MODELS = ['Config', 'Generics', 'Property', 'Sensor', 'Time', 'Silvair', 'RRule', 'ELT']
# python file -> {python name: (lean term, kind)}
cites = {}
for m in MODELS:
    p = LEAN + m + '.lean'
    if not os.path.exists(p): continue
    ns, doc, buf = [], None, []
    text = open(p).read()
    for mm in re.finditer(r'^namespace (\S+)|^end (\S+)|/--(.*?)-/\s*\n(?:noncomputable )?(?:abbrev|def) (\S+)((?:[^\n]|\n(?!\n))*?):=', text, re.S | re.M):
        if mm.group(1): ns.append(mm.group(1)); continue
        if mm.group(2):
            if ns and ns[-1] == mm.group(2): ns.pop()
            continue
        doc, name, sig = mm.group(3), mm.group(4), mm.group(5)
        full = '.'.join(ns[1:] + [name])
        kind = 'items' if re.search(r':\s*List \(Item', sig) else 'con'
        for c in re.finditer(r'((?:\w+/)?\w+\.py):[\d-]+ ((?:`[\w.]+`(?:, | / )?)+)', doc):
            for nm in re.findall(r'`([\w.]+)`', c.group(2)):
                cites.setdefault(c.group(1), {}).setdefault(nm, (full, kind))
GEN = {}
out = []
missing = []
order = []
for f in sorted(glob.glob(ROOT + '**/*.py', recursive=True)):
    rel = os.path.relpath(f, ROOT)
    mod = ast.parse(open(f).read())
    assigns = {}
    for n in mod.body:
        if isinstance(n, ast.Assign) and isinstance(n.targets[0], ast.Name):
            assigns[n.targets[0].id] = n
    def resolve(e, seen=()):
        s = ast.unparse(e)
        if s == 'Struct()': return 'struct []'
        if isinstance(e, ast.Name):
            c = cites.get(rel, {}).get(e.id) or cites.get(os.path.basename(rel), {}).get(e.id)
            if c: return c[0] if c[1] == 'con' else f'struct {c[0]}'
            if e.id in assigns and e.id not in seen:
                val = assigns[e.id].value
                t = subtable(e.id, assigns[e.id])
                if t is not None: return t
                return resolve(val, seen + (e.id,))
        return None
    def enum_values(E):
        enum = next(c for c in mod.body if isinstance(c, ast.ClassDef) and c.name == E)
        return {s.targets[0].id: ast.literal_eval(s.value) for s in enum.body if isinstance(s, ast.Assign)}
    def subtable(name, node):
        v = node.value
        if not isinstance(v, ast.Call) or ast.unparse(v.func) not in ('SwitchStruct', 'Struct') or len(v.args) != 2: return None
        key, sw = v.args
        if not (isinstance(key, ast.BinOp) and ast.unparse(key.left) == "'subopcode'"): return None
        assert ast.unparse(sw.left) == "'payload'" and ast.unparse(sw.right.args[0]) == 'this.subopcode'
        assert ast.unparse(key.right.args[0]) == 'Int8ul' and ast.unparse(key.right.func) == 'EnumAdapter'
        E = ast.unparse(key.right.args[1])
        vals = enum_values(E)
        lines = []
        for k, x in zip(sw.right.args[1].keys, sw.right.args[1].values):
            op = ast.unparse(k).split('.')[-1]
            t = resolve(x)
            if t is None: missing.append((rel, name, op, ast.unparse(x)[:60])); return None
            lines.append((op, vals[op], t))
        short = name[0].lower() + name[1:] + 'Cases'
        out.append(f'/-- {rel}:{node.lineno}-{node.end_lineno} `{name}`: the table of sub-messages. -/')
        out.append(f'def {short} [Platform] : List (Int × Con UInt8) := [')
        for i, (op, v_, t) in enumerate(lines):
            out.append(f'  (0x{v_:X}, {t}){"," if i + 1 < len(lines) else "]"} -- {op}')
        out.append('')
        con = 'subMessage' if ast.unparse(v.func) == 'SwitchStruct' else 'plainSubMessage'
        return f'{con} E.{E} {short}'
    for n in mod.body:
        if not (isinstance(n, ast.Assign) and isinstance(n.value, ast.Call)): continue
        if ast.unparse(n.value.func) != 'SwitchStruct': continue
        name = n.targets[0].id
        if not name.endswith('Message'): continue
        key, sw = n.value.args
        E = ast.unparse(key.right.args[0])
        assert ast.unparse(key.left) == "'opcode'" and ast.unparse(sw.left) == "'params'"
        d = sw.right.args[1]
        lines, ok = [], True
        enum = next(c for c in mod.body if isinstance(c, ast.ClassDef) and c.name == E)
        vals = {s.targets[0].id: ast.literal_eval(s.value) for s in enum.body if isinstance(s, ast.Assign)}
        for k, v in zip(d.keys, d.values):
            op = ast.unparse(k).split('.')[-1]
            t = resolve(v)
            if t is None: missing.append((rel, name, op, ast.unparse(v)[:60])); ok = False
            lines.append((op, vals[op], t))
        short = name[0].lower() + name[1:].replace('Message', '')
        order.append((short, E, ok))
        if not ok: continue
        plat = ' [Platform]'
        out.append(f'/-- {rel}:{n.lineno}-{n.end_lineno} `{name}`: the payload table. -/')
        out.append(f'def {short}Cases{plat} : List (Int × Con UInt8) := [')
        for i, (op, v, t) in enumerate(lines):
            out.append(f'  (0x{v:X}, {t}){"," if i + 1 < len(lines) else "]"} -- {op}')
        out.append('')
init = ast.parse(open(ROOT + '__init__.py').read())
reg = None
for n in ast.walk(init):
    if isinstance(n, ast.Assign) and ast.unparse(n.targets[0]) == 'OPCODES': reg = n
ok = {o[0]: o[2] for o in order}
rows = []
for k, v in zip(reg.value.keys, reg.value.values):
    nm = ast.unparse(v); short = nm[0].lower() + nm[1:].replace('Message', '')
    assert any(o[0] == short and o[1] == ast.unparse(k) for o in order), nm
    if ok[short]: rows.append(f'(E.{ast.unparse(k)}, {short}Cases)')
out.append(f'/-- __init__.py:{reg.lineno}-{reg.end_lineno} `_AccessMessage.OPCODES`: opcode enumerations and their message tables, in order. -/')
out.append('def registry [Platform] : List (EnumDef × List (Int × Con UInt8)) := [')
out.append('  ' + ',\n  '.join(rows) + ']')
out.append('')
out.append('/-- The opcode enumerations of the registry. -/')
out.append('def opcodeEnums : List EnumDef := [')
out.append('  ' + ',\n  '.join(r[1:].split(',')[0] for r in rows) + ']')
out.append('')
hdr = ['import Verif.Generics'] + [f'import Verif.{m}' for m in MODELS if m not in ('Config', 'Generics') and os.path.exists(LEAN + m + '.lean')]
hdr += ['/-!', '# Message tables', '', 'Generated by `tools/gen_tables.py` from the `SwitchStruct` tables of the source text; the payload constructs are the model',
        'definitions that cite the Python names.', '-/', 'namespace BM', 'open Config', 'namespace Tables', '']
open(LEAN + 'Tables.lean', 'w').write('\n'.join(hdr + out + ['end Tables', 'end BM', '']))
for m in missing: print('missing', m)
print([o[0] for o in order if o[2]], 'pending', [o[0] for o in order if not o[2]])

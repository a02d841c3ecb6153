#!/usr/bin/env python3
"""Reads the Struct definitions and PropertyDict of /repo/bluetooth_mesh/messages/properties.py as text (ast) and writes
lean/Verif/PropertyDict.lean."""
import ast
P = '/repo/bluetooth_mesh/messages/properties.py'
mod = ast.parse(open(P).read())
enum = next(c for c in mod.body if isinstance(c, ast.ClassDef) and c.name == 'PropertyID')
vals = {s.targets[0].id: ast.literal_eval(s.value) for s in enum.body if isinstance(s, ast.Assign)}
INTS = {'Int8ul': ('uintLE 1', 1), 'Int16ul': ('uintLE 2', 2), 'Int24ul': ('bytesIntLE 3', 3), 'Int32ul': ('uintLE 4', 4),
        'Int8sl': ('sintLE 1', 1), 'Int16sl': ('sintLE 2', 2)}
DEC = {0.1: '1 / 10', 0.5: '1 / 2', 0.01: '1 / 100', 0.001: '1 / 1000', 0.0001: '1 / 10000', 0.00001: '1 / 100000'}
def low(n): return n[0].lower() + n[1:]
structs = {}
def res(e):
    if isinstance(e, ast.BinOp):
        assert isinstance(e.op, ast.Div)
        a, b = ast.literal_eval(e.left), ast.literal_eval(e.right)
        return f'(.f (fdiv {a} {b}))'
    v = ast.literal_eval(e)
    if isinstance(v, int): return f'(.i {v})'
    return f'(.f (rnd ({DEC[v]})))'
def con(e):
    if isinstance(e, ast.Name):
        if e.id in INTS: return INTS[e.id][0]
        if e.id == 'Flag': return 'flag'
        assert e.id in structs, e.id
        return f'struct {low(e.id)}'
    f = ast.unparse(e.func); kw = {k.arg: k.value for k in e.keywords}
    if f == 'DefaultCountValidator':
        c, w = INTS[e.args[0].id]
        r = ast.literal_eval(kw['rounding']) if 'rounding' in kw else 0
        rs = res(kw['resolution']) if 'resolution' in kw else '(.f 1)'
        u = ast.literal_eval(kw['unknown_value']) if 'unknown_value' in kw else True
        return f'defaultCount ({c}) {w} {r} {rs} {str(u).lower()}'
    if f == 'TimeExponential8Validator': assert e.args[0].id == 'Int8ul'; return 'timeExp'
    if f == 'DateAdapter': assert e.args[0].id == 'Int24ul'; return 'dateC'
    if f == 'EnumAdapter': return f'enumAdapter ({INTS[e.args[0].id][0]}) E.{e.args[1].id}'
    if f == 'BytesInteger': assert ast.literal_eval(kw['swapped']); return f'bytesIntLE {ast.literal_eval(e.args[0])}'
    if f == 'BitsInteger': return f'ubits {ast.literal_eval(e.args[0])}'
    if f == 'FixedString': return f'fixedString {ast.literal_eval(e.args[0])}'
    raise Exception(ast.unparse(e))
def item(e):
    if isinstance(e, ast.BinOp): return f'field "{ast.literal_eval(e.left)}" ({con(e.right)})'
    if isinstance(e, ast.Starred):
        c = e.value; assert ast.unparse(c.func) == 'EmbeddedBitStruct'
        rev = any(k.arg == 'reversed' and ast.literal_eval(k.value) for k in c.keywords)
        bits = sum(ast.literal_eval(a.right.args[0]) for a in c.args[1:])
        return f'embeddedBitStruct "{ast.literal_eval(c.args[0])}" {bits // 8} {str(rev).lower()} [' + ', '.join(item(a) for a in c.args[1:]) + ']'
    assert ast.unparse(e.func) == 'Embedded'
    return f'embedded {low(e.args[0].id)}'
out = []
uses = {}
for n in mod.body:
    if not (isinstance(n, ast.Assign) and isinstance(n.targets[0], ast.Name)): continue
    nm = n.targets[0].id
    if isinstance(n.value, ast.Call) and ast.unparse(n.value.func) == 'Struct':
        its = [item(a) for a in n.value.args]
        structs[nm] = its
        body = ', '.join(its)
        plat = 'timeExp' in body or any(f'struct {low(s)}' in body or f'embedded {low(s)}' in body for s in uses if uses[s])
        uses[nm] = plat
        out.append(f'/-- properties.py:{n.lineno}-{n.end_lineno} `{nm}`. -/')
        out.append(f'abbrev {low(nm)}{" [Platform]" if plat else ""} : List (Item UInt8) := [')
        out.append('  ' + ',\n  '.join(its) + ']')
    if nm == 'PropertyDict':
        rows = []
        for k, v in zip(n.value.keys, n.value.values):
            pid = k.attr
            t = f'struct {low(v.id)}' if isinstance(v, ast.Name) else con(v)
            rows.append((vals[pid], t, pid))
        out.append('')
        out.append(f'/-- properties.py:{n.lineno}-{n.end_lineno} `PropertyDict`. -/')
        out.append('def propertyDict [Platform] : List (Int × Con UInt8) := [')
        for i, (v, t, p) in enumerate(rows):
            out.append(f'  (0x{v:04X}, {t}){"," if i + 1 < len(rows) else "]"} -- {p}')
hdr = ['import Verif.Property', 'import Verif.Enums', '/-!', '# Model of `properties.py`: property structures and `PropertyDict`', '',
       'Generated by `tools/gen_propdict.py` from the source text.', '-/', 'namespace BM', 'namespace Property', '']
open('/verif/lean/Verif/PropertyDict.lean', 'w').write('\n'.join(hdr + out + ['', 'end Property', 'end BM', '']))
print(len(structs), len(rows))

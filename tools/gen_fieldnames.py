#!/usr/bin/env python3
"""The field names of the package (FieldNames.lean): every "name" / construct in bluetooth_mesh/messages."""
import ast, glob, os
L = os.path.join(os.path.dirname(__file__), '../lean/Verif/')
names = {}
for f in sorted(glob.glob('/repo/bluetooth_mesh/**/*.py', recursive=True)):
    if 'test' in f: continue
    for n in ast.walk(ast.parse(open(f).read())):
        if isinstance(n, ast.BinOp) and isinstance(n.op, ast.Div) and isinstance(n.left, ast.Constant) and isinstance(n.left.value, str):
            names.setdefault(n.left.value, []).append(f"{f.split('/')[-1]}:{n.lineno}")
rows = []
for n in sorted(names):
    rows.append('[' + ', '.join(f"'{c}'" for c in n) + ']' + '@  -- ' + n + ' (' + sorted(names[n])[0] + ')')
body = '\n  '.join(r.replace('@', ',' if i + 1 < len(rows) else ']') for i, r in enumerate(rows))
open(L + 'FieldNames.lean', 'w').write('''/-!
# The names of the fields of the package

Generated by `tools/gen_fieldnames.py` from the source text: the names written as `"name" / construct` in bluetooth_mesh/messages.
-/
namespace BM

/-- The names, with one place where each of them occurs. -/
def fieldChars : List (List Char) := [
  ''' + body + '''

/-- The names. -/
def fieldNames : List String := fieldChars.map String.ofList

end BM
''')

#!/usr/bin/env python3
"""Opcode names as character lists (Names.lean), so that the kernel need not decode strings."""
import re, os
L = os.path.join(os.path.dirname(__file__), '../lean/Verif/')
enums = dict(re.findall(r'def (\w+) : EnumDef[^\[]*\[(.*?)\]', open(L + 'Enums.lean').read(), re.S))
t = open(L + 'Tables.lean').read()
t = t[t.index('def opcodeEnums'):]
rows = []
for e in re.findall(r'E\.(\w+)', t):
    for n in re.findall(r'"(\w+)"', enums[e]):
        rows.append('[' + ', '.join(f"'{c}'" for c in n) + ']')
open(L + 'Names.lean', 'w').write('import Verif.Tables\n/-!\n# The opcode names, letter by letter\n\nGenerated by `tools/gen_names.py`; only used to spare the kernel the decoding of strings.\n-/\nnamespace BM\n\n'
  + 'def nameChars : List (List Char) := [\n  ' + ',\n  '.join(rows) + ']\n\n'
  + 'set_option maxRecDepth 100000 in\ntheorem nameChars_eq : Tables.opcodeEnums.flatMap (fun E => E.members.map Prod.fst) = nameChars.map String.ofList := by\n  with_unfolding_all exact (Eq.refl (nameChars.map String.ofList))\n\nend BM\n')

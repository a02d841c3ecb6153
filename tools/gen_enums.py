#!/usr/bin/env python3
"""Reads the IntEnum classes of /repo as text (ast) and writes lean/Verif/Enums.lean."""
import ast, glob, os
ROOT = '/repo/bluetooth_mesh/messages/'
out = ['import Verif.Util', '/-!', '# Enumerations', '',
       'Generated by `tools/gen_enums.py` from the source text of `/repo/bluetooth_mesh/messages`: every `IntEnum` class with its',
       'members in definition order.', '-/', 'namespace BM', 'namespace E', '']
for f in sorted(glob.glob(ROOT + '**/*.py', recursive=True)):
    rel = os.path.relpath(f, ROOT)
    for n in ast.parse(open(f).read()).body:
        if not isinstance(n, ast.ClassDef): continue
        if not any(ast.unparse(b).endswith('IntEnum') for b in n.bases): continue
        mem = [(s.targets[0].id, ast.literal_eval(s.value)) for s in n.body if isinstance(s, ast.Assign)]
        nm = n.name
        if rel.endswith('gateway_config_server.py') and nm == 'StatusCode': nm = 'GatewayStatusCode'
        out.append(f'/-- {rel}:{n.lineno}-{n.end_lineno} `{n.name}`. -/')
        out.append(f'def {nm} : EnumDef := ⟨"{n.name}", [')
        line = '  '
        for i, (k, v) in enumerate(mem):
            item = f'("{k}", {v})' + (',' if i + 1 < len(mem) else ']⟩')
            if len(line) + len(item) > 118: out.append(line.rstrip()); line = '  '
            line += item + ' '
        out.append(line.rstrip()); out.append('')
out += ['end E', 'end BM', '']
open('/verif/lean/Verif/Enums.lean', 'w').write('\n'.join(out))

#!/usr/bin/env python3
"""Rewrites citations `file.py:LINES `Name`` in the Lean model to the actual line range of Name in /repo."""
import ast, glob, os, re, sys
ROOT = '/repo/bluetooth_mesh/messages/'
idx = {}
for f in glob.glob(ROOT + '**/*.py', recursive=True):
    rel = os.path.relpath(f, ROOT)
    d = {}
    def add(n, pre=''):
        for s in n.body:
            if isinstance(s, (ast.ClassDef, ast.FunctionDef)):
                start = s.lineno if not s.decorator_list else s.decorator_list[0].lineno
                d[pre + s.name] = (start, s.end_lineno)
                add(s, pre + s.name + '.' if isinstance(s, ast.ClassDef) else pre)
            elif isinstance(s, ast.Assign) and isinstance(s.targets[0], ast.Name) and isinstance(n, ast.Module):
                d.setdefault(s.targets[0].id, (s.lineno, s.end_lineno))
    add(ast.parse(open(f).read()))
    idx[rel] = d; idx.setdefault(os.path.basename(rel), d) if os.path.basename(rel) != '__init__.py' else None
bad = 0
for f in sorted(glob.glob('/verif/lean/Verif/**/*.lean', recursive=True)):
    s = open(f).read()
    cur = [None]
    def rep(m):
        global bad
        file, a, b, name = m.group(1), m.group(2), m.group(3), m.group(4)
        d = idx.get(file)
        if d is None: print(f, 'unknown file', file); bad += 1; return m.group(0)
        if name not in d: print(os.path.basename(f), 'unknown name', file, name); bad += 1; return m.group(0)
        x, y = d[name]
        return f'{file}:{x}' + (f'-{y}' if y != x else '') + f' `{name}'
    t = re.sub(r'((?:\w+/)?\w+\.py):(\d+)(?:-(\d+))? `([\w.]+)', rep, s)
    if t != s: open(f, 'w').write(t); print('updated', os.path.basename(f))

#!/usr/bin/env python3
"""Names of the value enumerations as character lists (EnumNames.lean), and the order in which the source lists locations and properties."""
import re, os
L = os.path.join(os.path.dirname(__file__), '../lean/Verif/')
S = open(L + 'Enums.lean').read()
enums = dict(re.findall(r'def (\w+) : EnumDef[^\[]*\[(.*?)\]', S, re.S))
spec = open(L + 'SpecNumbers.lean').read()
table = re.findall(r'\(E\.(\w+), Assigned\.(\w+)\)', open(L + 'Props/Numbers.lean').read().split('theorem')[0])
def wrap(items, ind='  '):
    out, cur = [], ind
    for i, x in enumerate(items):
        t = x + (', ' if i < len(items) - 1 else '')
        if len(cur) + len(t) > 118: out.append(cur.rstrip()); cur = ind
        cur += t
    return '\n'.join(out + [cur.rstrip()])
rows = []
for e, _ in table:
    rows.append('[' + ',\n   '.join('[' + ', '.join(f"'{c}'" for c in n) + ']' for n in re.findall(r'"(\w+)"', enums[e])) + ']')
def order(e, t):
    seq = re.findall(r'"(\w+)"', re.search(r'def %s\b.*?\n\n' % t, spec, re.S).group(0))
    return wrap([str(seq.index(n)) for n in re.findall(r'"(\w+)"', enums[e])])
open(L + 'EnumNames.lean', 'w').write('''import Verif.Enums
/-!
# The names of the value enumerations, letter by letter

Generated by `tools/gen_enumnames.py`; only used to spare the kernel the comparison of strings.
-/
namespace BM

set_option maxRecDepth 100000 in
def enumChars : List (List (List Char)) := [
  ''' + ',\n  '.join(rows) + ''']

/-- Where each location of the package's enumeration stands in the ascending table. -/
def locationOrder : List Nat := [
''' + order('GATTNamespaceDescriptor', 'location') + ''']

/-- Where each property of the package's enumeration stands in the ascending table. -/
def propertyOrder : List Nat := [
''' + order('PropertyID', 'property') + ''']

end BM
''')

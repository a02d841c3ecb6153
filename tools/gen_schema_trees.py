#!/usr/bin/env python3
"""Reads the modules of /repo/bluetooth_mesh/messages as text (ast) and writes lean/Verif/SchemaTrees.lean: the constructs of the messages as trees of
`BM.Schema.Con`, with the names that `VariableNames` (capnproto/generator.py:36-57) gives them.  Nothing of the repository is executed: module-level
assignments are interpreted symbolically here.

Conventions: `Embedded(s)` inside a `Struct` stands for the members of `s` (construct 2.9.45 merges them when the structure is made)."""
import ast, os, sys

ROOT = '/repo/bluetooth_mesh/messages'
PKG = 'bluetooth_mesh.messages'

class Opaque:
    def __repr__(self): return 'Opaque'
OPAQUE = Opaque()

class Node:
    """A construct.  kind: struct switch select renamed ifthen text many focused skip leaf wrap."""
    def __init__(self, kind, **kw):
        self.kind = kind
        self.__dict__.update(kw)

class EnumClass:
    def __init__(self, name, members): self.name, self.members = name, members  # dict name -> value
    def canonical(self, name):
        v = self.members[name]
        return next(n for n, w in self.members.items() if w == v)
class Member:
    def __init__(self, cls, name): self.cls, self.name, self.value = cls, cls.canonical(name), cls.members[name]

class Class:
    def __init__(self, name, bases, attrs, node): self.name, self.bases, self.attrs, self.node = name, bases, attrs, node
    def attr(self, k):
        if k in self.attrs: return self.attrs[k]
        for b in self.bases:
            if isinstance(b, Class):
                r = b.attr(k)
                if r is not None: return r
        return None

class Func:
    def __init__(self, node, env): self.node, self.env = node, env

class Builtin:
    def __init__(self, name): self.name = name

def fmt(c): return Node('leaf', leaf=f".format '{c}'")
FORMATS = {}
for n, c in {'Int8': 'b', 'Int16': 'h', 'Int32': 'l', 'Int64': 'q'}.items():
    for e in ('l', 'b', 'n'):
        FORMATS[n + 's' + e] = fmt(c)
        FORMATS[n + 'u' + e] = fmt(c.upper())
for e in ('l', 'b', 'n'):
    FORMATS['Float32' + e] = fmt('f'); FORMATS['Float64' + e] = fmt('d')
SINGLETONS = dict(FORMATS)
SINGLETONS['Byte'] = SINGLETONS['Int8ub']
SINGLETONS['Flag'] = Node('leaf', leaf='.flag')
SINGLETONS['Pass'] = Node('skip', is_pass=True)
SINGLETONS['GreedyBytes'] = Node('leaf', leaf='.data')
for e in 'lb':
    SINGLETONS['Int24u' + e] = Node('leaf', leaf='.bytesInt 3 false')
    SINGLETONS['Int24s' + e] = Node('leaf', leaf='.bytesInt 3 true')
SINGLETONS['Bit'] = Node('leaf', leaf='.bits 1 false')
PASS = SINGLETONS['Pass']

def wrap(sub): return Node('wrap', sub=sub)
def renamed(name, sub): return Node('renamed', name=name, sub=sub)
def struct(*subs):
    out = []
    for s in subs:
        if s.kind == 'embedded':
            t = s.sub
            while t.kind in ('renamed', 'embedded'): t = t.sub
            assert t.kind == 'struct', t.kind
            out += t.subs
        else: out.append(s)
    return Node('struct', subs=out)
def padding(): return wrap(PASS)
def many(sub): return Node('many', sub=sub)
def switch(cases, default=None, name_for_default=None):
    return Node('switch', cases=cases, default=default, dname=name_for_default)

def embedded_bits(name, *fields, reversed=False):
    bs = wrap(struct(*fields))
    if reversed: bs = wrap(bs)
    out = [renamed(name, wrap(bs))]
    for f in fields:
        if f.kind == 'renamed': out.append(renamed(f.name, wrap(f)))
    return tuple(out)

def is_member(k): return isinstance(k, Member)

def call_builtin(name, args, kw):
    a = args
    if name == 'Struct': return struct(*a, **{}) if not kw else struct(*a, *[renamed(k, v) for k, v in kw.items()])
    if name in ('BitStruct',): return wrap(struct(*a))
    if name == 'Embedded': return Node('embedded', sub=a[0])
    if name == 'Switch': return switch(a[1] if len(a) > 1 else kw['cases'], kw.get('default', a[2] if len(a) > 2 else None), None)
    if name == 'SwitchWithNamedDefault': return switch(a[1], kw.get('default'), kw.get('name_for_default'))
    if name == 'Select': return Node('select', subs=list(a) + [renamed(k, v) for k, v in kw.items()])
    if name in ('GreedyRange',): return many(a[0])
    if name == 'Array': return many(a[1])
    if name == 'PrefixedArray': return Node('focused', sub=many(a[1]))
    if name in ('PaddedString', 'GreedyString', 'PascalString'): return Node('text')
    if name == 'Bytes': return Node('leaf', leaf='.data')
    if name == 'BitsInteger':
        s = kw.get('signed', a[1] if len(a) > 1 else False)
        return Node('leaf', leaf=f'.bits {a[0]} {str(bool(s)).lower()}')
    if name == 'BytesInteger':
        s = kw.get('signed', a[1] if len(a) > 1 else False)
        return Node('leaf', leaf=f'.bytesInt {a[0]} {str(bool(s)).lower()}')
    if name == 'Padding': return padding()
    if name == 'Computed': return Node('skip')
    if name == 'StopIf': return Node('skip')
    if name == 'Prefixed': return wrap(a[1])
    if name in ('Rebuild', 'Default', 'Bitwise', 'Bytewise', 'ByteSwapped', 'ExprValidator', 'ExprAdapter', 'Restreamed', 'Const', 'BitsSwapped'): return wrap(a[0])
    if name == 'Optional': return Node('select', subs=[a[0], PASS])
    if name == 'If': return Node('ifthen', then=a[1])
    if name == 'IfThenElse':
        return Node('ifthen', then=a[1]) if a[2] is PASS else Node('leaf', leaf='.other')
    raise NotImplementedError(name)

CONSTRUCT_CLASSES = {'Adapter', 'Construct', 'Switch', 'IfThenElse', 'Container', 'Subconstruct'}

def call_util(name, args, kw):
    """Functions and classes of util.py with code of their own."""
    if name == 'Reversed': return wrap(args[0])                       # util.py:68-69
    if name == 'BitList': return wrap(wrap(many(SINGLETONS['Bit'])))   # util.py:97-98
    if name in ('EnumAdapter', 'LogAdapter', 'RangeValidator'): return wrap(args[0])  # util.py:109-183
    if name == 'FieldAdapter': return wrap(args[1])                    # util.py:187-190
    if name == 'EmbeddedBitStruct': return embedded_bits(*args, **kw)  # util.py:199-222
    if name == 'Opcode': return wrap(SINGLETONS['Int32ub'])            # util.py:224-226
    if name == 'DefaultCountValidator': return wrap(SINGLETONS['Float64b'])  # util.py:274
    if name in ('MacAddressAdapter', 'IpAddressAdapter', 'SetAdapter', 'EnumSwitchStruct', 'BitListAdapter'): return wrap(args[0])
    if name == 'EnumSwitch': return switch(args[1], kw.get('default'), None)
    if name == 'SwitchWithNamedDefault': return call_builtin(name, args, kw)
    if name == 'SwitchStruct':                                         # util.py:384-389: Struct(key, switch.subcon)
        return wrap(struct(args[0], args[1].sub))
    if name == 'NamedSelect':                                          # util.py:450-454
        return wrap(Node('select', subs=[renamed(k, v) for k, v in kw.items()]))
    if name == 'IfThenElseDefault': return Node('ifthen', then=args[1])
    return None

class Module:
    def __init__(self, name, path, is_pkg): self.name, self.path, self.is_pkg, self.env = name, path, is_pkg, {}

MODULES = {}
DEFS = {}  # construct -> file, lines, variable of the first assignment

def find(modname):
    rel = modname[len(PKG):].strip('.').replace('.', '/')
    p = os.path.join(ROOT, rel)
    if os.path.isdir(p): return os.path.join(p, '__init__.py'), True
    return p + '.py', False

def load(modname):
    if modname in MODULES: return MODULES[modname]
    path, is_pkg = find(modname)
    m = Module(modname, path, is_pkg)
    MODULES[modname] = m
    for st in ast.parse(open(path).read()).body: stmt(st, m.env, m)
    return m

def resolve_from(st, m):
    if st.level == 0: return st.module
    parts = m.name.split('.') if m.is_pkg else m.name.split('.')[:-1]
    parts = parts[:len(parts) - (st.level - 1)]
    return '.'.join(parts + ([st.module] if st.module else []))

def stmt(st, env, m):
    if isinstance(st, ast.ImportFrom):
        src = resolve_from(st, m)
        for al in st.names:
            tgt = al.asname or al.name
            if src == 'construct':
                env[tgt] = SINGLETONS.get(al.name, Builtin(al.name))
            elif src.startswith(PKG):
                mod = load(src)
                env[tgt] = mod.env.get(al.name, OPAQUE)
            elif src == 'enum': env[tgt] = Builtin(al.name)
            else: env[tgt] = OPAQUE
    elif isinstance(st, ast.Import):
        for al in st.names: env[al.asname or al.name] = OPAQUE
    elif isinstance(st, ast.Assign):
        v = ev(st.value, env, m)
        for t in st.targets:
            if isinstance(t, ast.Name):
                env[t.id] = v
                DEFS.setdefault(id(v), (os.path.relpath(m.path, ROOT + '/..'), st.lineno, st.end_lineno, t.id))
    elif isinstance(st, ast.AnnAssign):
        if isinstance(st.target, ast.Name) and st.value: env[st.target.id] = ev(st.value, env, m)
    elif isinstance(st, ast.FunctionDef): env[st.name] = Func(st, env)
    elif isinstance(st, ast.ClassDef):
        basenames = [ast.unparse(b) for b in st.bases]
        if any(b.split('.')[-1] in ('IntEnum', 'Enum') for b in basenames):
            members = {}
            for s in st.body:
                if isinstance(s, ast.Assign) and isinstance(s.targets[0], ast.Name):
                    try: members[s.targets[0].id] = ast.literal_eval(s.value)
                    except ValueError: pass
            env[st.name] = EnumClass(st.name, members)
        else:
            attrs = {}
            local = dict(env)
            for s in st.body:
                if isinstance(s, ast.Assign) and isinstance(s.targets[0], ast.Name):
                    v = ev(s.value, local, m)
                    attrs[s.targets[0].id] = v; local[s.targets[0].id] = v
            bases = []
            for b in st.bases:
                bases.append(ev(b, env, m))
            env[st.name] = Class(st.name, bases, attrs, st)
    elif isinstance(st, (ast.Expr, ast.If, ast.Try)): pass
    else: raise NotImplementedError(ast.dump(st)[:100])

def args_of(e, env, m):
    args = []
    for x in e.args:
        if isinstance(x, ast.Starred):
            v = ev(x.value, env, m)
            args += list(v) if isinstance(v, (tuple, list)) else [OPAQUE]
        else: args.append(ev(x, env, m))
    kw = {k.arg: ev(k.value, env, m) for k in e.keywords if k.arg}
    return args, kw

def ev(e, env, m):
    if isinstance(e, ast.Constant): return e.value
    if isinstance(e, ast.Name):
        if e.id in env: return env[e.id]
        return OPAQUE
    if isinstance(e, ast.Attribute):
        v = ev(e.value, env, m)
        if isinstance(v, EnumClass) and e.attr in v.members: return Member(v, e.attr)
        return OPAQUE
    if isinstance(e, ast.BinOp):
        l, r = ev(e.left, env, m), ev(e.right, env, m)
        if isinstance(e.op, ast.Div) and isinstance(l, str) and isinstance(r, Node): return renamed(l, r)
        if isinstance(l, (int, float)) and isinstance(r, (int, float)) and isinstance(e.op, (ast.Mult, ast.Add, ast.Sub, ast.Div)):
            return {ast.Mult: l * r, ast.Add: l + r, ast.Sub: l - r}.get(type(e.op), OPAQUE)
        return OPAQUE
    if isinstance(e, ast.Subscript):
        v = ev(e.value, env, m)
        if isinstance(v, Node): return many(v)
        return OPAQUE
    if isinstance(e, (ast.Tuple, ast.List)): return tuple(ev(x, env, m) for x in e.elts)
    if isinstance(e, ast.Dict):
        d = {}
        order = []
        for k, v in zip(e.keys, e.values):
            kk = ev(k, env, m)
            key = kk.value if is_member(kk) else kk
            if not isinstance(key, (int, str)): return OPAQUE
            if key not in d: order.append(key)
            d[key] = (d[key][0] if key in d else kk, ev(v, env, m))
        return [d[k] for k in order]
    if isinstance(e, ast.Call):
        f = ev(e.func, env, m)
        args, kw = args_of(e, env, m)
        if isinstance(f, Builtin):
            try: return call_builtin(f.name, args, kw)
            except NotImplementedError: return OPAQUE
        if isinstance(f, Class):
            r = call_util(f.name, args, kw) if f.name in UTIL else None
            if r is not None: return r
            sub = f.attr('_subcon')
            if sub is None: sub = f.attr('subcon')
            if sub is not None: return wrap(sub)
            if any(isinstance(b, Builtin) and b.name in CONSTRUCT_CLASSES for b in f.bases):
                if args and isinstance(args[0], Node): return wrap(args[0])
                return Node('leaf', leaf='.other')
            return OPAQUE
        if isinstance(f, Func):
            r = call_util(f.node.name, args, kw) if f.node.name in UTIL else None
            if r is not None: return r
            ret = [s for s in f.node.body if isinstance(s, ast.Return)]
            if len(ret) != 1: return OPAQUE
            local = dict(f.env)
            names = [a.arg for a in f.node.args.args]
            local.update(zip(names, args)); local.update(kw)
            return ev(ret[0].value, local, m)
        return OPAQUE
    return OPAQUE

UTIL = {'Reversed', 'BitList', 'EnumAdapter', 'LogAdapter', 'RangeValidator', 'FieldAdapter', 'EmbeddedBitStruct', 'Opcode', 'DefaultCountValidator',
        'MacAddressAdapter', 'IpAddressAdapter', 'SetAdapter', 'EnumSwitchStruct', 'BitListAdapter', 'EnumSwitch', 'SwitchWithNamedDefault', 'SwitchStruct',
        'NamedSelect', 'IfThenElseDefault'}

def main(out):
    root = load(PKG)
    # OPCODES (messages/__init__.py)
    access = root.env['_AccessMessage']
    table = access.node
    opdict = next(s.value for s in table.body if isinstance(s, ast.Assign) and s.targets[0].id == 'OPCODES')
    pairs = [(ev(k, root.env, root), ev(v, root.env, root)) for k, v in zip(opdict.keys, opdict.values)]
    # VariableNames: modules in the order of pkgutil.iter_modules (sorted), packages after their own names
    names = {}
    keep = []
    def walk(pkg):
        d = find(pkg)[0].rsplit('/', 1)[0]
        subs = set()
        for f in os.listdir(d):
            if f.endswith('.py') and f != '__init__.py': subs.add((f[:-3], False))
            elif os.path.isdir(os.path.join(d, f)) and os.path.exists(os.path.join(d, f, '__init__.py')): subs.add((f, True))
        for n, is_pkg in sorted(subs):
            mod = load(pkg + '.' + n)
            for k, v in mod.env.items():
                keep.append(v)
                names[id(v)] = k
            if is_pkg: walk(pkg + '.' + n)
    walk(PKG)
    nodes = {}
    lines = []
    def nm(x):
        n = names.get(id(x))
        return f'(some "{n}")' if n else 'none'
    counter = [0]
    shared = {}
    def render(x):
        assert isinstance(x, Node), x
        if id(x) in shared: return shared[id(x)]
        k = x.kind
        if k == 'leaf': s = f'.leaf {nm(x)} ({x.leaf})'
        elif k == 'skip': s = f'.skip {nm(x)}'
        elif k == 'text': s = f'.text {nm(x)}'
        elif k == 'wrap': s = f'.wrap {nm(x)} ({render(x.sub)})'
        elif k == 'renamed': s = f'.renamed {nm(x)} "{x.name}" ({render(x.sub)})'
        elif k == 'many': s = f'.many {nm(x)} ({render(x.sub)})'
        elif k == 'focused': s = f'.focused {nm(x)} ({render(x.sub)})'
        elif k == 'ifthen':
            assert x.then.kind == 'leaf'
            s = f'.ifThen {nm(x)} ({x.then.leaf})'
        elif k == 'struct': s = f'.struct {nm(x)} [' + ', '.join(render(y) for y in x.subs) + ']'
        elif k == 'select': s = f'.select {nm(x)} [' + ', '.join(render(y) for y in x.subs) + ']'
        elif k == 'switch':
            if isinstance(x.cases, Opaque): raise Exception('cases')
            cs = ', '.join(f'("{key.name if is_member(key) else key}", {render(c)})' for key, c in x.cases)
            d = 'none'
            if x.default is not None and x.default is not PASS and x.dname: d = f'(some ("{x.dname}", {render(x.default)}))'
            s = f'.switch {nm(x)} [{cs}] {d}'
        else: raise Exception(k)
        n = names.get(id(x))
        if n and k not in ('skip',):
            i = 't_' + n
            while i in nodes: i += "'"
            nodes[i] = True
            if id(x) in DEFS:
                p, a, b, v = DEFS[id(x)]
                doc = f'{p}:{a}-{b} `{v}`.' if a != b else f'{p}:{a} `{v}`.'
            else: doc = f'`{n}` of the library construct.'
            lines.append(f'/-- {doc} -/\ndef {i} : Con :=\n  {s}\n')
            shared[id(x)] = i
            return i
        return s
    rows = []
    for ec, msg in pairs:
        assert isinstance(ec, EnumClass)
        on = names.get(id(ec))
        rows.append(f'(some "{on}", {render(msg)})')
    with open(out, 'w') as f:
        f.write('''import Verif.Schema
/-!
# The constructs of the messages, as the schema generator sees them

Generated by tools/gen_schema_trees.py from the text of bluetooth_mesh/messages/**/*.py; the names are those of capnproto/generator.py:36-57
(`VariableNames`).  `Embedded(s)` inside a `Struct` stands for the members of `s` (construct 2.9.45 merges them when the structure is made);
conditions, lengths and adapters, which the generator does not look at, are left out.
-/
namespace BM.Schema.Trees
open BM.Schema

''')
        f.write('\n'.join(lines))
        f.write('\n/-- messages/__init__.py:38-62 `OPCODES`: the name of the class of opcodes, the message. -/\ndef messages : List (Option String × Con) :=\n  [' + ',\n   '.join(rows) + ']\n\nend BM.Schema.Trees\n')
    print(len(lines), 'definitions')

if __name__ == '__main__':
    main(sys.argv[1] if len(sys.argv) > 1 else '/verif/lean/Verif/SchemaTrees.lean')

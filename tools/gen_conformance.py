#!/usr/bin/env python3
"""Reads the test vectors of /repo/tests as text (ast, own evaluator; nothing of the repository is imported or run) and writes
a Lean script that evaluates the model on them.  Usage: gen_conformance.py OUT.lean"""
import ast, glob, os, sys, struct
from datetime import datetime, date, timedelta, timezone
from fractions import Fraction
R = '/repo/'
# ---- enums
class E:
    def __init__(s, cls, name, v): s.cls, s.name, s.v = cls, name, v
    def __eq__(s, o): return isinstance(o, E) and s.v == o.v or s.v == o
    def __hash__(s): return hash(s.v)
ENUMS, CITED = {}, {}
for f in glob.glob(R + 'bluetooth_mesh/**/*.py', recursive=True):
    for n in ast.parse(open(f).read()).body:
        if isinstance(n, ast.ClassDef) and any('Enum' in ast.unparse(b) for b in n.bases):
            d = ENUMS.setdefault(n.name, {})
            for s in n.body:
                if isinstance(s, ast.Assign) and isinstance(s.targets[0], ast.Name):
                    try: d[s.targets[0].id] = E(n.name, s.targets[0].id, ast.literal_eval(s.value))
                    except Exception: pass
class Raw:
    def __init__(s, t): s.t = t
class IP:
    def __init__(s, t): s.b = bytes(int(x) for x in t.split('.'))
OPS = {ast.Add: lambda a, b: a + b, ast.Sub: lambda a, b: a - b, ast.Mult: lambda a, b: a * b, ast.RShift: lambda a, b: a >> b,
       ast.Div: lambda a, b: a / b, ast.BitOr: lambda a, b: a | b, ast.Pow: lambda a, b: a ** b, ast.LShift: lambda a, b: a << b}
FN = dict(datetime=datetime, date=date, timedelta=timedelta, timezone=timezone, float=float, int=int, bytes=bytes, set=set, list=list,
          range=range, IPv4Address=IP,
          subsecond_to_seconds=lambda x: x / 256, mesh_time_zone_offset_to_timedelta=lambda x: timedelta(seconds=(x - 0x40) * 900),
          mesh_tai_utc_delta_to_timedelta=lambda x: timedelta(seconds=x - 0xFF))
def ev(n, env):
    if isinstance(n, ast.Constant): return n.value
    if isinstance(n, ast.Dict): return {ev(k, env): ev(v, env) for k, v in zip(n.keys, n.values)}
    if isinstance(n, (ast.List, ast.Tuple)): return [ev(x, env) for x in n.elts]
    if isinstance(n, ast.Set): return set(ev(x, env) for x in n.elts)
    if isinstance(n, ast.BinOp): return OPS[type(n.op)](ev(n.left, env), ev(n.right, env))
    if isinstance(n, ast.UnaryOp): return -ev(n.operand, env)
    if isinstance(n, ast.Name):
        if n.id in env: return env[n.id]
        if n.id == 'MESH_UNIX_EPOCH_DIFF': return 946684800
        return Raw(n.id)
    if isinstance(n, ast.Attribute):
        s = ast.unparse(n)
        if s == 'sys.float_info.max': return sys.float_info.max
        if s == 'timezone.utc': return timezone.utc
        if isinstance(n.value, ast.Name) and n.value.id in ENUMS and n.attr in ENUMS[n.value.id]: return ENUMS[n.value.id][n.attr]
        if s == 'construct.core.ValidationError': return Raw('ValidationError')
        raise Exception(s)
    if isinstance(n, ast.Call):
        s = ast.unparse(n.func)
        a = lambda: [ev(x, env) for x in n.args]
        k = {x.arg: ev(x.value, env) for x in n.keywords} if s != 'pytest.param' else None
        if s == 'dict': return dict(**k)
        if s == 'bytes.fromhex': return bytes.fromhex(a()[0])
        if s == 'datetime.fromtimestamp': return datetime.fromtimestamp(*a())
        if s == 'pytest.param':
            i = [ast.unparse(x.value) for x in n.keywords if x.arg == 'id']
            return dict(args=a(), line=n.lineno, id=i[0] if i else '', marks=[ast.unparse(x.value) for x in n.keywords if x.arg == 'marks'])
        if isinstance(n.func, ast.Attribute) and n.func.attr == 'total_seconds': return ev(n.func.value, env).total_seconds()
        if s == 'Struct' and isinstance(n.args[0], ast.Starred): return Raw(ast.unparse(n))
        if s in FN: return FN[s](*a(), **k)
    raise Exception(ast.unparse(n)[:200])
EPOCH = datetime(1970, 1, 1, tzinfo=timezone.utc)
us = lambda td: (td.days * 86400 + td.seconds) * 10**6 + td.microseconds
def q(s): return '"' + s.replace('\\', '\\\\').replace('"', '\\"').replace('\n', '\\n') + '"'
def i(n): return f'({n})' if n < 0 else str(n)
def bs(b): return '[' + ', '.join(str(x) for x in b) + ']'
def V(v):
    if isinstance(v, Raw): return v.t
    if v is None: return '.none'
    if v is True or v is False: return f'(.bool {str(v).lower()})'
    if isinstance(v, E): return f'(.enum {q(v.cls)} {i(v.v)})'
    if isinstance(v, int): return f'(.int {i(v)})'
    if isinstance(v, float):
        if v == float('inf'): return '.inf'
        f = Fraction(v); return f'(.flt (mkRat {i(f.numerator)} {f.denominator}))'
    if isinstance(v, str): return f'(.str {q(v)})'
    if isinstance(v, bytes): return f'(.bytes {bs(v)})'
    if isinstance(v, list): return '(.list [' + ', '.join(map(V, v)) + '])'
    if isinstance(v, set): return '(.set [' + ', '.join(i(x.v if isinstance(x, E) else x) for x in sorted(v, key=lambda x: x.v if isinstance(x, E) else x)) + '])'
    if isinstance(v, dict): return '(.dict [' + ', '.join(f'({q(k)}, {V(x)})' for k, x in v.items()) + '])'
    if isinstance(v, datetime):
        if v.tzinfo is None: return f'(.datetime {i(us(v.replace(tzinfo=timezone.utc) - EPOCH))} 0)'
        return f'(.datetime {i(us(v - EPOCH))} {i(us(v.utcoffset()))})'
    if isinstance(v, date): return f'(.date {i((v - date(1970, 1, 1)).days)})'
    if isinstance(v, timedelta): return f'(.timedelta {i(us(v))})'
    if isinstance(v, IP): return f'(.ipv4 {bs(v.b)})'
    raise Exception(repr(v))
ERR = dict(ValidationError='.validation', SelectError='.select', AttributeError='.attribute', KeyError='.key')
# ---- constructs
def msg(name, enum=None):
    short = name[0].lower() + name[1:].replace('Message', 'Cases')
    return f'(messageCon (E.{enum or name.replace("Message", "Opcode")}, Tables.{short}))'
def sub(name):
    e = {'DebugParams': 'DebugSubOpcode', 'EmergencyLightingParams': 'EmergencyLightingSubOpcode', 'EmergencyLightingTestParams': 'EmergencyLightingTestSubOpcode',
         'GatewayConfigParams': 'GatewayConfigServerSubOpcode', 'NetworkDiagnosticServerParams': 'NetworkDiagnosticServerSubOpcode',
         'NetworkDiagnosticSetupServerParams': 'NetworkDiagnosticSetupServerSubOpcode'}[name]
    return f'(subMessage E.{e} Tables.{name[0].lower() + name[1:]}Cases)'
C = 'Config.'
CON = {'SecureNetworkBeaconAdapter': C + 'secureNetworkBeacon', 'GATTProxyAdapter': C + 'gattProxy', 'RelayAdapter': C + 'relay',
 'GATTNamespaceDescriptorAdapter': C + 'gattNamespaceDescriptor', 'TTL': C + 'ttl', 'SIGModelId': f'(struct {C}sigModelId)',
 'VendorModelId': f'(struct {C}vendorModelId)', 'ModelId': C + 'modelId', 'UnassignedAddress': C + 'unassignedAddress',
 'UnicastAddress': C + 'unicastAddress', 'GroupAddress': C + 'groupAddress', 'VirtualLabel': C + 'virtualLabel', 'Retransmit': C + 'retransmitBits',
 'NetworkRetransmit': C + 'networkRetransmit', 'RelayRetransmit': C + 'relayRetransmit', 'PublishRetransmit': C + 'publishRetransmit',
 'Struct(*NetAndAppKeyIndex)': f'(struct [{C}netAndAppKeyIndex])', "Struct(*SingleKeyIndex('key_index'))": f'(struct [{C}singleKeyIndex "key_index"])',
 'PublishPeriod': C + 'publishPeriod', 'CompositionDataPage0': C + 'compositionDataPage0', 'CompositionDataPage0Element': f'(struct {C}compositionDataPage0Element)',
 'CompositionDataPage1': C + 'compositionDataPage1', 'CompositionDataPage1Element': f'(struct {C}compositionDataPage1Element)',
 'CompositionDataPage2': C + 'compositionDataPage2', 'ModelRelationItem': f'(struct {C}modelRelationItem)'}
# message payloads by name: their row in the message table, found through the SwitchStruct of the source
import re
for rel in ('config.py', 'health.py'):
    mod = ast.parse(open(R + 'bluetooth_mesh/messages/' + rel).read())
    assigns = {n.targets[0].id: n.value for n in mod.body if isinstance(n, ast.Assign) and isinstance(n.targets[0], ast.Name)}
    for name, v in assigns.items():
        if name in ('ConfigMessage', 'HealthMessage'):
            for k, x in zip(v.args[1].right.args[1].keys, v.args[1].right.args[1].values):
                op = ENUMS[ast.unparse(k).split('.')[0]][ast.unparse(k).split('.')[1]].v
                t = f'((findCase {op} Tables.{"config" if rel == "config.py" else "health"}Cases).getD passC)'
                CON.setdefault(ast.unparse(x), t)
    for name, v in assigns.items():   # a message and the alias it is registered under
        if isinstance(v, ast.Name) and name in CON: CON.setdefault(v.id, CON[name])
    for name, v in assigns.items():   # aliases
        for _ in range(3):
            if isinstance(v, ast.Name) and v.id in CON: CON.setdefault(name, CON[v.id])
            elif isinstance(v, ast.Name) and v.id in assigns: v = assigns[v.id]
def con(r):
    t = r.t
    if t.endswith('Params'): return sub(t)
    return CON[t]
out = []
def P(f, line, c, enc, exp, sel='id'): out.append(f'  .parse {q(f"{f}:{line}")} {c} {q(sel)} {bs(enc)} {V(exp)}')
def B(f, line, c, val, enc): out.append(f'  .build {q(f"{f}:{line}")} {c} {V(val)} {bs(enc)}')
def PE(f, line, c, enc, e): out.append(f'  .parseErr {q(f"{f}:{line}")} {c} {bs(enc)} {ERR[e.t]}')
def BE(f, line, c, val, e): out.append(f'  .buildErr {q(f"{f}:{line}")} {c} {V(val)} {ERR[e]}')
def lists(f):
    t = ast.parse(open(R + 'tests/' + f + '.py').read())
    r = {}
    for n in t.body:
        if isinstance(n, ast.Assign) and isinstance(n.value, ast.List): r[n.targets[0].id] = [ev(x, {}) for x in n.value.elts]
    return r
def msgs(f, name, lst, both=True, parse=True, enum=None):
    for p in lists(f)[lst]:
        enc, op, data = p['args']
        c = msg(name, enum)
        if parse: P(f, p['line'], c, enc, data, 'params')
        if both: B(f, p['line'], c, dict(opcode=op, params=data), enc)
msgs('test_battery', 'GenericBatteryMessage', 'valid')
msgs('test_generics', 'GenericOnOffMessage', 'valid')
msgs('test_level', 'GenericLevelMessage', 'valid')
msgs('test_light', 'LightLightnessMessage', 'valid_lightness')
msgs('test_light', 'LightLightnessSetupMessage', 'valid_lightness_setup')
msgs('test_light', 'LightCTLMessage', 'valid_ctl')
msgs('test_light', 'LightCTLSetupMessage', 'valid_ctl_setup')
msgs('test_light_extended_controller', 'LightExtendedControllerMessage', 'valid')   # the test's comparison after parsing is not asserted
msgs('test_scene', 'SceneMessage', 'valid')
for p in lists('test_scene')['invalid']:
    BE('test_scene', p['line'], msg('SceneMessage'), dict(opcode=p['args'][1], params=p['args'][2]), p['args'][0].t)
msgs('test_sensor', 'SensorMessage', 'valid')
msgs('test_sensor', 'SensorSetupMessage', 'valid_setup')
for p in lists('test_sensor')['valid_properties']:
    enc, data = p['args']
    P('test_sensor', p['line'], msg('SensorSetupMessage'), enc, data, 'params')
    B('test_sensor', p['line'], msg('SensorSetupMessage'), dict(opcode=ENUMS['SensorSetupOpcode']['SENSOR_SETTING_SET'], params=data), enc)
msgs('test_time', 'TimeMessage', 'valid')
msgs('test_generic_properties', 'GenericPropertyMessage', 'valid', both=False)
for f, name in (('test_emergency_lighting', 'EmergencyLightingParams'), ('test_emergency_lighting_test', 'EmergencyLightingTestParams'), ('test_debug', 'DebugParams')):
    ls = lists(f)
    for p in ls['valid'] + ls.get('valid_parse', []):
        enc, so, pl = p['args']
        P(f, p['line'], sub(name), enc, dict(subopcode=so, payload=pl), 'sub')
        if f == 'test_debug': P(f, p['line'], sub(name), enc, pl, 'key:' + so.name.lower())
    for p in ls['valid']:
        enc, so, pl = p['args']
        B(f, p['line'], sub(name), dict(subopcode=so, payload=pl), enc)
for p in lists('test_debug')['invalid_build']:
    enc, so, pl = p['args']
    out.append(f'  .buildDiff {q("test_debug:%d" % p["line"])} {sub("DebugParams")} {V(dict(subopcode=so, payload=pl))} {bs(enc)}')
for p in lists('test_gateway_config_server')['valid']:
    k, enc, so, pl = p['args']
    P('test_gateway', p['line'], con(k), enc, dict(subopcode=so, payload=pl), 'sub')
    P('test_gateway', p['line'], con(k), enc, pl, 'key:' + so.name.lower())
for p in lists('test_network_diagnostic_server')['valid']:
    k, enc, so, pl = p['args']
    P('test_nds', p['line'], con(k), enc, dict(subopcode=so, payload=pl), 'sub')
    B('test_nds', p['line'], con(k), dict(subopcode=so, payload=pl), enc)
nds = ENUMS['NetworkDiagnosticServerSubOpcode']
BE('test_nds', 'destination', sub('NetworkDiagnosticServerParams'), dict(subopcode=ENUMS['NetworkDiagnosticSetupServerSubOpcode']['PUBLICATION_SET'],
   payload=dict(destination=0xFF00, count=0xAAAA, period=dict(steps=2, resolution=2), ttl=3, net_key_index=0x10, features=None)), 'ValidationError')
BE('test_nds', 'subscription', sub('NetworkDiagnosticServerParams'), dict(subopcode=nds['SUBSCRIPTION_SET'], payload=dict(destination=0xFF00, period=0xAAAA)), 'ValidationError')
BE('test_nds', 'source', sub('NetworkDiagnosticServerParams'), dict(subopcode=nds['SUBSCRIPTION_STATUS'], payload=dict(destination=0x3412, period=0xAAAA,
   max_record_count=32, record=[dict(source=0xFF00, count=0xBBBB, min_hops=0, max_hops=0)])), 'ValidationError')
for p in lists('test_debugV2')['valid']:
    enc, so, pt, pn, pl = p['args']
    for x in pl:   # wire floats are known to the model by their bit pattern
        if isinstance(x['parameter'], float): x['parameter'] = Raw('(.fbits 4 %d)' % struct.unpack('<I', struct.pack('<f', x['parameter']))[0])
    P('test_debugV2', p['line'], 'DebugV2.subMessage', enc, dict(subopcode=so, parameter_type=pt, page_number=pn, payload=pl), 'pub')
    B('test_debugV2', p['line'], 'DebugV2.subMessage', dict(subopcode=so, parameter_type=pt, page_number=pn, payload=pl), enc)
for f in ('test_config', 'test_health'):
    ls = lists(f)
    for p in ls['valid'] + ls.get('build_valid', []):
        m, enc, d = p['args']
        B(f, p['line'], con(m), d, enc)
    for p in ls['valid']:
        m, enc, d = p['args']
        P(f, p['line'], con(m), enc, d)
    for p in ls['parse_invalid']: PE(f, p['line'], con(p['args'][0]), p['args'][1], p['args'][2])
    for p in ls['build_invalid']: BE(f, p['line'], con(p['args'][0]), p['args'][1], p['args'][2].t)
    for p in ls.get('invalid_retr', []): BE(f, p['line'], con(p['args'][0]), p['args'][2], 'AttributeError')
key = bytes.fromhex('deadbeef' * 4)
for k in ('params', 'config_appkey_add'):
    B('test_config', 'message', msg('ConfigMessage'), {'opcode': ENUMS['ConfigOpcode']['CONFIG_APPKEY_ADD'], k: dict(app_key_index=1, net_key_index=1, app_key=key)}, bytes.fromhex('00011000') + key)
d = dict(app_key_index=1, net_key_index=1, app_key=key)
P('test_config', 'message', msg('ConfigMessage'), bytes.fromhex('00011000') + key, dict(opcode=ENUMS['ConfigOpcode']['CONFIG_APPKEY_ADD'], params=d, config_appkey_add=d))
for k in ('params', 'health_attention_set'):
    B('test_health', 'message', msg('HealthMessage'), {'opcode': ENUMS['HealthOpcode']['HEALTH_ATTENTION_SET'], k: dict(attention=6)}, bytes.fromhex('800506'))
P('test_health', 'message', msg('HealthMessage'), bytes.fromhex('800506'), dict(opcode=ENUMS['HealthOpcode']['HEALTH_ATTENTION_SET'], health_attention_set=dict(attention=6)), 'nopar')
PE('test_health', 'bad opcode', msg('HealthMessage'), bytes.fromhex('8011'), Raw('ValidationError'))
B('test_sensor', 'raw', msg('SensorMessage'), dict(opcode=ENUMS['SensorOpcode']['SENSOR_STATUS'], params=[dict(sensor_setting_property_id=ENUMS['PropertyID']['PRESENT_INPUT_CURRENT'],
  length=2, format=0, sensor_setting_raw=dict(current=2.0))]), b'\x52\xe2\x0a\xc8\x00')
for n in ast.parse(open(R + 'tests/test_generics.py').read()).body:
    if isinstance(n, ast.FunctionDef) and n.name in ('test_build_transition_time', 'test_parse_transition_time'):
        for tup in n.decorator_list[0].args[1].elts:
            a = ast.literal_eval(tup)
            if n.name.startswith('test_b'): B('test_generics', tup.lineno, 'transitionTimeBits', dict(steps=a[0], resolution=a[1]), bytes.fromhex(a[2]))
            else: P('test_generics', tup.lineno, 'transitionTimeBits', bytes.fromhex(a[0]), dict(steps=a[1], resolution=a[2]))
# rrule: rename the expectations to the fields the test compares
rs = '(plainSubMessage E.RRuleSchedulerSubOpcode Tables.rRuleSchedulerSubMessageCases)'
for p in lists('test_rrule_scheduler')['valid']:
    enc, so, pl = p['args']
    P('test_rrule', p['line'], rs, enc, dict(subopcode=so, payload=dict(entry_id=pl['entry_id'], scheduler_register_entry=dict(array_of_slots=pl['slots'], rules=pl['rules']))), 'sub')
so = ENUMS['RRuleSchedulerSubOpcode']; ru = ENUMS['RuleIDs']
RP = lambda h, o, pl: P('test_rrule', o, rs, bytes.fromhex(h), dict(subopcode=so[o], payload=pl), 'subsel')
RP('010102030405', 'RULES_LIST_STATUS', dict(rule_ids={ru['BYMINUTE'], ru['BYSECOND'], ru['INTERVAL'], ru['UNTIL'], ru['COUNT']}))
RP('03EFCDAB89', 'REGISTER_MAX_SIZE_STATUS', dict(register_max_size=0x89ABCDEF))
RP('0501', 'SCHEDULER_MODE_SET', dict(scheduler_mode=ENUMS['SchedulerModes']['ENABLED']))
RP('0BFE03', 'SCHEDULE_REGISTER_ENTRY_STATUS', dict(entry_id=0xFE, status=ENUMS['StatusCodes']['INVALID_RULE']))
RP('0BFE0001CDAB00020A0B000203020002050006020F17', 'SCHEDULE_REGISTER_ENTRY_STATUS', dict(entry_id=0xFE, status=ENUMS['StatusCodes']['SUCCESS']))
RP('0D01050A', 'SCHEDULE_REGISTER_LIST_STATUS', dict(entry_ids={1, 5, 10}))
acc = lists('test_access')['valid']
for p in acc:
    enc, d = p['args']
    out.append(f'  .accessBuild {q("test_access:%d" % p["line"])} {V(d)} {bs(enc)}')
    out.append(f'  .accessParse {q("test_access:%d" % p["line"])} {bs(enc)} {V(d)}')
for p in lists('test_strings')['valid']:
    enc, d = p['args']
    out.append(f'  .accessBuild {q("test_strings:%d" % p["line"])} {V(d)} {bs(enc)}')
HEAD = open(os.path.join(os.path.dirname(__file__), 'conformance_head.lean.txt')).read()
HEAD = HEAD.replace('import Verif.Witness', 'import Verif.Witness\nimport Verif.Access')
CH = 40
with open(sys.argv[1], 'w') as g:
    g.write(HEAD)
    for j in range(0, len(out), CH):
        g.write(f'\ndef vecs{j // CH} : List Vec := [\n' + ',\n'.join(out[j:j + CH]) + ']\n\n#eval run vecs%d\n' % (j // CH))
print(len(out), 'vectors')

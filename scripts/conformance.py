"""Transcribe the unit tests of /repo that are calls with literal texts into Lean examples.

Writes lean/Verif/Conformance/{Env,Attributes,Lines,Documents}.lean. The remaining tests (those that build
values) are transcribed by hand in Conformance/Values.lean."""
import re, json, struct
STR = r'"((?:[^"\\]|\\.)*)"'
OUT = '/verif/lean/Verif/Conformance/'

def unesc(s):
    s = re.sub(r'\\\n\s*', '', s)
    return re.sub(r'\\(.)', lambda m: {'n': '\n', 'r': '\r', 't': '\t', '"': '"', '\\': '\\'}[m.group(1)], s, flags=re.S)

def lit(s):
    return 'c%"' + s.replace('\\', '\\\\').replace('"', '\\"').replace('\n', '\\n').replace('\r', '\\r').replace('\t', '\\t') + '"'

def tests(path):
    src = open(path).read()
    at = [m.start() for m in re.finditer(r'#\[test\]', src)]
    for a, b in zip(at, at[1:] + [len(src)]):
        body = src[a:b]
        yield re.search(r'fn (\w+)', body).group(1), src[:a].count('\n') + 1, body

FN = {'parse_attribute': 'attrFromStr', 'parse_origin': 'parseOrigin', 'parse_connection': 'parseConnection',
      'parse_media': 'parseMedia', 'parse_bandwidth': 'parseBandwidth', 'parse_timing': 'parseTiming',
      'parse_version': 'parseVersion', 'parse_media_token': 'parseMediaToken',
      'parse_protocol_token': 'parseProtocolToken', 'parse_network_type': 'parseNetworkType',
      'parse_address_type': 'parseAddressType', 'parse_unicast_address': 'parseUnicastAddress',
      'parse_session': 'parseSessionName', 'parse_sdp_line': '(parseSdpLine · 0)'}
CALL = re.compile(r'\b(check_parse_and_serialize|check_parse|parse_\w+)\(\s*' + STR + r'\s*,?\s*(?:\d+\s*)?,?\s*\)\s*(\.is_err\(\)|\.is_ok\(\)|\?|;|\.unwrap\(\)|,?)', re.S)

def cases(path):
    media = 'media_type' in path
    for name, line, body in tests(path):
        good, bad, ser = {}, {}, []
        for m in CALL.finditer(body):
            fn, s, after = m.group(1), unesc(m.group(2)), m.group(3)
            if fn == 'check_parse_and_serialize': ser.append(s); continue
            if fn == 'check_parse': fn = 'parse_media' if media else 'parse_attribute'
            if fn not in FN: continue
            isbad = 'err' in after or 'Err(' in body[m.end():m.end() + 60]
            (bad if isbad else good).setdefault(FN[fn], []).append(s)
        yield name, line, good, bad, ser

def emit(rel, path, ser_fn, lines):
    n = 0
    for name, line, good, bad, ser in cases(path):
        if not (good or bad or ser): continue
        lines.append(f'/-! {rel}:{line} `{name}` -/')
        for d, f in ((good, 'accepts'), (bad, 'rejects')):
            for k, v in d.items():
                lines.append(f'example : [{", ".join(map(lit, v))}].all (fun s => {f} ({k} s)) = true := by decide +kernel')
                n += len(v)
        if ser:
            lines.append(f'example : [{", ".join(map(lit, ser))}].all {ser_fn} = true := by decide +kernel')
            n += len(ser)
        lines.append('')
    return n

HEAD = '''import Verif.Conformance.Env
/-!
# The crate's own unit tests, run on the model: %s

Written by scripts/conformance.py from the test files of /repo. These are tests, not proofs of properties:
they show that the model does what the crate's authors expect of the crate.
-/

namespace Sdp.Conformance

attribute [local instance] testEnv

'''

A = []
n1 = emit('src/attribute_type_tests.rs', '/repo/src/attribute_type_tests.rs', 'attributePrintsBack', A)
open(OUT + 'Attributes.lean', 'w').write(HEAD % 'attributes' + '\n'.join(A) + '\nend Sdp.Conformance\n')
B = []
n2 = 0
for f in ('lib_tests', 'media_type_tests', 'network_tests'):
    n2 += emit(f'src/{f}.rs', f'/repo/src/{f}.rs', 'mediaPrintsBack', B)
open(OUT + 'Lines.lean', 'w').write(HEAD % 'lines' + '\n'.join(B) + '\nend Sdp.Conformance\n')

# whole texts
C = []
n3 = 0
for rel in ('src/lib_tests.rs', 'tests/parse_sdp_tests.rs'):
    for name, line, body in tests('/repo/' + rel):
        for m in re.finditer(r'parse_sdp\(\s*' + STR + r'\s*,\s*(true|false)\s*,?\s*\)\s*(\.is_err\(\))?', body, re.S):
            f = 'rejects' if m.group(3) else 'accepts'
            C += [f'/-! {rel}:{line} `{name}` -/', f'example : {f} (parseSdp {lit(unesc(m.group(1)))} {m.group(2)}) = true := by decide +kernel', '']
            n3 += 1
        m = re.search(r'let (?:sdp|sdp_str) = ' + STR + ';', body, re.S)
        k = re.search(r'parse_sdp\((?:sdp|sdp_str), (true|false)\)', body)
        if m and k:
            s = unesc(m.group(1))
            conds = ['true']
            g = re.search(r'sdp\.media\.len\(\), (\d+)', body)
            if g: conds.append(f'r.media.length == {g.group(1)}')
            g = re.search(r'assert_eq!\(sdp\.(?:get_session\(\), &|session, )(None|Some\("-"\.to_owned\(\)\))\)', body)
            if g: conds.append('r.session == ' + ('none' if g.group(1) == 'None' else 'some c%"-"'))
            if re.search(r'sdp\.attribute\.len\(\), 0', body): conds.append('r.attrs.length == 0')
            for i, g in enumerate(re.finditer(r'msection(\d?)\.get_port\(\), (\d+)', body)):
                conds.append(f'(r.media[{i}]?.map Media.getPort) == some {g.group(2)}')
            for g in re.finditer(r'msection(\d?)\s*\.get_attribute\(SdpAttributeType::(\w+)\)\s*\.is_some\(\)', body):
                i = int(g.group(1) or 1) - 1
                t = g.group(2)[0].lower() + g.group(2)[1:]
                conds.append(f'hasAttribute r {i} .{t}')
            if 'contains("\\r\\n\\r\\n")' in body: conds.append('!hasEmptyLine (showSession r)')
            if re.search(r'assert_eq!\(\s*sdp\.to_string\(\),\s*sdp_str', body): conds.append('showSession r == s')
            C += [f'/-! {rel}:{line} `{name}` -/',
                  f'example : let s := {lit(s)}\n    satisfies (parseSdp s {k.group(1)}) (fun r => {" && ".join(conds)}) = true := by decide +kernel', '']
            n3 += 1
open(OUT + 'Documents.lean', 'w').write(HEAD % 'whole texts' + '\n'.join(C) + '\nend Sdp.Conformance\n')

E = '''import Verif.Spec.Sample
import Verif.Model.Anon
/-!
# An environment for the crate's own unit tests

Host names follow the rules of the
`url` crate as far as the tests go (a name whose last label is a number is a broken IPv4 address; no `%%`,
white space, `:` and `/`).
-/

namespace Sdp.Conformance

/-- See the head of the file. -/
def testHost (s : Str) : HostRes :=
  if s.isEmpty then .error c%%"empty host"
  else if ((splitC '.' s).getLast?.map fun l => !l.isEmpty && l.all fun c => '0' ≤ c && c ≤ '9') == some true then
    .error c%%"invalid IPv4 address"
  else if s.all (fun c => !isWs c && c != ':' && c != '/' && c != '%%') then .domain s
  else .error c%%"invalid domain character"

def testEnv : Env where
  lowerNA := id
  upperNA := id
  hostNA := testHost
  debugNA := id

def accepts {ε α : Type} : Outcome ε α → Bool
  | .ok _ => true
  | _ => false

def rejects {ε α : Type} : Outcome ε α → Bool
  | .err _ => true
  | _ => false

def satisfies {ε α : Type} (x : Outcome ε α) (p : α → Bool) : Bool :=
  match x with
  | .ok a => p a
  | _ => false

def attributePrintsBack (s : Str) : Bool :=
  letI := testEnv
  satisfies (attrFromStr s) fun a => showAttribute a == s

def mediaPrintsBack (s : Str) : Bool :=
  letI := testEnv
  satisfies (parseMedia s) fun
    | .media m => showMediaLine m == s
    | _ => false

def hasAttribute (s : Session) (i : Nat) (t : AttributeType) : Bool :=
  match s.media[i]? with
  | some m => (m.getAttribute t).isSome
  | none => false

/-- There is `\\r\\n\\r\\n` in the text. -/
def hasEmptyLine : Str → Bool
  | '\\r' :: '\\n' :: '\\r' :: '\\n' :: _ => true
  | _ :: s => hasEmptyLine s
  | [] => false

end Sdp.Conformance
'''
open(OUT + 'Env.lean', 'w').write(E.replace('%%', '%'))

# floats: a sample of texts and numbers, computed here with the C library
from decimal import Decimal
import random
random.seed(7)
b64 = lambda x: struct.unpack('<Q', struct.pack('<d', x))[0]
f64 = lambda n: struct.unpack('<d', struct.pack('<Q', n))[0]
f32 = lambda n: struct.unpack('<f', struct.pack('<I', n))[0]
def b32(t):
    # round the exact decimal to f32 (not by way of f64, which would round twice)
    from fractions import Fraction
    x, lo, hi = Fraction(t), 0, 0x7f800000
    val = lambda b: Fraction(2) ** 128 if b == hi else Fraction(f32(b))
    a, z = lo, hi
    while z - a > 1:
        m = (a + z) // 2
        if val(m) <= x: a = m
        else: z = m
    d, e = x - val(a), val(z) - x
    return a if d < e or (d == e and a % 2 == 0) else z
def plain(t):
    t = format(Decimal(t), 'f')
    return t.rstrip('0').rstrip('.') if '.' in t else t
texts = ['0', '1', '0.1', '.5', '5.', '23.5', '29.97', '4294967297', '16777217', '9007199254740993', '1e10', '1E-10', '1e+3', '3.4028235e38',
  '3.4028236e38', '1e39', '1.7976931348623157e308', '1.7976931348623159e308', '1e309', '1e-45', '7e-46', '8e-46', '5e-324', '2e-324', '1.1754943e-38',
  '1.1754944e-38', '2.2250738585072011e-308', '2.2250738585072014e-308', '00012.500', '123456789012345678901234567890', '0.3', '0.30000000000000004',
  '8.5', '1000000000000000000000000', '0.000001'] + ['%d.%de%d' % (random.randrange(10**random.randrange(1, 18)), random.randrange(10**6), random.randrange(-60, 60)) for _ in range(40)]
n32 = [0x3f800000, 1, 0x7fffff, 0x800000, 0x800001, 0x7f7fffff, 0x3dcccccd, 0x4b800000, 0x5f000000, 0x15ae43fd] + [random.randrange(1, 0x7f800000) for _ in range(40)]
n64 = [b64(x) for x in (1.0, 5e-324, 2.2250738585072009e-308, 2.2250738585072014e-308, 1.7976931348623157e308, 0.1, 9007199254740992.0, 29.97, 1e21, 1e23)] + \
  [random.randrange(1, 0x7ff << 52) for _ in range(30)]
def show32(n):
    for p in range(1, 12):
        t = '%.*g' % (p, f32(n))
        if b32(t) == n: return plain(t)
F = '''import Verif.Model.Float
/-!
# A sample of floats

Texts with the bits they are read as, and bits with the text they are written as; computed by
scripts/conformance.py.
-/

namespace Sdp.Conformance

example : [%s].all (fun p => decide (F32.ofText p.1 = .ok ⟨p.2⟩)) = true := by decide +kernel

example : [%s].all (fun p => decide (F64.ofText p.1 = .ok ⟨p.2⟩)) = true := by decide +kernel

example : [%s].all (fun p => decide (F32.text ⟨p.1⟩ = p.2)) = true := by decide +kernel

example : [%s].all (fun p => decide (F64.text ⟨p.1⟩ = p.2)) = true := by decide +kernel

example : [c%%"", c%%"-", c%%"+", c%%".", c%%"e5", c%%"1e", c%%"1e+", c%%"1.2.3", c%%"1 ", c%%" 1", c%%"0x1", c%%"1,5", c%%"in", c%%"infinit",
    c%%"--1", c%%"+-1", c%%"1e1.5", c%%"na", c%%"1_0"].all
    (fun t => decide (F32.ofText t = .error (if t = [] then .empty else .invalid))) = true := by decide +kernel

example : F64.ofText c%%"-InFiNiTy" = .ok ⟨0xfff0000000000000⟩ ∧ F64.ofText c%%"+nAn" = .ok ⟨0x7ff8000000000000⟩ ∧
    F32.ofText c%%"-0" = .ok ⟨0x80000000⟩ ∧ F32.text ⟨0x80000000⟩ = c%%"-0" ∧ F64.text ⟨0xfff0000000000000⟩ = c%%"-inf" ∧
    F64.text ⟨0xfff8000000000000⟩ = c%%"NaN" := by decide +kernel

end Sdp.Conformance
''' % (',\n    '.join(f'(c%"{t}", {b32(t)})' for t in texts), ',\n    '.join(f'(c%"{t}", {b64(float(t))})' for t in texts),
       ',\n    '.join(f'({n}, c%"{show32(n)}")' for n in n32), ',\n    '.join(f'({n}, c%"{plain(repr(f64(n)))}")' for n in n64))
open(OUT + 'Floats.lean', 'w').write(F)
print(n1, n2, n3, len(texts), len(n32), len(n64))

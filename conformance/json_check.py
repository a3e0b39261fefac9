"""Compares the model's JSON parser (lean/Verif/Model/JsonText.lean) with Python's on random texts
and on such texts with characters changed, likewise the skipping of values (JsonDirect.lean), and
loads the JSON texts of the test-suite with the model, directly and by way of a value, comparing with
the saves they are expected from.  A check of the transcription, not a proof; nothing in lean/
depends on it.

usage: LEAN_PATH must contain Lean's and the model's compiled files; python3 json_check.py
"""
import json, os, random, re, struct, subprocess, tempfile
os.chdir(tempfile.mkdtemp())
open('C.lean', 'w').write(r'''import Verif.Model.JsonDirect
open Gvas
def shwS (s : String) : String := "s" ++ " ".intercalate (s.toList.map fun c => toString c.toNat)
partial def shw : J → String
  | .null => "null"
  | .bool b => toString b
  | .int n => s!"i{n}"
  | .float f => s!"f{f.bits.toNat}"
  | .str s => shwS s
  | .arr l => "[" ++ ",".intercalate (l.map shw) ++ "]"
  | .obj l => "{" ++ ",".intercalate (l.map fun e => shwS e.1 ++ ":" ++ shw e.2) ++ "}"
def hex (c : Char) : Nat := if c.isDigit then c.toNat - 48 else c.toNat - 87
def parse : List Char → List UInt8
  | a :: b :: l => UInt8.ofNat (16 * hex a + hex b) :: parse l
  | _ => []
def text (l : String) : String := String.fromUTF8! ⟨(parse l.toList).toArray⟩
def main : IO Unit := do
  for l in ((← IO.FS.readFile "in").splitOn "\n") do
    match l.splitOn " " with
    | ["t", x] =>
      let s := text x
      let skipped := match Text.skipValue s.length (Text.skip s.toList) with
        | some r => (Text.skip r).isEmpty
        | none => false
      IO.println s!"{((J.ofText s).map shw).getD "none"} {skipped}"
    | ["l", p, x] =>
      let s ← IO.FS.readFile x
      let data ← IO.FS.readBinFile p
      let hs ← IO.FS.lines (x ++ ".hints")
      let hm := hs.toList.filterMap fun l =>
        match l.splitOn "\t" with | [a,b] => some (a,b) | _ => none
      let z : Codec := ⟨fun x => (x, true), some, fun _ x => x⟩
      let f := match GvasFile.read z true .default (fun k => hm.lookup k) 0 data.toList with
        | .ok f => shw f.toJson
        | .bad _ => "unread"
      let g (o : Option GvasFile) := (o.map fun f => shw f.toJson).getD "none"
      IO.println s!"{g (GvasFile.ofStr s) == f} {g (GvasFile.ofText s) == f}"
    | _ => IO.println "?"
''')
random.seed(11)
def ws(): return random.choice(['', '', '', ' ', '\n', '\t ', '\r\n'])
def num():
    return random.choice(['0', '-0', '7', '-12', '18446744073709551615', '18446744073709551616',
        '-9223372036854775808', '-9223372036854775809', '1.5', '0.1', '1e400', '1e308', '-2E-3', '1e-400',
        '3.25e+2', '5e-324', '2.4703282292062327e-324', '2.4703282292062328e-324',
        str(random.random()), repr(random.uniform(-1e30, 1e30)), str(random.randrange(10**25)),
        '%de%d' % (random.randrange(10**18), random.randrange(-340, 320)),
        '%d.%d' % (random.randrange(10**9), random.randrange(10**30))])
def chars():
    return ''.join(random.choice(['a', 'b', 'é', '😀', '\\n', '\\"', '\\\\', '\\/', '\\u00e9', '\\ud83d\\ude00',
        '\\uD800', '\\udc00', '\\u0000', '\\b\\f\\r\\t', '\x7f', ' ']) for _ in range(random.randrange(4)))
def val(d):
    k = random.randrange(8 if d else 5)
    if k < 2: return num()
    if k == 2: return random.choice(['null', 'true', 'false'])
    if k < 5: return '"' + chars() + '"'
    n = random.randrange(4)
    if k < 6: return '[' + (','.join(ws() + val(d - 1) + ws() for _ in range(n)) or ws()) + ']'
    return '{' + (','.join(ws() + '"' + random.choice(['a', 'b', chars()]) + '"' + ws() + ':' + ws() + val(d - 1) + ws()
        for _ in range(n)) or ws()) + '}'
texts = []
for _ in range(3000):
    t = ws() + val(4) + ws(); texts.append(t)
    for _ in range(2):
        u = list(t); i = random.randrange(len(u)); k = random.randrange(3)
        if k == 0: del u[i]
        elif k == 1: u[i] = random.choice('{}[],:"\\0123456789eE+-.truflansx \x01\x0c')
        else: u.insert(i, random.choice('{}[],:"\\0123456789eE+-.truflansx \x0b'))
        texts.append(''.join(u))
for n in (126, 127, 128, 200): texts += ['[' * n + ']' * n, '{"a":' * n + '1' + '}' * n]
texts = [t for t in texts if not re.search(r'[eE][-+]?\d{5}', t)]  # powers of ten are computed
class No(Exception): pass
def pint(s):
    n = int(s)
    if s == '-0': return -0.0
    return n if -2**63 <= n < 2**64 else float(n) if abs(n) < 2**1024 else float('inf')
def shwS(s):
    if any(0xd800 <= ord(c) < 0xe000 for c in s): raise No
    return 's' + ' '.join(str(ord(c)) for c in s)
def shw(v, d=127):
    if v is None: return 'null'
    if isinstance(v, bool): return 'true' if v else 'false'
    if isinstance(v, int): return f'i{v}'
    if isinstance(v, float):
        if v in (float('inf'), float('-inf')): raise No
        return 'f%d' % struct.unpack('<Q', struct.pack('<d', v))[0]
    if isinstance(v, str): return shwS(v)
    if d == 0: raise No
    if isinstance(v, list): return '[' + ','.join(shw(x, d - 1) for x in v) + ']'
    return '{' + ','.join(shwS(k) + ':' + shw(x, d - 1) for k, x in v) + '}'
def con(s): raise No
def pairs(l):
    # what is overwritten must be good too
    for k, x in l: seen.append((k, x))
    return tuple({k: x for k, x in l}.items())
exp = []
for t in texts:
    seen = []
    try:
        v = json.loads(t, parse_int=pint, parse_constant=con, object_pairs_hook=pairs)
    except (No, ValueError, RecursionError): exp.append('none false'); continue
    try:
        for k, x in seen: shwS(k), shw(x)
        exp.append(shw(v) + ' true')
    except No: exp.append('none true')
T = '/repo/tests/common/'
def hints(f):
    s = open(T + f).read(); i = s.index('fn hints()'); s = s[i:s.index('\n}\n', i)]
    st = [re.sub(r'\\\n\s*', '', x) for x in re.findall(r'"((?:[^"\\]|\\.|\\\n\s*)*)"', s)]
    return list(zip(st[::2], st[1::2]))
loads = []
for p, h, f, n in [('Profile_0.sav', 'profile0.rs', 'profile0.rs', 'PROFILE_0_JSON'),
        ('regression_01.bin', None, 'regression.rs', 'REGRESSION_01_JSON'),
        ('SaveSlot_03.sav', 'saveslot3.rs', 'saveslot3.rs', 'SAVESLOT_03_JSON'),
        ('Slot1.sav', None, 'slot1.rs', 'SLOT1_JSON'), ('tagcontainer.sav', None, 'tagcontainer.rs', 'TAGCONTAINER_JSON'),
        ('vector2d.sav', None, 'vector2d.rs', 'VECTOR2D_JSON')]:
    open(n, 'w').write(re.search(n + r': &str = r#"(.*?)"#;', open(T + f).read(), re.S).group(1))
    open(n + '.hints', 'w').write('\n'.join(a + '\t' + b for a, b in (hints(h) if h else [])))
    loads.append(f'l /repo/resources/test/{p} {n}')
open('in', 'w').write('\n'.join(['t ' + t.encode().hex() for t in texts] + loads))
r = subprocess.run(['lean', '--run', 'C.lean'], capture_output=True, text=True)
out = r.stdout.split('\n')
diff = [(t, e, o) for t, e, o in zip(texts, exp, out) if e != o]
print(len(texts), 'texts,', len(texts) - len(diff), 'agree,', sum(e.startswith('none') for e in exp), 'of them refused;',
    len(diff), 'differ', r.stderr[:300])
for d in diff[:10]: print(d)
print('texts of the test-suite loaded as the saves:', out[len(texts):len(texts) + len(loads)])

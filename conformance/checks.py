"""Translate the expectations of the crate's tests in /repo/tests and the smaller sample saves in
/repo/resources/test to checks of the Lean model: writes Templates.lean, Properties.lean and
Saves.lean in lean/Verif/Check.  Run it without arguments."""
import re, json, struct

TOK = re.compile(r'''\s+|//[^\n]*|(?P<raw>r\#"(?:.|\n)*?"\#)|(?P<str>b?"(?:[^"\\]|\\(?:.|\n))*")|(?P<chr>b?'(?:[^'\\]|\\.)')|(?P<num>0x[0-9a-fA-F_]+(?:u8|u16|u32|u64|u128)?|\d[\d_]*(?:\.\d[\d_]*)?(?:[eE][-+]?\d+)?(?:_?(?:[ui](?:8|16|32|64|128)|f32|f64))?)|(?P<id>[A-Za-z_]\w*)|(?P<op>::|=>|[-{}()\[\],.;:&!?*=<>|+])''')

def lex(s):
    out = []; i = 0
    while i < len(s):
        m = TOK.match(s, i)
        if not m: raise Exception('lex: ' + s[i:i+60])
        i = m.end()
        if m.lastgroup: out.append((m.lastgroup, m.group(m.lastgroup)))
    return out

class P:
    def __init__(self, toks): self.t = toks; self.i = 0
    def peek(self, k=0): return self.t[self.i+k] if self.i+k < len(self.t) else ('eof','')
    def next(self): self.i += 1; return self.t[self.i-1]
    def eat(self, v):
        k, x = self.next()
        if x != v: raise Exception(f'expected {v} got {x} near {self.t[max(0,self.i-8):self.i+5]}')
    def at(self, v): return self.peek()[1] == v and self.peek()[0] in ('op','id')
    def items(self, close):
        r = []
        while not self.at(close):
            r.append(self.expr())
            if self.at(','): self.next()
            elif self.at(';'):
                self.next(); n = self.expr(); self.eat(close); return ('rep', r[0], n)
            else: break
        self.eat(close)
        return r
    def expr(self):
        e = self.primary()
        while True:
            if self.at('.'):
                self.next(); m = self.next()[1]; self.eat('(')
                e = ('method', m, e, self.items(')'))
            elif self.at('('):
                self.next(); e = ('call', e, self.items(')'))
            elif self.at('?'): self.next()
            else: return e
    def primary(self):
        k, x = self.peek()
        if x == '&' or x == '*': self.next(); return self.expr()
        if x == '-': self.next(); e = self.primary(); return ('num', '-' + e[1])
        if k == 'num': self.next(); return ('num', x)
        if k == 'str': self.next(); return ('str', x)
        if k == 'raw': self.next(); return ('raw', x[3:-2])
        if x == '(':
            self.next(); r = self.items(')')
            return ('tuple', r)
        if x == '[':
            self.next(); return ('list', self.items(']'))
        if x == '<':
            # <T>::from
            while not self.at('>'): self.next()
            self.next(); path = []
            while self.at('::'): self.next(); path.append(self.next()[1])
            return ('path', path)
        if k == 'id':
            path = [self.next()[1]]
            while self.at('::'):
                self.next(); path.append(self.next()[1])
            if self.at('!'):
                self.next(); close = {'[':']','(':')'}[self.next()[1]]
                return ('list' if path == ['vec'] else 'macro', self.items(close)) if path == ['vec'] else ('macro', path[0], self.items(close))
            if self.at('{') and path[-1][0].isupper():
                self.next(); fs = {}
                while not self.at('}'):
                    f = self.next()[1]
                    if self.at(':'): self.next(); fs[f] = self.expr()
                    else: fs[f] = ('path', [f])
                    if self.at(','): self.next()
                self.eat('}')
                return ('struct', path, fs)
            return ('path', path)
        raise Exception(f'primary {k} {x} near {self.t[max(0,self.i-8):self.i+5]}')

def unstr(x):
    body = x[x.index('"')+1:-1]
    out = ''; i = 0
    while i < len(body):
        c = body[i]
        if c != '\\': out += c; i += 1; continue
        d = body[i+1]
        if d == 'u':
            j = body.index('}', i); out += chr(int(body[i+3:j],16)); i = j+1
        elif d == '\n':
            i += 2
            while i < len(body) and body[i].isspace(): i += 1
        else:
            out += {'n':'\n','t':'\t','\\':'\\','"':'"','r':'\r','0':'\0'}[d]; i += 2
    return out

def leanstr(s):
    out = '"'
    for c in s:
        if c in '"\\': out += '\\' + c
        elif c == '\n': out += '\\n'
        elif c == '\t': out += '\\t'
        elif c == '\r': out += '\\r'
        elif ord(c) < 32: out += '\\x%02x' % ord(c)
        else: out += c
    return out + '"'

def num(e):
    x = e[1].replace('_','')
    neg = x.startswith('-'); x = x.lstrip('-')
    if x.startswith('0x'):
        x = re.sub(r'(u8|u16|u32|u64|u128)$','',x); v = int(x,16)
    else:
        x = re.sub(r'([ui](8|16|32|64|128)|f32|f64)$','',x)
        v = float(x) if ('.' in x or 'e' in x or 'E' in x) else int(x)
    return -v if neg else v

CONST = {}
MAX = {'i8':127,'i16':2**15-1,'i32':2**31-1,'i64':2**63-1,'u8':255,'u16':2**16-1,'u32':2**32-1,'u64':2**64-1}

def f32(v): return '⟨0x%08x⟩' % struct.unpack('<I', struct.pack('<f', v))[0]
def f64(v): return '⟨0x%016x⟩' % struct.unpack('<Q', struct.pack('<d', v))[0]
def lst(l): return '[' + ', '.join(l) + ']'

def integer(e):
    if e[0] == 'path' and e[1][-1] in ('MAX',): return str(MAX[e[1][0]])
    v = num(e)
    return str(v) if v >= 0 else f'({v})'
def boolean(e): return e[1][-1]
def string(e):
    if e[0] == 'str': return leanstr(unstr(e[1]))
    if e[0] == 'call' and e[1][1] in (['String','from'],): return string(e[2][0])
    if e[0] == 'method' and e[1] in ('to_string','into','to_owned'): return string(e[2])
    if e[0] == 'path' and e[1][-1] in CONST: return string(CONST[e[1][-1]])
    if e[0] == 'macro' and e[1] == 'format':
        out = unstr(e[2][0][1])
        for a in e[2][1:]: out = out.replace('{}', json.loads(string(a)), 1)
        return leanstr(out)
    raise Exception('string ' + str(e))
def opt(f):
    def g(e):
        if e == ('path',['None']): return 'none'
        if e[0] == 'call' and e[1][1] == ['Some']: return '(some ' + f(e[2][0]) + ')'
        raise Exception('opt ' + str(e))
    return g
def elems(e):
    if e[0] == 'list':
        if isinstance(e[1], tuple) and e[1][0] == 'rep': return [e[1][1]] * num(e[1][2])
        return e[1]
    if e[0] == 'call' and e[1][1][-1] == 'from' and e[1][1][0] in ('Vec','HashableIndexMap','IndexMap'): return elems(e[2][0])
    if e[0] == 'call' and e[1][1][-1] == 'new' and e[1][1][0] in ('Vec','HashableIndexMap','IndexMap'): return []
    raise Exception('elems ' + str(e))
def lift(f): return lambda e: lst([f(x) for x in elems(e)])
def pairs(f, g):
    def h(e):
        ks = [f(x[1][0]) for x in elems(e)]
        if len(set(ks)) < len(ks): return '(imFrom ' + lst([f'({f(x[1][0])}, {g(x[1][1])})' for x in elems(e)]) + ')'
        return lst([f'({f(x[1][0])}, {g(x[1][1])})' for x in elems(e)])
    return h
def guid(e):
    if e[0] == 'call' and e[1][1] == ['Guid','default']: return 'zeroGuid'
    if e[0] == 'call' and e[1][1] == ['Guid'] and e[2][0][0] == 'list':
        return bytes_guid([num(x) for x in elems(e[2][0])])
    if e[0] == 'call' and e[1][1] == ['Guid','from']:
        v = num(e[2][0]); return bytes_guid(list(v.to_bytes(16,'little')))
    if e[0] == 'method' and e[1] in ('unwrap','expect'):
        c = e[2]; assert c[1][1] == ['Guid','from_str']
        return bytes_guid(list(bytes.fromhex(unstr(c[2][0][1]).replace('-',''))) if len(unstr(c[2][0][1])) > 1 else [0]*16)
    raise Exception('guid ' + str(e))
def bytes_guid(b):
    assert len(b) == 16
    return '(guid 0x' + bytes(b[::-1]).hex() + ')'

INTS = {'Int8Property':'int8','Int16Property':'int16','Int64Property':'int64','IntProperty':'int','UInt16Property':'uint16','UInt32Property':'uint32','UInt64Property':'uint64'}
FLOATS = {'FloatProperty':('float',f32),'DoubleProperty':('double',f64)}
FVEC = {'Vector2F':('vector2F','xy',f32),'Vector2D':('vector2D','xy',f64),'VectorF':('vectorF','xyz',f32),'VectorD':('vectorD','xyz',f64),
 'RotatorF':('rotatorF',['pitch','yaw','roll'],f32),'RotatorD':('rotatorD',['pitch','yaw','roll'],f64),'QuatF':('quatF','xyzw',f32),'QuatD':('quatD','xyzw',f64),'LinearColor':('linearColor','rgba',f32)}

def fl(f):
    def g(e):
        if e[0] == 'call' and e[1][1][0] == 'OrderedFloat': return g(e[2][0])
        return f(float(num(e)))
    return g

def stru(e):
    """StructPropertyValue"""
    if e[0] == 'call':
        p, a = e[1][1], e[2]
        if p == ['StructPropertyValue','from']: return stru(a[0])
        if p[0] == 'StructPropertyValue':
            if p[1] == 'CustomStruct': return '.customStruct ' + pairs(string, lift(prop))(a[0])
            if p[1] == 'GameplayTagContainer': return '.gameplayTagContainer ' + lift(string)(a[0])
            if p[1] == 'Guid': return '.guid ' + guid(a[0])
            return stru(a[0])
        if p[0] in FVEC:
            n, fs, f = FVEC[p[0]]; return f'.{n} ' + ' '.join(fl(f)(x) for x in a)
        if p[0] == 'DateTime': return '.dateTime ' + integer(a[0])
        if p[0] == 'Timespan': return '.timespan ' + integer(a[0])
        if p[0] == 'IntPoint': return '.intPoint ' + ' '.join(map(integer,a))
        if p[0] == 'Guid': return '.guid ' + guid(e)
    if e[0] == 'method' and e[1] in ('unwrap',): return '.guid ' + guid(e)
    if e[0] == 'struct':
        p, fs = e[1], e[2]
        if p[-1] in FVEC:
            n, ns, f = FVEC[p[-1]]; return f'.{n} ' + ' '.join(fl(f)(fs[k]) for k in ns)
        if p[-1] == 'DateTime': return '.dateTime ' + integer(fs['ticks'])
    raise Exception('struct value ' + str(e))

def ticks(e):
    if e[0] == 'struct': return integer(e[2]['ticks'])
    return integer(e[2][0])
def low(s): return s[0].lower() + s[1:]
def variant(e): return '.' + low(e[1][-1])
def box(f):
    def g(e):
        if e[0] == 'call' and e[1][1] == ['Box','new']: return f(e[2][0])
        return f(e)
    return g
def par(s): return '(' + s + ')' if ' ' in s and s[0] not in '([' else s
def text(e):
    if e[0] == 'call' and e[1][1] == ['FText','new_none']:
        return f'(FText.newNone {integer(e[2][0])} {opt(opt(string))(e[2][1])})'
    if e[0] == 'call' and e[1][1] == ['FText','new_base']:
        return '(FText.newBase ' + integer(e[2][0]) + ' ' + ' '.join(opt(string)(x) for x in e[2][1:]) + ')'
    if e[0] == 'struct' and e[1][-1] == 'FText':
        return f'(.mk {integer(e[2]["flags"])} {par(history(e[2]["history"]))})'
    raise Exception('text ' + str(e))
def fmtarg(e):
    k = e[1][1][-1]
    if k in ('Int','UInt','Int64','UInt64'): return f'(.{low(k) if k!="UInt" and k!="UInt64" else k.lower()} {integer(e[2][0])})'
    if k == 'Text': return f'(.text {text(e[2][0])})'
    if k == 'Float': return f'(.float {fl(f32)(e[2][0])})'
    if k == 'Double': return f'(.double {fl(f64)(e[2][0])})'
    if k == 'Gender': raise Exception('gender')
    raise Exception('arg ' + str(e))
def options(e):
    fs = e[2]
    names = ['always_include_sign','use_grouping','rounding_mode','minimum_integral_digits','maximum_integral_digits','minimum_fractional_digits','maximum_fractional_digits']
    return '⟨' + ', '.join([boolean(fs[names[0]]), boolean(fs[names[1]]), variant(fs[names[2]])] + [integer(fs[n]) for n in names[3:]]) + '⟩'
FIELDS = {
 'None': [('culture_invariant_string', opt(string))],
 'NamedFormat': [('source_format', box(text)), ('arguments', pairs(string, fmtarg))],
 'ArgumentFormat': [('source_format', box(text)), ('arguments', pairs(string, fmtarg))],
 'OrderedFormat': [('source_format', box(text)), ('arguments', lift(fmtarg))],
 'AsNumber': [('source_value', box(fmtarg)), ('format_options', opt(options)), ('target_culture', opt(string))],
 'AsDate': [('date_time', ticks), ('date_style', variant), ('target_culture', string)],
 'AsTime': [('source_date_time', ticks), ('time_style', variant), ('time_zone', string), ('target_culture', string)],
 'AsDateTime': [('source_date_time', ticks), ('date_style', variant), ('time_style', variant), ('time_zone', string), ('target_culture', string)],
 'Transform': [('source_text', box(text)), ('transform_type', variant)],
}
def history(e):
    k = e[1][-1]
    return '.' + low(k) + ' ' + ' '.join(f(e[2][n]) for n, f in FIELDS[k])

def delegate(e): return '⟨' + ', '.join(string(x) for x in e[2]) + '⟩'
def multicast(e):
    if e[0] == 'struct': return lift(delegate)(e[2]['delegates'])
    return lift(delegate)(e[2][0])
def bytevalue(e):
    k = e[1][1][-1]
    return '(.byte ' + integer(e[2][0]) + ')' if k == 'Byte' else '(.namespaced ' + string(e[2][0]) + ')'
def info(e):
    a, b, c = e[1]
    return f'({string(a)}, {string(b)}, {guid(c)})'

def prop(e):
    """Property"""
    if e[0] == 'method' and e[1] == 'expect': return prop(e[2])
    if e[0] == 'call':
        p, a = e[1][1], e[2]
        if p == ['Property','from'] or p[0] == 'Property' and len(p) == 2: return prop(a[0])
        if p[0] in INTS: return f'(.{INTS[p[0]]} {integer(a[0])})'
        if p[0] in FLOATS: n, f = FLOATS[p[0]]; return f'(.{n} {fl(f)(a[0])})'
        if p[0] == 'BoolProperty': return f'(.bool {boolean(a[0])})'
        if p == ['StrProperty','new']: return f'(.str {opt(string)(a[0])})'
        if p == ['StrProperty','from']: return f'(.str (some {string(a[0])}))'
        if p == ['NameProperty','from'] and (a[0] == ('path',['None']) or a[0][0] == 'call' and a[0][1][1] == ['Some']): return f'(.name 0 {opt(string)(a[0])})'
        if p == ['NameProperty','from']: return f'(.name 0 (some {string(a[0])}))'
        if p[0] == 'ObjectProperty': return f'(.object {string(a[0])})'
        if p == ['EnumProperty','new']: return f'(.enum {opt(string)(a[0])} {string(a[1])})'
        if p == ['ByteProperty','new']: return f'(.byte {opt(string)(a[0])} {bytevalue(a[1])})'
        if p == ['ByteProperty','new_byte']: return f'(.byte {opt(string)(a[0])} (.byte {integer(a[1])}))'
        if p == ['ByteProperty','new_namespaced']: return f'(.byte {opt(string)(a[0])} (.namespaced {string(a[1])}))'
        if p == ['TextProperty','new']: return f'(.text {text(a[0])})'
        if p == ['DelegateProperty','new']: return f'(.delegate {delegate(a[0])})'
        if p == ['MulticastInlineDelegateProperty','new']: return f'(.multicastInlineDelegate {multicast(a[0])})'
        if p == ['MulticastSparseDelegateProperty','new']: return f'(.multicastSparseDelegate {multicast(a[0])})'
        if p == ['FieldPathProperty','new']: return f'(.fieldPath ⟨{lift(string)(a[0][2][0])}, {string(a[0][2][1])}⟩)'
        if p == ['UnknownProperty','new']: return f'(.unknown {string(a[0])} {lift(integer)(a[1])})'
        if p == ['SetProperty','new']: return f'(.set {string(a[0])} {integer(a[1])} {lift(prop)(a[2])})'
        if p == ['StructProperty','new']: return f'(.struct {guid(a[0])} {string(a[1])} ({stru(a[2])}))'
        if p == ['ArrayProperty','new']: return f'(newArray {string(a[0])} {opt(info)(a[1])} {lift(prop)(a[2])})'
        if p == ['MapProperty','new']: return f'(newMap {string(a[0])} {string(a[1])} {integer(a[2])} {pairs(prop,prop)(a[3])})'
        if p[0] == 'StructPropertyValue': return f'(.structValue ({stru(e)}))'
        if p[0] in FVEC: return f'(.structValue ({stru(e)}))'
    if e[0] == 'struct':
        p, fs = e[1], e[2]
        if p[0] in INTS: return f'(.{INTS[p[0]]} {integer(fs["value"])})'
        if p[0] in FLOATS: n, f = FLOATS[p[0]]; return f'(.{n} {fl(f)(fs["value"])})'
        if p[0] == 'BoolProperty': return f'(.bool {boolean(fs["value"])})'
        if p[0] == 'NameProperty': return f'(.name {integer(fs["array_index"])} {opt(string)(fs["value"])})'
        if p[0] == 'StrProperty': return f'(.str {opt(string)(fs["value"])})'
        if p[0] == 'ObjectProperty': return f'(.object {string(fs["value"])})'
        if p[0] == 'EnumProperty': return f'(.enum {opt(string)(fs["enum_type"])} {string(fs["value"])})'
        if p[0] == 'ByteProperty': return f'(.byte {opt(string)(fs["name"])} {bytevalue(fs["value"])})'
        if p[0] == 'SetProperty': return f'(.set {string(fs["property_type"])} {integer(fs["allocation_flags"])} {lift(prop)(fs["properties"])})'
        if p[0] == 'StructProperty': return f'(.struct {guid(fs["guid"])} {string(fs["type_name"])} ({stru(fs["value"])}))'
        if p[0] == 'MulticastInlineDelegateProperty': return f'(.multicastInlineDelegate {multicast(fs["value"])})'
        if p[0] == 'MulticastSparseDelegateProperty': return f'(.multicastSparseDelegate {multicast(fs["value"])})'
        if p == ['ArrayProperty','Ints']: return f'(.array (.ints {lift(integer)(fs["ints"])}))'
        if p == ['ArrayProperty','Strings']: return f'(.array (.strings {lift(opt(string))(fs["strings"])}))'
        if p == ['ArrayProperty','Bytes']: return f'(.array (.bytes {lift(integer)(fs["bytes"])}))'
        if p == ['ArrayProperty','Structs']: return f'(.array (.structs {string(fs["field_name"])} {string(fs["type_name"])} {guid(fs["guid"])} {lift(stru)(fs["structs"])}))'
        if p == ['ArrayProperty','Properties']: return f'(.array (.properties {string(fs["property_type"])} {lift(prop)(fs["properties"])}))'
        if p == ['MapProperty','Properties']: return f'(.map (.properties {string(fs["key_type"])} {string(fs["value_type"])} {integer(fs["allocation_flags"])} {pairs(prop,prop)(fs["value"])}))'
    raise Exception('prop ' + str(e)[:300])

def engine(e):
    fs = e[2]
    return '⟨' + ', '.join(integer(fs[k]) for k in ('major','minor','patch','change_list')) + ', ' + string(fs['branch']) + '⟩'
def header(e):
    fs = e[2]; v = e[1][-1]
    pre = [integer(fs['package_file_version'])] + ([integer(fs['package_file_version_ue5'])] if v == 'Version3' else [])
    return f'.{low(v)} ' + ' '.join(pre) + f' {engine(fs["engine_version"])} {integer(fs["custom_version_format"])}\n  {pairs(guid, integer)(fs["custom_versions"])}\n  {string(fs["save_game_class_name"])}'
def gvasfile(e):
    fs = e[2]
    gv = fs['deserialized_game_version'][1][-1]; assert gv == 'Default'
    return f'⟨.default,\n  {header(fs["header"])},\n  {pairs(string, prop)(fs["properties"])}⟩'

def jlean(j):
    if j is None: return '.null'
    if j is True: return '.bool true'
    if j is False: return '.bool false'
    if isinstance(j, int): return f'.int {j}' if j >= 0 else f'.int ({j})'
    if isinstance(j, float): return f'.float {f64(j)}'
    if isinstance(j, str): return '.str ' + leanstr(j)
    if isinstance(j, list): return '.arr ' + lst([jlean(x) for x in j])
    if isinstance(j, OD): return '.obj ' + lst([f'({leanstr(k)}, {jlean(v)})' for k, v in j.l])
    raise Exception('json')
class OD:
    def __init__(self, l): self.l = l
def json_lean(text): return jlean(json.loads(text, object_pairs_hook=OD))

T='/repo/tests/'
def balanced(s, i):
    d = 0; j = i
    toks = list(TOK.finditer(s, i))
    for m in toks:
        x = m.group(0)
        if m.lastgroup == 'op' and x in '({[': d += 1
        if m.lastgroup == 'op' and x in ')}]':
            d -= 1
            if d == 0: return m.end()
    raise Exception('unbalanced')
def body(s, name):
    i = s.index('fn ' + name + '('); k = s.index('{', s.index('->', i) if '->' in s[i:s.index('{',i)] else i)
    return s[k+1:balanced(s, k)-1]
# files
files = {}
for n in ['delegate','options','saveslot3','slot1','vector2d']:
    s = open(T+f'common/{n}.rs').read()
    for m in re.finditer(r'const (\w+): &str =\s*("(?:[^"\\]|\\.)*")', s): CONST[m.group(1)] = ('str', m.group(2))
    files[n] = gvasfile(P(lex(body(s,'expected'))).expr())
jsons = {}
for n in ['profile0','regression','saveslot3','slot1','tagcontainer','vector2d']:
    s = open(T+f'common/{n}.rs').read()
    m = re.search(r'_JSON: &str = r#"((?:.|\n)*?)"#', s)
    jsons[n] = m.group(1)
# serde templates
s = open(T+'serde_tests/serde_json_template.rs').read()
tmpl = []
for m in re.finditer(r'#\[test\]\nfn (\w+)\(\) \{', s):
    b = s[m.end()-1:balanced(s, m.end()-1)]
    line = s[:m.start()].count('\n')+2
    for c in re.finditer(r'\bserde_json\(', b):
        e = P(lex(b[c.start():balanced(b, c.start())])).expr()
        tmpl.append((m.group(1), line, prop(e[2][0]), e[2][1][1]))
s = open(T+'gvas_tests/test_property.rs').read()
props = []
for m in re.finditer(r'^test_property!\(', s, re.M):
    b = s[m.start():balanced(s, m.start())]
    p = P(lex(b)); p.next(); p.eat('!'); p.eat('(')
    it = p.items(')')
    props.append((it[0][1][0], it[1][1][0], prop(it[2])))


import os
HERE = os.path.dirname(os.path.abspath(__file__))
OUT = os.path.join(HERE, '..', 'lean', 'Verif', 'Check', '')
R = '/repo/resources/test/'
def head(mod, doc): return f'import Verif.Check.Basic\n\n/-!\n# {doc}\n-/\n\nnamespace Gvas.Check\n\nset_option maxRecDepth 100000\n'
def wrap(s, ind='  ', w=98):
    """break a long term at spaces outside string literals"""
    out=[]; 
    for line in s.split('\n'):
        cur=''; last=0; ins=False; toks=[]; t=''
        i=0
        while i<len(line):
            c=line[i]
            if ins:
                t+=c
                if c=='\\': t+=line[i+1]; i+=1
                elif c=='"': ins=False
            elif c=='"': ins=True; t+=c
            elif c==' ': toks.append(t); t=''
            else: t+=c
            i+=1
        toks.append(t)
        for t in toks:
            if cur and len(cur)+1+len(t)>w: out.append(cur); cur=ind+t
            else: cur = cur+' '+t if cur else (ind+t if not out else ind+t)
        out.append(cur)
    return '\n'.join(out)
s=head('Templates','The JSON of properties (`tests/serde_tests/serde_json_template.rs`)')
for n,line,p,j in tmpl:
    s+=f'\n/-- `{n}` ({line}). -/\nexample : template\n{wrap(p,"    ")}\n{wrap("("+json_lean(j)+") = true","    ")} := by decide +kernel\n'
open(OUT+'Templates.lean','w').write(s+'\nend Gvas.Check\n')
s=head('Properties','Round trips of properties (`tests/gvas_tests/test_property.rs`)')
for n,ty,p in props:
    s+=f'\n/-- `{n}`. -/\nexample : roundTrip "{ty}"\n{wrap(p+" = true","    ")} := by decide +kernel\n'
open(OUT+'Properties.lean','w').write(s+'\nend Gvas.Check\n')
def hx(b):
    h=b.hex()
    return f'raw {len(b)} 0x{h}'
hints={}
for n in ['features','profile0','saveslot3']:
    t=open(T+f'common/{n}.rs').read()
    e=P(lex(body(t,'hints'))).expr()
    hints[n]=lst([f'({string(x[1][0])}, {string(x[1][1])})' for x in e[2][0][1]])
FILES=[('delegate','Delegate.sav'),('options','Options.sav'),('slot1','Slot1.sav'),('regression','regression_01.bin')]
JSON_IN_KERNEL = ['regression']
s=head('Saves','The smaller sample saves (`resources/test/`, `tests/gvas.rs`, `tests/common/`)')
for n,fn in FILES:
    b=open(R+fn,'rb').read()
    s+=f'\n/-- `resources/test/{fn}`. -/\ndef {n}Data : Bytes := {hx(b)}\n'
    conds=[]
    if n in files:
        s+=f'\n/-- `expected()` (`tests/common/{n}.rs`). -/\ndef {n}File : GvasFile :=\n{wrap("  "+files[n].replace(chr(10)," "))}\n'
        conds.append(f'f.eqv {n}File')
    if n in JSON_IN_KERNEL:
        s+=f'\n/-- The JSON (`tests/common/{n}.rs`). -/\ndef {n}Json : J :=\n{wrap("  "+json_lean(jsons[n]))}\n'
        conds.append(f'jsonOf {n}Json f')
    h=hints.get(n,'[]')
    c=' && '.join(conds) or 'true'
    s+=f'\nexample : saved\n{wrap(h,"    ")}\n    {n}Data (fun {"f" if conds else "_"} => {c}) = true := by decide +kernel\n'
open(OUT+'Saves.lean','w').write(s+'\nend Gvas.Check\n')

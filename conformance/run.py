"""Runs the Lean model (not the Rust code) on the test assets and expected JSON of /repo.

For each save in /repo/resources/test: read it with the model, write it, compare with the
original bytes, convert to JSON and back, and compare with the JSON the test-suite expects where
there is one.  For each JSON text in serde_json_template.rs: decode, encode, compare.

This is a check of the transcription, not a proof; nothing in lean/ depends on it.

usage: LEAN_PATH must contain Lean's and the model's compiled files;
    python3 run.py [asset ...]        (no arguments: all assets but palworld_zlib_twice)
    python3 run.py template
Large assets are slow with the model as is, since it asks for the length of the rest of the input
at each read; for them compile a copy of the model in which the test `n <= s.rest.length` of `R.take`
is replaced by the equivalent `n == 0 || !(s.rest.drop (n-1)).isEmpty`.
"""
import re,os,sys,json,subprocess,struct,zlib,time
import tempfile
D=tempfile.mkdtemp(); os.chdir(D)
T='/repo/tests/common/'; LP=os.environ['LEAN_PATH']
def hints(f):
    s=open(T+f).read(); i=s.index('fn hints()'); j=s.index('\n}\n',i); s=s[i:j]
    st=re.findall(r'"((?:[^"\\]|\\.|\\\n\s*)*)"',s)
    st=[re.sub(r'\\\n\s*','',x) for x in st]
    return list(zip(st[::2],st[1::2]))
def expected(f,name):
    s=open(T+f).read(); m=re.search(name+r': &str = r#"(.*?)"#;',s,re.S); return m.group(1)
def prof(p):
    data=open('/repo/resources/test/'+p,'rb').read(); return data
cases=[('assert_failed.sav',None,None),('component8.sav',None,None),('Delegate.sav',None,None),('enum_array.sav',None,None),
('features_01.bin','features.rs',None),('Options.sav',None,None),('package_version_524.sav',None,None),('package_version_525.sav',None,None),
('palworld_zlib.sav','palworld.rs',None),('palworld_zlib_twice.sav','palworld.rs',None),('Profile_0.sav','profile0.rs',('profile0.rs','PROFILE_0_JSON')),
('regression_01.bin',None,('regression.rs','REGRESSION_01_JSON')),('ro_64bit_fav.sav',None,None),('SaveSlot_03.sav','saveslot3.rs',('saveslot3.rs','SAVESLOT_03_JSON')),
('Slot1.sav',None,('slot1.rs','SLOT1_JSON')),('Slot2.sav',None,None),('Slot3.sav',None,None),('string_table_entry.sav',None,None),
('tagcontainer.sav',None,('tagcontainer.rs','TAGCONTAINER_JSON')),('text_property_noarray.bin',None,None),('transform.sav',None,None),('vector2d.sav',None,('vector2d.rs','VECTOR2D_JSON'))]
def f32(x):
    try: return struct.unpack('<f',struct.pack('<f',x))[0]
    except OverflowError: return None
def cmp(a,b,path=''):
    # a: model, b: expected (pairs lists)
    if isinstance(a,list) and len(a)==1 and isinstance(a[0],tuple) and a[0][0]=='$f':
        v=struct.unpack('<d',struct.pack('<Q',a[0][1]))[0]
        if not isinstance(b,float): return path+' float vs '+repr(b)[:50]
        if v==b or f32(v)==f32(b): return None
        return path+f' {v} vs {b}'
    if isinstance(a,float) or type(a)!=type(b): return path+f' {repr(a)[:80]} vs {repr(b)[:80]}'
    if isinstance(a,list):
        if len(a)!=len(b): return path+f' len {repr(a)[:200]} vs {repr(b)[:200]}'
        for i,(x,y) in enumerate(zip(a,b)):
            if isinstance(x,tuple):
                if not isinstance(y,tuple) or x[0]!=y[0]: return path+f' key {x[0]} vs {y}'
                r=cmp(x[1],y[1],path+'.'+x[0])
            else: r=cmp(x,y,path+f'[{i}]')
            if r: return r
        return None
    return None if a==b else path+f' {a} vs {b}'

LEAN=r'''import Verif.Model.Json
open Gvas
def esc (s : String) : String := Id.run do
  let mut r := "\""
  for c in s.toList do
    if c == '"' then r := r ++ "\\\"" else if c == '\\' then r := r ++ "\\\\"
    else if c.toNat < 32 then r := r ++ "\\u00" ++ String.ofList [(Nat.digitChar (c.toNat/16)), Nat.digitChar (c.toNat%16)]
    else r := r.push c
  return r ++ "\""
partial def dump (h : IO.FS.Stream) : J → IO Unit
  | .null => h.putStr "null"
  | .bool b => h.putStr (if b then "true" else "false")
  | .int n => h.putStr (toString n)
  | .float f => h.putStr ("{\"$f\":" ++ toString f.bits.toNat ++ "}")
  | .str s => h.putStr (esc s)
  | .arr l => do
    h.putStr "["
    let mut first := true
    for j in l do
      if !first then h.putStr ","
      first := false
      dump h j
    h.putStr "]"
  | .obj l => do
    h.putStr "{"
    let mut first := true
    for (k, j) in l do
      if !first then h.putStr ","
      first := false
      h.putStr (esc k ++ ":")
      dump h j
    h.putStr "}"
partial def jeq : J → J → Bool
  | .null, .null => true
  | .bool a, .bool b => a == b
  | .int a, .int b => a == b
  | .float a, .float b => a.bits == b.bits
  | .str a, .str b => a == b
  | .arr a, .arr b => a.length == b.length && (a.zip b).all fun (x, y) => jeq x y
  | .obj a, .obj b => a.length == b.length && (a.zip b).all fun (x, y) => x.1 == y.1 && jeq x.2 y.2
  | _, _ => false
def main (args : List String) : IO Unit := do
  let data ← IO.FS.readBinFile args[0]!
  let hs ← IO.FS.lines args[1]!
  let hm := hs.toList.filterMap fun l => match l.splitOn "\t" with | [a,b] => some (a,b) | _ => none
  let hints : String → Option String := fun k => hm.lookup k
  let err ← IO.getStderr
  let z : Codec := ⟨fun x => (x, true), some, fun _ x => x⟩
  match GvasFile.read z true .default hints 0 data.toList with
  | .bad f => err.putStrLn s!"READ FAIL {repr f}"
  | .ok f =>
    match f.encode with
    | .bad e => err.putStrLn s!"ENC FAIL {repr e}"
    | .ok bs => err.putStrLn s!"read ok; reencode equal: {decide (bs = data.toList)} ({bs.length})"
    let j := f.toJson
    match GvasFile.ofJson j with
    | none => err.putStrLn "JSON back: none"
    | some g =>
      err.putStrLn s!"JSON back equal: {jeq g.toJson j} {match g.encode with | .ok bs => decide (bs = data.toList) | _ => false}"
    dump (← IO.getStdout) j
'''
MAIN=r'''def main : IO Unit := do
  let mut i := 0
  for j in cases do
    match Property.ofJ 50 j with
    | none => IO.println s!"{i}: refused"
    | some p => if jeq p.toJ j then pure () else (do IO.println s!"{i}: differs"; dump (← IO.getStdout) p.toJ)
    i := i + 1
  IO.println s!"{i} cases"
'''
open('Conf.lean','w').write(LEAN)
def template():
    s=open('/repo/tests/serde_tests/serde_json_template.rs').read()
    cs=re.findall(r'r#"(.*?)"#',s,re.S)
    def L(j):
        if j is None: return '.null'
        if isinstance(j,bool): return '(.bool %s)'%('true' if j else 'false')
        if isinstance(j,int): return '(.int %s)'%j
        if isinstance(j,float): return '(.float ⟨%d⟩)'%struct.unpack('<Q',struct.pack('<d',j))[0]
        if isinstance(j,str): return '(.str %s)'%json.dumps(j)
        if isinstance(j,tuple): return '(.obj [%s])'%', '.join('(%s, %s)'%(json.dumps(k),L(v)) for k,v in j)
        return '(.arr [%s])'%', '.join(map(L,j))
    js=[json.loads(c,object_pairs_hook=lambda p: tuple(p)) for c in cs]
    src=LEAN[:LEAN.index('def main')]
    src+='def cases : List J := [\n'+',\n'.join(L(j) for j in js)+']\n'
    src+=MAIN
    open('Tmpl.lean','w').write(src)
    r=subprocess.run(['lean','--run','Tmpl.lean'],env=dict(os.environ,LEAN_PATH=LP),capture_output=True,text=True)
    print(len(cs),r.stdout[-3000:],r.stderr[-2000:])

if sys.argv[1:]==['template']: template(); sys.exit()
sel=sys.argv[1:]
for p,h,j in cases:
    if (sel and p not in sel) or (not sel and 'twice' in p): continue
    data=prof(p)
    if p.startswith('palworld'):
        raw=zlib.decompress(data[12:]); 
        if 'twice' in p: raw=zlib.decompress(raw)
        data=raw
    open('in.bin','wb').write(data); open('hints.txt','w').write('\n'.join(a+'\t'+b for a,b in (hints(h) if h else [])))
    t=time.time()
    r=subprocess.run(['lean','--run','Conf.lean','in.bin','hints.txt'],env=dict(os.environ,LEAN_PATH=LP),capture_output=True)
    print(p,len(data),r.stderr.decode().strip().replace('\n','; ')[:600],round(time.time()-t),'s',end=' ')
    if j:
        hook=lambda ps: [(k,v) for k,v in ps]
        try:
            m=json.loads(r.stdout.decode(),object_pairs_hook=hook); e=json.loads(expected(*j),object_pairs_hook=hook)
            print('JSON',cmp(m,e) or 'matches',end='')
        except Exception as ex: print('EXC',ex,r.stdout[:100],end='')
    print(flush=True)

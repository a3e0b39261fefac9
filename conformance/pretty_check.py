#!/usr/bin/env python3
"""Compares the model's pretty JSON text with the texts that the tests of the repository expect.

Run it in /verif/lean after `lake build`.  The texts of tests/serde_tests/serde_json_template.rs are
loaded by the model and printed again; six saves of resources/test are read and printed.  The digits of
floats are not modelled: they are printed as <bits> and compared as numbers.
"""
import json,os,re,struct,subprocess,tempfile
R='/repo/'
src=open(R+'tests/serde_tests/serde_json_template.rs').read()
lits=[m.group(1) for m in re.finditer(r'r#"(.*?)"#',src,re.S)]
saves=[('Profile_0.sav','profile0','PROFILE_0_JSON'),('SaveSlot_03.sav','saveslot3','SAVESLOT_03_JSON'),
       ('Slot1.sav','slot1','SLOT1_JSON'),('regression_01.bin','regression','REGRESSION_01_JSON'),
       ('tagcontainer.sav','tagcontainer','TAGCONTAINER_JSON'),('vector2d.sav','vector2d','VECTOR2D_JSON')]
LEAN='''import Verif.Model.JsonPretty
import Verif.Model.JsonDirect
import Verif.Model.File
open Gvas
def bits : FloatText := ⟨fun f => s!"<{f.bits}>".toList, fun f => s!"<{f.bits}>".toList⟩
def lit (a : String) : String :=
  match J.ofText a with
  | none => "no text"
  | some j => match Property.ofJson 200 j with
    | some p => p.toPretty bits
    | none => "not loaded"
def save (path : String) (hints : List (String × String)) : IO String := do
  match (readData true (fun k => hints.lookup k) (← IO.FS.readBinFile path).toList).1 with
  | .ok (h, ps) => pure (GvasFile.toPretty bits ⟨.default, h, ps⟩)
  | .bad _ => pure "not read"
def show' (n : Nat) (s : String) : IO Unit := IO.println s!"==== {n}\\n{s}"
'''
want=[]
out=[LEAN,'def main : IO Unit := do']
for l in lits:
    out.append('  show\' %d (lit %s)'%(len(want),json.dumps(l,ensure_ascii=False))); want.append(l)
for f,n,c in saves:
    s=open(R+'tests/common/%s.rs'%n).read()
    h=[]
    if 'fn hints' in s:
        b=s[s.index('fn hints'):]; h=re.findall(r'"([^"]*)"',b[:b.index('\n}')])
    hs=', '.join('(%s, %s)'%(json.dumps(a),json.dumps(b)) for a,b in zip(h[::2],h[1::2]))
    out.append('  show\' %d (← save %s [%s])'%(len(want),json.dumps(R+'resources/test/'+f),hs))
    want.append(re.search(c+r': &str = r#"(.*?)"#',s,re.S).group(1))
p=os.path.join(tempfile.mkdtemp(),'T.lean'); open(p,'w').write('\n'.join(out)+'\n')
got=subprocess.run(['lake','env','lean','--run',p],capture_output=True,text=True)
parts=re.split(r'==== \d+\n',got.stdout)[1:]
def num(b,t):
    if b<2**32 and struct.pack('<f',float(t))==struct.pack('<I',b): return True
    return struct.pack('<d',float(t))==struct.pack('<Q',b)
bad=0;floats=0
for n,w in enumerate(want):
    g=parts[n][:-1].split('\n') if n<len(parts) else []; w=w.split('\n')
    ok=len(g)==len(w)
    for x,y in zip(g,w):
        m=re.match(r'^(.*)<(\d+)>(,?)$',x)
        if m:
            floats+=1
            v=re.match('^'+re.escape(m.group(1))+r'([-0-9.e]+)'+m.group(3)+'$',y)
            ok=ok and v is not None and num(int(m.group(2)),v.group(1))
        else: ok=ok and x==y
    if not ok: bad+=1; print('differs:',n)
print(len(want),'texts,',floats,'floats,',bad,'differ')

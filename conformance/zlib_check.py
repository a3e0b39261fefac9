"""Compares the model's zlib decoder (lean/Verif/Model/Zlib.lean) with zlib: on the compressed save
of /repo, on random data compressed in all ways zlib offers, and on such streams with bytes changed,
cut off or added.  A check of the transcription, not a proof; nothing in lean/ depends on it.

usage: LEAN_PATH must contain Lean's and the model's compiled files; python3 zlib_check.py
"""
import os, random, subprocess, tempfile, zlib
os.chdir(tempfile.mkdtemp())
open('Z.lean', 'w').write(r'''import Verif.Model.Zlib
open Gvas Gvas.Zlib
def hex (c : Char) : Nat := if c.isDigit then c.toNat - 48 else c.toNat - 87
def parse : List Char → Bytes
  | a :: b :: l => UInt8.ofNat (16 * hex a + hex b) :: parse l
  | _ => []
def digit (n : Nat) : Char := Char.ofNat (if n < 10 then 48 + n else 87 + n)
def shw (bs : Bytes) : String :=
  String.ofList (bs.flatMap fun b => [digit (b.toNat / 16), digit (b.toNat % 16)])
def main : IO Unit := do
  for l in ((← IO.FS.readFile "in").splitOn "\n") do
    match decode (parse l.toList) with
    | some (o, r) => IO.println s!"{shw o} {r.length}"
    | none => IO.println "none"
''')
random.seed(7)
save = open('/repo/resources/test/palworld_zlib.sav', 'rb').read()[12:]
ins = [save]
def data():
    k = random.randrange(4)
    n = random.choice([0, 1, 5, 30, 200, 800])
    if k == 0: return bytes(random.randrange(256) for _ in range(n))
    if k == 1: return bytes(random.choice(b'abc') for _ in range(n))
    if k == 2: return bytes(min(255, int(random.expovariate(0.05))) for _ in range(n))
    return (b'Property' * 200)[:n] + bytes(random.choice(b'gvas') for _ in range(n // 4))
for _ in range(400):
    c = zlib.compressobj(random.randrange(10), zlib.DEFLATED, random.randrange(9, 16),
        random.randrange(1, 10), random.randrange(5))
    d = data(); m = random.randrange(len(d) + 1)
    s = c.compress(d[:m])
    if random.random() < .3: s += c.flush(random.choice([zlib.Z_SYNC_FLUSH, zlib.Z_FULL_FLUSH]))
    s += c.compress(d[m:]) + c.flush()
    ins.append(s + bytes(random.randrange(256) for _ in range(random.choice([0, 0, 3]))))
    for _ in range(6):
        t = bytearray(s); k = random.randrange(4)
        if k == 0: t = t[:random.randrange(len(t))]
        else:
            i = random.randrange(min(len(t), 40)) if k < 3 else random.randrange(len(t))
            t[i] ^= 1 << random.randrange(8)
        ins.append(bytes(t))
    # the same changes with the checksum repaired where the rest still decodes
    for _ in range(4):
        t = bytearray(s[2:-4])
        if not t: continue
        i = random.randrange(min(len(t), 60)); t[i] ^= 1 << random.randrange(8)
        try:
            o = zlib.decompressobj(-15); x = o.decompress(bytes(t)) + o.flush()
            if o.eof: ins.append(s[:2] + bytes(t[:len(t) - len(o.unused_data)]) + zlib.adler32(x).to_bytes(4, 'big'))
        except zlib.error: pass
open('in', 'w').write('\n'.join(i.hex() for i in ins))
r = subprocess.run(['lean', '--run', 'Z.lean'], capture_output=True, text=True)
out = r.stdout.split('\n')[:len(ins)]
ok = bad = 0; diff = []
for i, o in zip(ins, out):
    z = zlib.decompressobj()
    try:
        d = z.decompress(i) + z.flush()
        e = f'{d.hex()} {len(z.unused_data)}' if z.eof else 'none'
    except zlib.error: e = 'none'
    if e == o: ok += 1; bad += e == 'none'
    else: diff.append((i.hex(), e[:60], o[:60]))
print(len(ins), 'inputs,', ok, 'agree,', bad, 'of them not streams;', len(diff), 'differ', r.stderr[:300])
for d in diff[:10]: print(d)

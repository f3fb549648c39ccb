#!/usr/bin/env python3
"""Transcribes the base point tables of /repo/ed25519_const.go into lean/Verif/Model/Tables.lean."""
import re, os
src=open('/repo/ed25519_const.go').read()
lines=src.split('\n')
i0=src.index('var basePrecDouble'); i1=src.index('var basePrecSingle')
def entries(s):
    out=[]
    # one entry: PRECOMPUTED, three field elements, three nils
    for m in re.finditer(r'\{\s*PRECOMPUTED,\s*((?:&Ed25519FieldElement\{FieldElements\{[^}]*\}\},\s*){3})nil,\s*nil,\s*nil,\s*\}',s):
        fes=re.findall(r'FieldElements\{([^}]*)\}',m.group(1))
        out.append([[int(x) for x in f.split(',') if x.strip()] for f in fes])
        assert all(len(f)==10 for f in out[-1])
    return out
dbl=entries(src[i0:i1]); sgl=entries(src[i1:])
assert len(dbl)==8 and len(sgl)==256, (len(dbl),len(sgl))
# rows: check nesting by brace structure: 32 groups of 8
body=src[i1:]
rows=re.findall(r'\n\t\{\n(.*?)\n\t\},',body,re.S)
assert len(rows)==32 and all(r.count('PRECOMPUTED')==8 for r in rows)
def L(f): return '['+', '.join(str(x) for x in f)+']'
def E(e): return '⟨'+', '.join(L(f) for f in e)+'⟩'
o='''import Verif.Model.Group

/-!
# The base point tables (ed25519_const.go:22-2466), transcribed by tools/gen_tables.py
-/

set_option autoImplicit false

namespace Ed

/-- Limbs of one table entry. -/
structure RawEntry where
  x : List Int
  y : List Int
  z : List Int

/-- `FieldElements{...}` from a list of ten literals. -/
def feOfList (l : List Int) : FE :=
  FE.ofInts (l.getD 0 0) (l.getD 1 0) (l.getD 2 0) (l.getD 3 0) (l.getD 4 0) (l.getD 5 0) (l.getD 6 0)
    (l.getD 7 0) (l.getD 8 0) (l.getD 9 0)

/-- `{PRECOMPUTED, &..., &..., &..., nil, nil, nil}`. -/
def RawEntry.toGC (e : RawEntry) : GC := GC.newPrecomputed (feOfList e.x) (feOfList e.y) (feOfList e.z)

/-- Literals of `basePrecDouble` (ed25519_const.go:22-95). -/
def rawPrecDouble : List RawEntry := [
  '''
o+=',\n  '.join(E(e) for e in dbl)+']\n\n'
names=[]
# line numbers per row
base=src[:i1].count('\n')+1
for r in range(32):
    off=body.index(rows[r]); ln=base+body[:off].count('\n')
    o+=f'/-- Literals of row {r} of `basePrecSingle` (ed25519_const.go:{ln-1}-{ln+rows[r].count(chr(10))+1}). -/\ndef rawRow{r} : List RawEntry := [\n  '
    o+=',\n  '.join(E(e) for e in sgl[8*r:8*r+8])+']\n\n'
o+='/-- Literals of `basePrecSingle` (ed25519_const.go:97-2466). -/\ndef rawPrecSingle : List (List RawEntry) := [\n  '
o+=', '.join(f'rawRow{r}' for r in range(32))+']\n\n'
o+='''/-- `basePrecDouble` (ed25519_const.go:22-95). -/
def basePrecDouble : List GC := rawPrecDouble.map RawEntry.toGC

/-- `basePrecSingle` (ed25519_const.go:97-2466). -/
def basePrecSingle : List (List GC) := rawPrecSingle.map (·.map RawEntry.toGC)

/-- `ed25519GroupBasePoint` (ed25519_encode.go:1982), hex 5866...66. -/
def basePointBytes : Bytes := 0x58 :: List.replicate 31 0x66

/-- `getBasePoint` (ed25519_encode.go:1984-2004) and `Ed25519Group.basePoint` set by `init`
(1957-1980). -/
def getBasePoint : Out GE := do
  let g ← GC.decode basePointBytes
  .ok { g with single := some basePrecSingle, double := some basePrecDouble }

end Ed
'''
open('/verif/lean/Verif/Model/Tables.lean','w').write(o)

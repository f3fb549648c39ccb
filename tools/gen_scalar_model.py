#!/usr/bin/env python3
# Transcribes modQ / multiplyAndAddModQ of ed25519_encode.go to lean/Verif/Model/Scalar.lean.
import re
src=open('/repo/ed25519_encode.go').read().split('\n')
def find(pat):
    for i,l in enumerate(src,1):
        if pat in l: return i
    raise Exception(pat)
def body(a):
    out=[];i=a+1;com=False
    while src[i-1]!='}':
        l=src[i-1].strip()
        if l.startswith('/**'): com=True
        if not com and l and not l.startswith('//'): out.append((i,l))
        if '*/' in l: com=False
        i+=1
    return out
def load(e,raw):
    m=re.fullmatch(r'(0x1FFFFF & )?\(?ref\.(three|four)BytesToLong\('+re.escape(raw)+r'\.Raw, (\d+)\)(?: >> (\d+))?\)?',e)
    assert m,e
    r=f'{m.group(2)}BytesToLong b {m.group(3)}'
    if m.group(4): r=f'sar ({r}) {m.group(4)}'
    if m.group(1): r=f'0x1FFFFF &&& {r if m.group(4) is None else r}'
    return r
FOLD=[(12,'+',666643),(11,'+',470296),(10,'+',654183),(9,'-',997805),(8,'+',136657),(7,'-',683901)]
def ops(st):
    out=[];i=0
    while i<len(st):
        n,l=st[i]
        m=re.fullmatch(r's(\d+) \+= s(\d+) \* 666643',l)
        if m:
            k=int(m.group(2))
            for j,(d,sg,c) in enumerate(FOLD):
                assert st[i+j][1]==f's{k-d} {sg}= s{k} * {c}',(st[i+j])
            out.append(f'.fold {k}'); i+=6; continue
        m=re.fullmatch(r'carry(\d+) :?= \(s(\d+) \+ \(1 << 20\)\) >> 21',l)
        m2=re.fullmatch(r'carry(\d+) :?= s(\d+) >> 21',l)
        if m or m2:
            k=int((m or m2).group(2)); assert int((m or m2).group(1))==k
            assert st[i+1][1]==f's{k+1} += carry{k}' and st[i+2][1]==f's{k} -= carry{k} << 21'
            out.append(f'.{"rc" if m else "fc"} {k} 21'); i+=3; continue
        m=re.fullmatch(r's(\d+) = 0',l)
        assert m,(n,l)
        out.append(f'.zero {m.group(1)}'); i+=1
    return out
def bytes_(st):
    out=[]
    for n,l in st:
        m=re.fullmatch(r'result\[(\d+)\] = \(?byte\)?\((.*)\)',l); assert m,l
        assert int(m.group(1))==len(out)
        e=m.group(2)
        e=re.sub(r's(\d+) >> (\d+)',r'sar (s \1) \2',e); e=re.sub(r's(\d+) << (\d+)',r'shl (s \1) \2',e)
        e=re.sub(r'(?<![\w(] )\bs(\d+)$',r's \1',e); e=re.sub(r'^s(\d+)$',r's \1',e)
        e=e.replace('|','|||')
        out.append(f'toByte ({e})')
    assert len(out)==32
    return out
def split(b):
    i=0
    while re.match(r'[abcs]\d+ := ',b[i][1]): i+=1
    j=i
    while not b[j][1].startswith('result'): j+=1
    assert b[j][1]=='result := make([]byte, 32)'
    assert b[-1][1].startswith('return &Ed25519EncodedFieldElement{Ed25519FieldZeroShort(), result}')
    return b[:i],b[i:j],b[j+1:-1]
q0=find(') modQ() *'); ql,qo,qb=split(body(q0))
m0=find(') multiplyAndAddModQ('); ml,mo,mb=split([x for x in body(m0) if not re.match(r'[bc] \*Ed25519',x[1])])
L24=[]
for n,l in ql:
    m=re.fullmatch(r's(\d+) := (.*)',l); assert int(m.group(1))==len(L24); L24.append(load(m.group(2),'ref'))
assert len(L24)==24
L12={}
for v,raw in (('a','ref'),('b','b'),('c','c')):
    L12[v]=[]
    for n,l in ml:
        m=re.fullmatch(v+r'(\d+) := (.*)',l)
        if m: assert int(m.group(1))==len(L12[v]); L12[v].append(load(m.group(2),raw))
    assert len(L12[v])==12
assert L12['a']==L12['b']==L12['c']
prod=[]; pl=[]
for n,l in ml:
    m=re.fullmatch(r's(\d+) := (.*)',l)
    if m:
        assert int(m.group(1))==len(prod); pl.append(n)
        e=m.group(2)
        if e=='int64(0)': e='0'
        e=re.sub(r'([abc])(\d+)',r'\1 \2',e); e=re.sub(r'\s*\*\s*',' * ',e)
        prod.append(e)
assert len(prod)==24
QO=ops(qo); MO=ops(mo)
assert MO[-len(QO):]==QO
PRE=MO[:-len(QO)]
QB=bytes_(qb); assert QB==bytes_(mb)
# split the common part
iz=[i for i,o in enumerate(QO) if o=='.zero 12']
assert len(iz)==2
R1=QO[:iz[1]+1]; rest=QO[iz[1]+1:]
f=rest.index('.fold 12'); R2=rest[:f]; R3=rest[f+1:]
def wrapl(xs,per=9):
    return '['+',\n   '.join(', '.join(xs[i:i+per]) for i in range(0,len(xs),per))+']'
def lineof(st,k): return st[k][0]
o=[]
o.append('''import Verif.Model.Field

/-!
# Arithmetic modulo the group order (transcribed by tools/gen_scalar_model.py)

The local variables `s0 ... s23` (and `a0 ... c11`) are the entries of a limb array.  The generator
checks, statement by statement, that the Go code is an instance of the `Op` patterns, and that the
reduction part of `multiplyAndAddModQ` is the same statement sequence as the one of `modQ`.
-/

set_option autoImplicit false

namespace Ed
''')
o.append(f'/-- The limbs loaded by `modQ` (ed25519_encode.go:{ql[0][0]}-{ql[-1][0]}): 21 bits each, 29 in `s23`. -/\ndef load24 (b : Bytes) : Limbs')
for i,e in enumerate(L24): o.append(f'  | {i} => {e}')
o.append('  | _ => 0\n')
a=[n for n,l in ml if l[0] in 'abc']
o.append(f'/-- The limbs `a0 ... a11` (same for `b`, `c`) loaded by `multiplyAndAddModQ`\n(ed25519_encode.go:{a[0]}-{a[-1]}): 21 bits each, 25 in `a11`. -/\ndef load12 (b : Bytes) : Limbs')
for i,e in enumerate(L12['a']): o.append(f'  | {i} => {e}')
o.append('  | _ => 0\n')
o.append(f'/-- `s0 ... s23` of `multiplyAndAddModQ`: the product plus `c` (ed25519_encode.go:{pl[0]}-{pl[-1]}). -/\ndef mulAddProducts (a b c : Limbs) : Limbs')
for i,e in enumerate(prod): o.append(f'  | {i} => {e}')
o.append('  | _ => 0\n')
o.append(f'/-- The first carries of `multiplyAndAddModQ` (ed25519_encode.go:{mo[0][0]}-{mo[3*len(PRE)-1][0]}). -/\ndef mulAddCarries : List Op :=\n  {wrapl(PRE)}\n')
n1=sum({'f':6,'r':3,'z':1}[x[1]] if not x.startswith('.fc') else 3 for x in R1)
o.append(f'/-- Common reduction, first part: up to the second `s12 = 0`\n(ed25519_encode.go:{qo[0][0]}-{qo[n1-1][0]} in `modQ`, {mo[3*len(PRE)][0]}-{mo[3*len(PRE)+n1-1][0]} in `multiplyAndAddModQ`). -/\ndef reduce1 : List Op :=\n  {wrapl(R1)}\n')
n2=n1+3*len(R2)
o.append(f'/-- Common reduction, first chain of floor carries (ed25519_encode.go:{qo[n1][0]}-{qo[n2-1][0]}). -/\ndef reduce2 : List Op :=\n  {wrapl(R2)}\n')
o.append(f'/-- Common reduction, last chain of floor carries, after the last fold of `s12`\n(ed25519_encode.go:{qo[n2+6][0]}-{qo[-1][0]}; the fold is {qo[n2][0]}-{qo[n2+5][0]}). -/\ndef reduce3 : List Op :=\n  {wrapl(R3)}\n')
o.append(f'/-- Common reduction (ed25519_encode.go:{qo[0][0]}-{qo[-1][0]}, {mo[3*len(PRE)][0]}-{mo[-1][0]}). -/\ndef reduceOps : List Op := reduce1 ++ reduce2 ++ [.fold 12] ++ reduce3\n')
o.append(f'/-- The 32 result bytes (ed25519_encode.go:{qb[0][0]}-{qb[-1][0]}, {mb[0][0]}-{mb[-1][0]}). -/\ndef scalarBytes (s : Limbs) : Bytes :=\n  ['+',\n   '.join(QB)+']\n')
o.append(f'/-- `modQ` (ed25519_encode.go:{q0}-{qb[-1][0]+3}) on the `Raw` bytes.  Go panics when `Raw` has fewer than 64\nbytes (see `modQ?` in Model/Api); here missing bytes read as 0. -/\ndef modQ (b : Bytes) : Bytes := scalarBytes (run reduceOps (load24 b))\n')
o.append(f'/-- `multiplyAndAddModQ` (ed25519_encode.go:{m0}-{mb[-1][0]+3}): `a.multiplyAndAddModQ(b, c)`. -/\ndef multiplyAndAddModQ (a b c : Bytes) : Bytes :=\n  scalarBytes (run reduceOps (run mulAddCarries (mulAddProducts (load12 a) (load12 b) (load12 c))))\n')
o.append('end Ed')
open('/verif/lean/Verif/Model/Scalar.lean','w').write('\n'.join(o)+'\n')

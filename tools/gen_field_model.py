#!/usr/bin/env python3
# Transcribes the product part of multiply / squareAndOptionalDouble and Encode of ed25519_encode.go to Lean.
import re
src=open('/repo/ed25519_encode.go').read().split('\n')
def lines(a,b): return src[a-1:b]
def expr(e,self='f'):
    e=re.sub(r'/\*.*?\*/','',e).strip()
    e=re.sub(r'ref\.Raw\[(\d)\]',self+r'.r\1',e)
    e=re.sub(r'g\.Raw\[(\d)\]',r'g.r\1',e)
    return e.strip()
def prod(a,b,lo,hi):
    out=[]
    for l in lines(a,b):
        l=l.strip()
        m=re.match(r'(\w+) := (.*)$',l)
        if m: out.append(f'  let {m.group(1)} := {expr(m.group(2))}')
    return out
def find(pat,start=1):
    for i,l in enumerate(src[start-1:],start):
        if pat in l: return i
    raise Exception(pat)
m0=find(') multiply(g Ed25519FieldElement)'); mh=find('h := FieldElements{',m0)
mul=prod(m0+1,mh-1,0,0)
mulh=[expr(l).rstrip(',') for l in lines(mh+1,mh+10)]
s0=find(') squareAndOptionalDouble(dbl bool)'); sh=find('var h FieldElements',s0)
sq=prod(s0+1,sh-1,0,0)
sqh=[re.match(r'\s*h\[\d\] = (.*)',l).group(1) for l in lines(sh+1,sh+10)]
e0=find(') Encode() *Ed25519EncodedFieldElement')
eb=[]
for l in lines(e0,e0+45):
    m=re.match(r'\s*s\[(\d+)\] = \(byte\)\((.*)\)$',l)
    if m: eb.append(m.group(2))
assert len(eb)==32
def sh_expr(e,v):
    e=re.sub(v+r'\[?(\d+)\]?\s*>>\s*(\d+)',lambda m:f'sar h.r{m.group(1)} {m.group(2)}',e)
    e=re.sub(v+r'\[?(\d+)\]?\s*<<\s*(\d+)',lambda m:f'shl h.r{m.group(1)} {m.group(2)}',e)
    e=re.sub(r'\bh\[(\d)\]',r'h.r\1',e)
    e=e.replace('|','|||')
    return e
if __name__=='__main__':
    print('-- mul lines',m0,mh,'\n'+'\n'.join(mul)); print('  ⟨'+',\n   '.join(mulh)+'⟩')
    print('-- sq lines',s0,sh,'\n'+'\n'.join(sq)); print('  ⟨'+',\n   '.join(sqh)+'⟩')
    print('-- enc',e0); print('  ['+',\n   '.join('toByte ('+sh_expr(e,'h')+')' for e in eb)+']')

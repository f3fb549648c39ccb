#!/usr/bin/env python3
# Generates lean/Verif/Proofs/FieldMul.lean
import re,sys
sys.path.insert(0,'/verif/tools')
import gen_field_model as G
pos=[0,26,51,77,102,128,153,179,204,230]
def env(lets):
    e={}
    for l in lets:
        m=re.match(r'\s*let (\w+) := (.*)$',l)
        e[m.group(1)]=m.group(2)
    return e
def expand(ex,e):
    # expand names to expressions in f.ri / g.ri
    def rep(m):
        n=m.group(0)
        return '('+expand(e[n],e)+')' if n in e else n
    return re.sub(r'(?<![.\w])[a-z]\w*(?![\w.])',rep,ex)
def toint(x): # Int version
    x=re.sub(r'f\.r(\d)',r'f.r\1.toInt',x); x=re.sub(r'g\.r(\d)',r'g.r\1.toInt',x)
    return x
E_,O_=110729625,55364812
bd=lambda i: E_ if i%2==0 else O_
def coef(i,j): 
    c=2 if i%2 and j%2 else 1
    return c*(19 if i+j>=10 else 1)
hdr='''import Verif.Spec.FieldRep
import Verif.Proofs.LimbCheck

/-!
# multiply and square: products (generated by tools/gen_field_proofs.py)
-/

namespace Ed.FE

theorem mul_bound {a b A B : ℤ} (ha : |a| ≤ A) (hb : |b| ≤ B) : -(A * B) ≤ a * b ∧ a * b ≤ A * B := by
  have h : |a * b| ≤ A * B := by
    rw [abs_mul]; exact mul_le_mul ha hb (abs_nonneg _) (le_trans (abs_nonneg _) ha)
  exact abs_le.1 h

'''
out=hdr
def intexpr(k,g):
    # canonical integer form
    ts=[]
    for i in range(10):
        for j in range(10):
            if (i+j)%10==k:
                c=coef(i,j)
                ts.append((c,i,j))
    return ts
def gen(name,lets,hs,two):
    global out
    e=env(lets)
    g='g' if two else 'f'
    bnds=[]
    for k in range(10):
        ts=intexpr(k,g)
        B=sum(c*bd(i)*bd(j) for c,i,j in ts)
        bnds.append(B)
        ex=toint(expand(hs[k],e))
        stmt=' + '.join(f'{c} * (f.r{i}.toInt * {g}.r{j}.toInt)' for c,i,j in ts)
        hyps='(hf : Loose f)'+(' (hg : Loose g)' if two else '')
        args='f g' if two else 'f'
        out+=f'''theorem {name}_{k} {{{args} : FE}} {hyps} :
    ({name} {args}).r{k}.toInt = {stmt} ∧
    |({name} {args}).r{k}.toInt| ≤ {B} := by
  have e1 : ({name} {args}).r{k} = Int64.ofInt ({ex}) := by
    simp only [Int64.ofInt_add, Int64.ofInt_mul, Int64.ofInt_toInt]
    rfl
  obtain ⟨f0, f1, f2, f3, f4, f5, f6, f7, f8, f9⟩ := hf
'''
        if two: out+='  obtain ⟨g0, g1, g2, g3, g4, g5, g6, g7, g8, g9⟩ := hg\n'
        for n,(c,i,j) in enumerate(ts):
            out+=f'  have b{n} := mul_bound f{i} {g}{j}\n'
        out+=f'''  have e2 : {ex} = {stmt} := by ring
  rw [e1, e2]
'''
        atoms=[]
        seen={}
        for n,(c,i,j) in enumerate(ts):
            out+=f'  generalize f.r{i}.toInt * {g}.r{j}.toInt = t{n} at *\n'
        out+='''  rw [toInt_ofInt_of_fits (by constructor <;> omega)]
  refine ⟨rfl, abs_le.2 ⟨by omega, by omega⟩⟩

'''
    return bnds
bm=gen('mulProducts',G.mul,G.mulh,True)
bs=gen('sqProducts',G.sq,G.sqh,False)
assert bm==bs
# value
Q=' + '.join(f'{2 if i%2 and j%2 else 1} * (f.r{i}.toInt * g.r{j}.toInt) * 2 ^ {pos[i+j-10]}' for i in range(10) for j in range(10) if i+j>=10)
out+=f'''/-- Bounds of the products. -/
def prodB : Bnds := [{', '.join(f'(-{b}, {b})' for b in bm)}]

theorem mulProducts_val {{f g : FE}} (hf : Loose f) (hg : Loose g) :
    ∃ q : ℤ, (mulProducts f g).val = f.val * g.val - (2 ^ 255 - 19) * q := by
  refine ⟨{Q}, ?_⟩
  unfold val
  rw [{', '.join(f'(mulProducts_{k} hf hg).1' for k in range(10))}]
  ring

'''
Qs=Q.replace('g.','f.')
out+=f'''theorem sqProducts_val {{f : FE}} (hf : Loose f) :
    ∃ q : ℤ, (sqProducts f).val = f.val * f.val - (2 ^ 255 - 19) * q := by
  refine ⟨{Qs}, ?_⟩
  unfold val
  rw [{', '.join(f'(sqProducts_{k} hf).1' for k in range(10))}]
  ring

end Ed.FE
'''
open('/verif/lean/Verif/Proofs/FieldMul.lean','w').write(out)

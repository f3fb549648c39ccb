from collections import defaultdict
V=['x1','y1','x2','y2','x3','y3','d']
class Poly(dict):
    def __add__(a,b):
        r=Poly(a)
        for m,c in b.items():
            r[m]=r.get(m,0)+c
            if r[m]==0: del r[m]
        return r
    def __neg__(a): return Poly({m:-c for m,c in a.items()})
    def __sub__(a,b): return a+(-b)
    def __mul__(a,b):
        r=defaultdict(int)
        for m,c in a.items():
            for n,e in b.items():
                r[tuple(i+j for i,j in zip(m,n))]+=c*e
        return Poly({m:c for m,c in r.items() if c})
def var(n): return Poly({tuple(1 if v==n else 0 for v in V):1})
one=Poly({(0,)*7:1})
x1,y1,x2,y2,x3,y3,d=[var(v) for v in V]
e=[ y*y-x*x-one-d*x*x*y*y for x,y in((x1,y1),(x2,y2),(x3,y3))]
def addfrac(P,Q):
    # P=(nx,dx,ny,dy)
    (a,b,c,e_),(f,g,h,k)=P,Q
    pass
def sum12(xa,ya,xb,yb):
    eps=d*xa*xb*ya*yb
    return (xa*yb+xb*ya, one+eps, ya*yb+xa*xb, one-eps)
def sum3(n1,dp,n2,dm,x,y):
    # (n1/dp,n2/dm)+(x,y)
    eps=d*n1*n2*x*y
    den=dp*dm
    return (n1*dm*y+x*n2*dp, den+eps, n2*dp*y+n1*dm*x, den-eps)
A=sum3(*sum12(x1,y1,x2,y2),x3,y3)
B=sum3(*sum12(x2,y2,x3,y3),x1,y1)
def reduce(G):
    cof=[Poly(),Poly(),Poly()]
    G=Poly(G)
    while True:
        for m in list(G):
            done=False
            for i in range(3):
                if m[2*i]>=2 and m[2*i+1]>=2 and m[6]>=1:
                    c=G[m]
                    q=list(m);q[2*i]-=2;q[2*i+1]-=2;q[6]-=1
                    t=Poly({tuple(q):-c})  # e_i = ... - d x2y2 ; G - t*e_i
                    cof[i]=cof[i]+t
                    G=G-t*e[i]
                    done=True;break
            if done: break
        else: break
    return G,cof
def show(P):
    s=[]
    for m,c in sorted(P.items()):
        s.append(f"{c}"+''.join(f"*{v}^{k}" if k>1 else f"*{v}" for v,k in zip(V,m) if k))
    return ' + '.join(s).replace('+ -','- ') if s else '0'
for (a,b) in((0,1),(2,3)):
    G=A[a]*B[b]-B[a]*A[b]
    print(len(G))
    R,cof=reduce(G)
    print(len(R),[len(c) for c in cof])
    for c in cof: print(show(c))

import random, math, sys
sys.setrecursionlimit(10000)
def isp(n):
    if n<2: return False
    for q in (2,3,5,7,11,13,17,19,23,29,31,37):
        if n%q==0: return n==q
    d=n-1;s=0
    while d%2==0: d//=2;s+=1
    for a in (2,3,5,7,11,13,17,19,23,29,31,37,41,43,47):
        x=pow(a,d,n)
        if x in(1,n-1): continue
        for _ in range(s-1):
            x=x*x%n
            if x==n-1: break
        else: return False
    return True
def rho(n):
    if n%2==0: return 2
    while True:
        c=random.randrange(1,n);y=random.randrange(n);m=256;g=r=q=1
        while g==1:
            x=y
            for _ in range(r): y=(y*y+c)%n
            k=0
            while k<r and g==1:
                ys=y
                for _ in range(min(m,r-k)):
                    y=(y*y+c)%n; q=q*abs(x-y)%n
                g=math.gcd(q,n);k+=m
            r*=2
            if r>1<<24: return None
        if g==n:
            g=1
            while g==1:
                ys=(ys*ys+c)%n; g=math.gcd(abs(x-ys),n)
        if g!=n: return g
known=[74058212732561358302231226437062788676166966415465897661863160754340907,75445702479781427272750846543864801,31757755568855353,198211423230930754013084525763697,276602624281642239937218680557139826668747,1919519569386763,72106336199]
def factor(n):
    if n==1: return []
    for k in known:
        if n%k==0 and n>k: return sorted(factor(k)+factor(n//k))
    if isp(n): return [n]
    for q in range(2,2000):
        if n%q==0: return sorted([q]+factor(n//q))
    f=rho(n)
    return sorted(factor(f)+factor(n//f))
done={}
def pratt(n):
    if n in done or n<1000: return
    fs=factor(n-1)
    for a in range(2,1000):
        if pow(a,n-1,n)==1 and all(pow(a,(n-1)//q,n)!=1 for q in set(fs)): break
    done[n]=(a,fs)
    for q in set(fs): pratt(q)
p=2**255-19; L=2**252+27742317777372353535851937790883648493
print(isp(p),isp(L))
pratt(p);pratt(L)
for n in sorted(done): print(n,done[n])

import random,sys
from fractions import Fraction as Q
def rnd(x,p=24):
    if x==0: return Q(0)
    s=1 if x>0 else -1; x=abs(x)
    e=0
    n,d=x.numerator,x.denominator
    k=n.bit_length()-d.bit_length()
    if Q(2)**k>x: k-=1
    q=Q(2)**(k-p+1)
    m=x/q; f=m.numerator//m.denominator; r=m-f
    if r>Q(1,2) or (r==Q(1,2) and f%2): f+=1
    return s*f*q
def mul(a,b): return rnd(a*b)
def add(a,b): return rnd(a+b)
def sub(a,b): return rnd(a-b)
def sarrus(L):
    (a,b,c),(d,e,f),(g,h,i)=L
    t=[mul(mul(a,e),i),mul(mul(b,f),g),mul(mul(c,d),h),mul(mul(a,f),h),mul(mul(b,d),i),mul(mul(c,e),g)]
    r=add(add(t[0],t[1]),t[2])
    return sub(sub(sub(r,t[3]),t[4]),t[5])
def det(L):
    (a,b,c),(d,e,f),(g,h,i)=L
    m0=sub(mul(e,i),mul(f,h)); m1=-sub(mul(d,i),mul(f,g)); m2=sub(mul(d,h),mul(e,g))
    return add(add(mul(a,m0),mul(b,m1)),mul(c,m2))
if __name__=='__main__':
    random.seed(1)
    best=None
    for B in (30,100,257,300,400,1000,5000):
        for _ in range(200000 if B<1000 else 20000):
            # sparse
            L=[[Q(random.choice([0,0,1,1,2,random.randint(1,B)])) for _ in range(3)] for _ in range(3)]
            s,d=sarrus(L),det(L)
            if d!=0 and s!=d:
                nz=sum(1 for r in L for x in r if x!=0)
                key=(nz,sum(x for r in L for x in r))
                if best is None or key<best[0]:
                    best=(key,L,s,d); print(B,[[int(x) for x in r] for r in L],float(s),float(d),s/d)
        if best: break

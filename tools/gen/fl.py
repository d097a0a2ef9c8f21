from fractions import Fraction as Fr
from math import isqrt
def mk(p,emin):
    def rnd(x):
        if x==0: return Fr(0)
        s=-1 if x<0 else 1; x=abs(x)
        e=x.numerator.bit_length()-x.denominator.bit_length()
        if Fr(2)**e> x: e-=1
        q=max(e-p+1,emin)
        m=x/Fr(2)**q
        n=m.numerator//m.denominator; r=m-n
        if r>Fr(1,2) or (r==Fr(1,2) and n%2): n+=1
        return s*n*Fr(2)**q
    def sq(x):
        # correctly rounded sqrt via high precision
        k=400
        v=isqrt((x.numerator<<(2*k))//x.denominator)
        lo=Fr(v,1<<k)
        if lo*lo==x: return rnd(lo)
        return rnd(lo+Fr(1,1<<(k+5)))
    return rnd,sq
for name,p,emin in (("f32",24,-149),("f64",53,-1074)):
    rnd,sq=mk(p,emin)
    c=0
    for a in range(1,60):
        for b in range(0,a+1):
            x,y=Fr(a),Fr(b)
            L=sq(rnd(rnd(x*x)+rnd(y*y)))
            nx,ny=rnd(x/L),rnd(y/L)
            d=rnd(rnd(nx*nx)+rnd(ny*ny))
            if d>1 and c<8: print(name,a,b,d-1,L,nx,ny); c+=1

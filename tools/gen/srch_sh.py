import random
def r(x):
    s=-1 if x<0 else 1; x=abs(x)
    e=max(0,x.bit_length()-24)
    n=x>>e; m=x-(n<<e)
    if e and (m*2>(1<<e) or (m*2==(1<<e) and n&1)): n+=1
    return s*(n<<e)
def tie(x):
    x=abs(x); e=max(0,x.bit_length()-24); return e and (x&((1<<e)-1))*2==(1<<e)
random.seed(1)
best=None
for _ in range(3000000):
    a=random.randint(1000,9000); b=random.randint(1000,9000)
    from math import gcd
    g=gcd(a,b)
    dx,dy=-b//g,a//g
    px=random.randint(1000,9000);py=random.randint(1000,9000)
    if g<100: 
        g2=random.choice([1]);
    f=lambda x,y:r(r(a*x)+r(b*y))
    q1=(px+dx,py+dy);q2=(px-dx,py-dy)
    P=f(px,py);A=f(*q1);B=f(*q2)
    if P<A and P<B or P>A and P>B:
        t=any(tie(v) for x,y in [(px,py),q1,q2] for v in (a*x,b*y,r(a*x)+r(b*y)))
        m=max(map(abs,(a,b,px,py)+q1+q2))
        if not t and (best is None or m<best[0]): best=(m,a,b,px,py,q1,q2,P,A,B); print(best)

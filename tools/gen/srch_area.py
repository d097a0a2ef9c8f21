import random
exec(open('/tmp/w/fl.py').read().split('for name')[0])
rnd,sq=mk(24,-149)
def tri(u,v):
    return rnd(rnd(-u[1]*v[0])+rnd(u[0]*v[1]))
def area(o,ps):
    t=Fr(0)
    for a,b in zip(ps,ps[1:]):
        t=rnd(t+tri((rnd(Fr(a[0]-o[0])),rnd(Fr(a[1]-o[1]))),(rnd(Fr(b[0]-o[0])),rnd(Fr(b[1]-o[1])))))
    return t
random.seed(1)
best=None
for it in range(60000):
    L=random.choice([4097,5000,6000,8000])
    a,b,c=[(L+random.randint(0,2),L+random.randint(0,2)) for _ in range(3)]
    D=(b[0]-a[0])*(c[1]-a[1])-(b[1]-a[1])*(c[0]-a[0])
    if D<=0: continue
    s=area((0,0),[a,b,c,a]); f=area(a,[b,c])
    assert f==D
    if s<0 or s==0:
        k=(s>=0,-D,L)
        if best is None or k<best[0]: best=(k,a,b,c,D,s); print(best)
best=None
for it in range(60000):
    R=random.choice([5000,6000,8000,10000])
    a,b,c=[(random.randint(0,R),random.randint(0,R)) for _ in range(3)]
    a=(0,0)
    D=(b[0]-a[0])*(c[1]-a[1])-(b[1]-a[1])*(c[0]-a[0])
    x=area(a,[b,c]); y=area(b,[c,a]); z=area(a,[c,b])
    assert z==-x
    if x!=y:
        k=max(abs(v) for p in(b,c) for v in p)
        if best is None or k<best[0]: best=(k,a,b,c,D,x,y); print(best)

exec(open('/tmp/w/srch_area.py').read().split('random.seed')[0])
random.seed(2)
best=None
for it in range(100000):
    L=random.randint(4097,30000);M=random.randint(4097,30000)
    a,b,c=[(L+random.randint(0,2),M+random.randint(0,2)) for _ in range(3)]
    D=(b[0]-a[0])*(c[1]-a[1])-(b[1]-a[1])*(c[0]-a[0])
    if D<=0: continue
    s=area((0,0),[a,b,c,a])
    if s<0:
        k=(D,max(L,M))
        if best is None or k<best[0]: best=(k,a,b,c,D,s); print(best)

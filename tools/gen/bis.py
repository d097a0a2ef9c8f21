from fractions import Fraction as Fr
exec(open('/tmp/w/fl.py').read().split('for name')[0])
for p,emin,emax in ((2,-4,3),(3,-5,3),(4,-5,3),(5,-6,2)):
    rnd,_=mk(p,emin)
    fl=set()
    x=Fr(0)
    for m in range(2**p):
        for e in range(emin,emax):
            fl.add(m*Fr(2)**e)
    fl=sorted(fl|{-x for x in fl}); 
    bad=0
    for i,lo in enumerate(fl):
        for j in range(i+2,len(fl)):
            hi=fl[j]
            c=rnd(lo+rnd(rnd(hi-lo)/2))
            if not lo<c<hi:
                bad+=1
                if bad<5: print(p,emin,lo,hi,c)
    print(p,emin,len(fl),bad)
for p,emin,emax in ((3,-5,3),(4,-5,3),(5,-6,2),(6,-6,2)):
    rnd,_=mk(p,emin)
    fl=set()
    for m in range(2**p):
        for e in range(emin,emax):
            fl.add(m*Fr(2)**e)
    fl=sorted(fl|{-x for x in fl}); 
    w=0;ws=[]
    for i,lo in enumerate(fl):
        for j in range(i+2,len(fl)):
            hi=fl[j]
            c=rnd(lo+rnd(rnd(hi-lo)/2))
            r=max(c-lo,hi-c)/(hi-lo)
            if r>w: w=r;ws=[(lo,hi,c)]
    print(p,float(w),ws)

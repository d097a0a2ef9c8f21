exec(open('/tmp/w/fl.py').read().split('for name')[0])
rnd,sq=mk(24,-149)
for a in (3,):
    x=Fr(a); L=sq(rnd(rnd(x*x)*2)); q=rnd(x/L)
    for m in range(1,5):
        w=rnd(q*m); s=rnd(w*w); L2=sq(s*2)
        if L2>m:
            w2=rnd(rnd(w/L2)*m)
            print(a,m,L,q,w,s,L2,w2,w2==w)

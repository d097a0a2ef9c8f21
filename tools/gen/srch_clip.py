exec(open('/tmp/w/fl.py').read().split('for name')[0])
rnd,sq=mk(24,-149)
c=0
for m in range(1,60):
  for p in range(0,m+1):
    for d in range(-m,p):
      for q in ([-m] if abs(p)<m else range(-m,d)):
        if q>=d: continue
        t=rnd(Fr(d-p,q-p)); u=rnd((q-p)*t); x=rnd(p+u)
        if x<d:
            print(p,d,q,t,u,x); c+=1
            if c>6: raise SystemExit

import sys; sys.path.insert(0,'/tmp/w')
exec(open('/tmp/w/fl.py').read().split('for name')[0])
rnd,sq=mk(24,-149)
def ln(v): 
    s=rnd(v[0]*v[0])
    for c in v[1:]: s=rnd(s+rnd(c*c))
    return sq(s)
def limit(v,m):
    L=ln(v)
    if m<L: return tuple(rnd(rnd(c/L)*m) for c in v)
    return v
def towards(p,t,s):
    d=tuple(rnd(b-a) for a,b in zip(p,t))
    L=ln(d)
    if L<=s: return t
    return tuple(rnd(a+rnd(rnd(c/L)*s)) for a,c in zip(p,d))
out=[]
for a in range(1,40):
    for b in range(a,40):
        v=(Fr(a),Fr(b))
        for m in (Fr(1),Fr(2),Fr(3)):
            w=limit(v,m); x=limit(w,m)
            if ln(w)>m: 
                print("limit",a,b,m,float(ln(w)), x==w); out.append(1)
                break
    if len(out)>12: break
c=0
for a in range(1,60):
    for b in range(a,60):
        p=(Fr(0),Fr(0)); t=(Fr(a),Fr(b))
        L=ln(t)
        import math
        for s in ( L-Fr(2)**(math.floor(math.log2(L))-23),  ):
            q=towards(p,t,s)
            if q[0]>t[0] or q[1]>t[1]:
                print("over",a,b,L,s,q,t); c+=1
    if c>8: break

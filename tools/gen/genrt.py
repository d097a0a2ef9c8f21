exec(open('/tmp/w/genrm.py').read())
def sub3(n):
    d=sub(n); D=n-1; cs='xyz'[:D]
    d['SXS']=" ".join('s'+c for c in cs); d['SFIN']=" ∧ ".join('IsFinite s'+c for c in cs)
    d['SREAL']=", ".join('real s'+c for c in cs); d['SSS']=" ".join('s' for c in cs)
    return d
tm=open('/tmp/w/rt_tmpl.lean').read()
open('/verif/lean/Verif/Lemmas/RealTr.lean','w').write(open('/tmp/w/rt_head.lean').read()+T(tm).substitute(sub3(3))+T(tm).substitute(sub3(4))+open('/tmp/w/rt_tail.lean').read())

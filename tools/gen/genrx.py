exec(open('/tmp/w/genrm.py').read())
def sub2(n):
    d=sub(n); d['RH']=" | ".join(["rfl"]*(n-1)); return d
tm=open('/tmp/w/rx_tmpl.lean').read()
open('/verif/lean/Verif/Props/RealMatrix.lean','w').write(open('/tmp/w/rx_head.lean').read()+T(tm).substitute(sub2(3))+T(tm).substitute(sub2(4))+open('/tmp/w/rx_tail.lean').read())

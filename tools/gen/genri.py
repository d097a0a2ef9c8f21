import string,os
class T(string.Template): delimiter='$'
B='/tmp/w/'
tm=open(B+'ri_tmpl.lean').read()
out=open(B+'ri_head.lean').read()
for n in (3,4): out+=T(tm).substitute(M=f"Matrix{n}x{n}")
open('/verif/lean/Verif/Lemmas/RealInv.lean','w').write(out+"end VecMath\n")

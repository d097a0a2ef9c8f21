import string
class T(string.Template): delimiter='$'
def sub(n):
    N=n*n; D=n-1; cs='xyz'[:D]
    M=f"Matrix{n}x{n}"
    d=dict(D=str(D),N=str(N),M=M,P=f"Point{D}",V=f"Vector{D}",T=f"Transform{D}")
    d['SIMP_MM']=", ".join(f"{M}.mm_{k}" for k in range(N))+", "+", ".join(f"{M}.transpose_{k}" for k in range(N))
    d['SIMP_ID']=", ".join(f"{M}.identity_{k}" for k in range(N))
    d['SIMP_TL']=", ".join(f"{M}.translate_{k}" for k in range(N))
    d['SIMP_SC']=", ".join(f"{M}.scale_{k}" for k in range(N))
    d['SIMP_PV']=", ".join(f"{M}.{t}_{c}" for c in cs for t in ('mulp','mulv','pmul','vmul'))
    d['SIMP_TR']=", ".join(f"{M}.transpose_{k}" for k in range(N))
    d['HOLES']=", ".join(["?_"]*N); d['HOLESP']=", ".join(["?_"]*D)
    d['HS']=", ".join(f"h{k}" for k in range(N))
    d['HPS']=", ".join(f"hp{c}" for c in cs)
    d['HUS']=", ".join(f"hu{c}" for c in cs)
    d['HVS']=", ".join(f"hv{c}" for c in cs)
    d['HFS']=", ".join(f"hs{c}" for c in cs)
    d['FACT']=" ".join('s'+c for c in cs)
    d['RECIP']=" ".join(f'(recip s{c})' for c in cs)
    d['FHYP']=" ".join(f"(hs{c} : IsFinite s{c})" for c in cs)
    d['SP']=" ".join(f"(s{c} * p.{c})" for c in cs)
    d['SU']=" ".join(f"(s{c} * u.{c})" for c in cs)
    d['SSS']=" ".join("s" for c in cs)
    d['ZDISJ']=" ∨ ".join(f"(s{c} == zero) = true" for c in cs)
    d['ONES']=" ".join(["one"]*D)
    d['VADD']=", ".join(f"{d['P']}.addv_{c}" for c in cs)
    d['RC']=" | ".join(["h"]*D)
    s="same_mul_comm _ _"
    t=f"({s})"
    for _ in range(n-1): t=f"Same.add ({t}) (same_mul_comm _ _)"
    d['SAMEADD']=t
    d['NUMX']="\n".join([])
    d['ADDZ']=f", {d['P']}.add_z" if n==4 else ''
    d['NEGZ']=f", {d['V']}.neg_z" if n==4 else ''
    d['ZCASES']='\n  '.join(f'· exact ⟨recip s{c}, by simp [Comps.comps, {d[chr(84)]}.scale, {d[chr(84)]}.new, {M}.scale, {M}.new], key _ h⟩' for c in cs)
    return d
tm=open('/tmp/w/fm_tmpl.lean').read()
hd=open('/tmp/w/fm_head.lean').read()
open('/verif/lean/Verif/Props/FloatMatrix.lean','w').write(hd+T(tm).substitute(sub(3))+T(tm).substitute(sub(4))+open('/tmp/w/fm_tail.lean').read())

import string
class T(string.Template): delimiter='$'
def sub(n):
    N=n*n; D=n-1; cs='xyz'[:D]; M=f"Matrix{n}x{n}"
    d=dict(n=str(n),N=str(N),D=str(D),M=M,P=f"Point{D}",V=f"Vector{D}",Tr=f"Transform{D}")
    d['PXS']=", ".join(f"real p.{c}" for c in cs)
    d['MAT']="; ".join(", ".join(f"real m.m[{i*n+j}]" for j in range(n)) for i in range(n))
    d['HOLES']=", ".join(["?_"]*N)
    d['ASSOC']=", add_assoc"
    d['VINJ']="\n  ".join(f"· exact congrFun h {i}" for i in range(D))
    d['WEXP']=" + ".join(f"m.m[{D*n+l}] * p.{cs[l]}" for l in range(D))+f" + m.m[{N-1}]"
    d['HFP']=", ".join("hf _ ?_" for c in cs)
    return d
hd='''import Verif.Lemmas.Real
import Verif.Spec.Real
import Mathlib.LinearAlgebra.Matrix.NonsingularInverse
/-!
# From exact matrices to real matrices

On finite matrices over `Ideal` the crate's matrix operations are the real matrix operations, and `m * p` is
the projective action in homogeneous coordinates. (Generated by tools/genrm.py.)
-/

set_option linter.unusedSimpArgs false
set_option linter.unusedVariables false

namespace VecMath
open Scalar IEEE

'''
tm=open('/tmp/w/rm_tmpl.lean').read()
open('/verif/lean/Verif/Lemmas/RealMat.lean','w').write(hd+T(tm).substitute(sub(3))+T(tm).substitute(sub(4))+open('/tmp/w/rm_tail.lean').read())

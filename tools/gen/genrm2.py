exec(open('/tmp/w/genrm.py').read())
hd='''import Verif.Spec.Basic
import Mathlib.LinearAlgebra.Matrix.Determinant.Basic
/-!
# Vocabulary for matrices and transforms in exact real arithmetic

Homogeneous coordinates, linear part, affine matrices, rigid transforms. (Generated by tools/gen.)
-/

namespace VecMath
open Scalar IEEE

'''
tm=open('/tmp/w/sr_tmpl.lean').read()
open('/verif/lean/Verif/Spec/Real.lean','w').write(hd+T(tm).substitute(sub(3))+T(tm).substitute(sub(4))+"end VecMath\n")

import string
class T(string.Template): delimiter='$'
tm=open('/tmp/w/rv_tmpl.lean').read()
hd='''import Verif.Lemmas.Real
import Mathlib.LinearAlgebra.Matrix.DotProduct
/-!
# Vectors, points and rays in exact real arithmetic (layer R): C04, C06-C08, C10-C16, C23

All statements are about `Ideal`: the crate's code run on exact reals (with IEEE infinities and NaN for
division by zero). `toReal` lists the real components.
-/

set_option linter.unusedSimpArgs false

namespace VecMath
open Scalar IEEE

'''
open('/verif/lean/Verif/Props/RealVector.lean','w').write(hd+T(tm).substitute(D='2')+T(tm).substitute(D='3')+open('/tmp/w/rv_tail.lean').read())

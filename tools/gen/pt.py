p='/verif/DESIGN.md'
s=open(p).read().split('\n')
i=[k for k,l in enumerate(s) if l.startswith('| C114 |')][0]
s[i+1:i+1]=['| C115 | any scalar, F | `Spec/Param`: a relation between the values of two scalar types, and its lifting to every type of the crate (Mathlib\'s `Relator.LiftFun`). One lemma per function (`Props/Param2`, `Param3`, 286 in all), each following the code operation by operation; `Props/ParamAll` states them type by type. `Spec/Platform`: two `IEEE` instances of one format; equality of data is kept by all but `min`/`max`, equality of numbers by all but division; functions that divide first and take minima afterwards are treated with both relations (`rel_intersectRay\'`, `rel_transform_box\'`). Sharpness: a second implementation (`Alt`) whose `min` returns the other zero |','| C116 | F | `SameNumber` on one format is kept by everything but division (C115). `normalize`: a square, a sum of squares and its root never carry a minus sign (`neg?_length`), so both divide by the same datum. `inverse`: the zero determinant is tested first. Ray: opposite zeros in the direction exchange the two infinite crossings of a slab or make it unreachable (`slab_flip`). Witnesses in every format |']
t='\n'.join(s).replace("C114 the frame of a long direction collapses to zero vectors.","C114 the frame of a long direction collapses to zero vectors;\nC116 whether a ray without direction hits a box depends on the signs of its zeros.")
open(p,'w').write(t)

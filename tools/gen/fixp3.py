s=open('/tmp/w/plane.py').read()
s=s.replace("""/-- The client's frustum test""","""/-- Another common test: the center and half the extents along the normal. -/
def {B}.behindCenter (n : {V} S) (o : {P} S) (b : {B} S) : Bool :=
  (Api.dot n (b.center - o : {V} S) : S) + (Api.dot (Api.abs n : {V} S) b.diagonal : S) * half <? Scalar.zero
/-- The client's frustum test""",1)
s=s.replace("'/tmp/d/FloatPlane.lean'","'/verif/lean/Verif/Props/FloatPlane.lean'")
open('/tmp/w/plane.py','w').write(s)

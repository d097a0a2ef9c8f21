spec = open('/tmp/d/Triangle.lean').read()
if 'triPerm' not in spec:
    spec = spec.replace('''/-- The ray is parallel''','''/-- The sum of the absolute values of the six terms of `p · (q × r)`. -/
def triPerm (p q r : Fin 3 → ℝ) : ℝ :=
  |p 0| * (|q 1| * |r 2| + |q 2| * |r 1|) + |p 1| * (|q 2| * |r 0| + |q 0| * |r 2|) + |p 2| * (|q 0| * |r 1| + |q 1| * |r 0|)
/-- The ray is parallel''')
    spec = spec.replace('''def Triangle.Finite (k : Triangle S) : Prop := AllFinite k.a ∧ AllFinite k.b ∧ AllFinite k.c
end''','''def Triangle.Finite (k : Triangle S) : Prop := AllFinite k.a ∧ AllFinite k.b ∧ AllFinite k.c
/-- None of the four numbers computed for the test, and neither the sum of two of them, overflows. -/
def Ray3.TriFinite (r : Ray3 S) (k : Triangle S) : Prop :=
  IsFinite (r.triDet k) ∧ IsFinite (r.triT k) ∧ IsFinite (r.triU k + r.triV k)
/-- The error bound for `p · (q × r)`: eight roundings relative to the terms, and the underflow of numbers up to `M` times the smallest. -/
noncomputable def triErr (S : Type) [Scalar S] [IEEE S] [Binary S] (M : ℝ) (p q r : Fin 3 → ℝ) : ℝ :=
  ((1 + uro S) ^ 8 - 1) * triPerm p q r + 3 * (1 + uro S) ^ 5 * (2 * M + 1) * tiny S
end''')
open('/tmp/d/Triangle.lean','w').write(spec)
open('/verif/lean/Verif/Spec/Triangle.lean','w').write(spec)

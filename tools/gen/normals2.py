out='''import Verif.Props.FloatErrorMat
import Verif.Props.FloatMatrix
import Verif.Spec.Det
/-!
# Normals under transformation in floating point (layer F): C106

A client transforms the normal `n` of a surface with the row product `n * &t.inverse`. (Generated by tools/gen.)
-/

namespace VecMath
open Scalar IEEE
section
variable {S : Type} [Scalar S] [IEEE S]
'''
for n,N,k in ((2,3,9),(3,4,16)):
    M=f'Matrix{N}x{N}'; X='xyz'[:n]
    rots=[('rotate','a')] if n==2 else [('rotateX','a'),('rotateY','a'),('rotateZ','a'),('rotateAxis','k a')]
    stm=' ∧\n    '.join(f'SameAll (n * (Transform{n}.{r} {a}).inverse) (Transform.transform (Transform{n}.{r} {a}) n : Vector{n} S)' for r,a in rots)
    out+=f'''
/-- **C106** ({n}D): transforming a normal by a translation, whatever the offset, leaves it unchanged. -/
theorem C106_float_translate{n} (v n : Vector{n} S) (hn : AllFinite n) : (n * (Transform{n}.translate v).inverse == n) = true := by
  show (n * {M}.translate (-v) == n) = true
  rw [Vector{n}.allFinite] at hn
  rw [Vector{n}.beq_iff]
  refine ⟨{', '.join(['?_']*n)}⟩ <;> refine beq_of_num' ?_ (IsFinite.not_nan (by first | exact hn.1 | exact hn.2 | exact hn.2.1 | exact hn.2.2)) <;>
    mat_simp [] <;> num_simp [{', '.join('hn'+('.2'*i)+('.1' if i<n-1 else '') for i in range(n))}]

/-- **C106** ({n}D): transforming a normal by a scaling multiplies each component by the reciprocal of the factor. -/
theorem C106_float_scale{n} ({' '.join('s'+c for c in X)} : S) (n : Vector{n} S) (hn : AllFinite n) {' '.join(f'(h{c} : IsFinite (recip s{c}))' for c in X)} :
    (n * (Transform{n}.scale {' '.join('s'+c for c in X)}).inverse == Vector{n}.new {' '.join(f'(n.{c} * recip s{c})' for c in X)}) = true := by
  show (n * {M}.scale {' '.join(f'(recip s{c})' for c in X)} == Vector{n}.new {' '.join(f'(n.{c} * recip s{c})' for c in X)}) = true
  rw [Vector{n}.allFinite] at hn
  rw [Vector{n}.beq_iff]
  refine ⟨{', '.join(['?_']*n)}⟩ <;> refine beq_of_num' ?_ (IEEE.isNaN_mul_finite (by first | exact hn.1 | exact hn.2 | exact hn.2.1 | exact hn.2.2) (by assumption)) <;>
    mat_simp [Vector{n}.new] <;> num_simp [{', '.join('hn'+('.2'*i)+('.1' if i<n-1 else '') for i in range(n))}, {', '.join('h'+c for c in X)}]

/-- **C106** ({n}D): transforming a normal by a rotation gives bit for bit the rotated vector. -/
theorem C106_float_rotate{n} (n : Vector{n} S) (a : S){' (k : Vector3 S)' if n==3 else ''} :
    {stm} := by
  have key : ∀ m : {M} S, SameAll (n * m.transpose) (m * n) := by
    intro m
    rw [Vector{n}.sameAll]
    mat_simp []
    refine ⟨{', '.join(['?_']*n)}⟩ <;> simp only [Same, den_add, den_mul, Rounding.mul_comm]
  exact {'key _' if n==2 else '⟨key _, key _, key _, key _⟩'}
'''
out+='''end

section
open Classical
variable {S : Type} [Scalar S] [IEEE S] [Binary S]
'''
for n,N,k in ((2,3,9),(3,4,16)):
    M=f'Matrix{N}x{N}'; X='xyz'[:n]
    num={2:'two',3:'three'}[n]
    out+=f'''
/-- **C106** ({n}D): every finite component of a transformed normal is within `(1+u)^{n} - 1` of the exact one, relative to
the magnitudes of the products, plus the underflow of the products. -/
theorem C106_float{n} (n : Vector{n} S) (m : {M} S) (h : AllFinite (n * m)) (i : Fin {n}) :
    |(n * m).toReal i - ∑ j : Fin {n}, n.toReal j * m.toReal j.castSucc i.castSucc| ≤
      ((1 + uro S) ^ {n} - 1) * ∑ j : Fin {n}, |n.toReal j * m.toReal j.castSucc i.castSucc| +
        (1 + uro S){' ^ 2' if n==3 else ''} * ({n} * tiny S) := by
  rw [Vector{n}.allFinite] at h
  rw [Fin.sum_univ_{num}, Fin.sum_univ_{num}]
  fin_cases i
'''
    for i in range(n):
        out+=f"  · exact row{n} h{'.2'*i+('.1' if i<n-1 else '')}\n"
out+='end\n\nend VecMath\n'
open('/verif/lean/Verif/Props/FloatNormal.lean','w').write(out)

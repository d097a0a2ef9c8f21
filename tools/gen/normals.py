T=open('/tmp/w/normals.tpl').read()
out='''import Verif.Props.RealTransform
import Mathlib.LinearAlgebra.Matrix.DotProduct
/-!
# Normals and planes under transformation, in exact real arithmetic (layer R): C106

A plane is a point `o` of it and a normal `n`; its points are the `p` with `dot(n, p - o) == 0`. A client transforms
`o` with `transform(o)` and the normal with the row product `n * &t.inverse`. (Generated by tools/gen.)
-/

namespace VecMath
open Scalar IEEE
'''
for n,N,k in ((2,3,9),(3,4,16)):
    s=T.replace('@n',str(n)).replace('@M',f'Matrix{N}x{N}').replace('@F',f'Fin {n}').replace('@O','⟨'+', '.join(f'.of (w {i})' for i in range(n))+'⟩').replace('@Q','⟨'+', '.join(['trivial']*n)+'⟩').replace('@P','by ext i; fin_cases i <;> rfl').replace('@k',str(k))
    if n==2:
        i=s.index('--CROSS'); s=s[:i]
    else: s=s.replace('--CROSS\n','')
    out+=f'\n/-! ## {n}D -/\n'+s
out+='\nend VecMath\n'
open('/verif/lean/Verif/Props/RealNormal.lean','w').write(out)
out=open('/verif/lean/Verif/Props/RealNormal.lean').read().replace('\nend VecMath\n','''
/-! ## A normal must not be transformed like a vector -/

theorem scale_ok : (IsFinite (Ideal.of 2) ∧ real (Ideal.of 2) ≠ 0) ∧ (IsFinite (Ideal.of 1) ∧ real (Ideal.of 1) ≠ 0) :=
  ⟨⟨trivial, by norm_num⟩, ⟨trivial, by norm_num⟩⟩
theorem built_scale2 : BuiltAffine2 (Transform2.scale (Ideal.of 2) (Ideal.of 1)) := .scale _ _ scale_ok
theorem built_scale3 : BuiltAffine3 (Transform3.scale (Ideal.of 2) (Ideal.of 1) (Ideal.of 1)) :=
  .scale _ _ _ ⟨scale_ok.1, scale_ok.2, scale_ok.2⟩

/-- **C106**: transforming a normal like a vector does not keep it perpendicular when the transform is not rigid:
`n = (1, -1)` and `v = (1, 1)` under `scale(2, 1)`. -/
theorem C106_not_like_vector2 : ∃ (t : Transform2 Ideal) (n v : Vector2 Ideal), BuiltAffine2 t ∧ AllFinite n ∧ AllFinite v ∧
    (Api.dot n v == (zero : Ideal)) = true ∧
    (Api.dot (Transform.transform t n : Vector2 Ideal) (Transform.transform t v : Vector2 Ideal) == (zero : Ideal)) = false ∧
    (Api.dot (n * t.inverse) (Transform.transform t v : Vector2 Ideal) == (zero : Ideal)) = true := by
  have f1 : AllFinite (⟨.of 1, .of (-1)⟩ : Vector2 Ideal) := Vector2.allFinite.2 ⟨trivial, trivial⟩
  have f2 : AllFinite (⟨.of 1, .of 1⟩ : Vector2 Ideal) := Vector2.allFinite.2 ⟨trivial, trivial⟩
  have fm : AllFinite (Matrix3x3.scale (Ideal.of 2) (Ideal.of 1)) := Matrix3x3.fin_scale ⟨trivial, trivial⟩
  have e0 : (Api.dot (⟨.of 1, .of (-1)⟩ : Vector2 Ideal) (⟨.of 1, .of 1⟩ : Vector2 Ideal) == (zero : Ideal)) = true := by
    rw [Ideal.beq_real (Vector2.fin_dot f1 f2) finite_zero, Vector2.real_dot f1 f2, real_zero]
    simp [Vector2.toReal, dotProduct, Fin.sum_univ_two]
  refine ⟨Transform2.scale (.of 2) (.of 1), ⟨.of 1, .of (-1)⟩, ⟨.of 1, .of 1⟩, built_scale2, f1, f2, e0, ?_, ?_⟩
  · rw [← Bool.not_eq_true]
    show ¬ (Api.dot (Matrix3x3.scale (Ideal.of 2) (Ideal.of 1) * (⟨.of 1, .of (-1)⟩ : Vector2 Ideal))
      (Matrix3x3.scale (Ideal.of 2) (Ideal.of 1) * (⟨.of 1, .of 1⟩ : Vector2 Ideal)) == (zero : Ideal)) = true
    have g1 := Matrix3x3.fin_mulv fm f1
    have g2 := Matrix3x3.fin_mulv fm f2
    rw [Ideal.beq_real (Vector2.fin_dot g1 g2) finite_zero, Vector2.real_dot g1 g2, real_zero, Matrix3x3.toReal_mulv' fm f1,
      Matrix3x3.toReal_mulv' fm f2, Matrix3x3.linear_scale]
    simp [Vector2.toReal, dotProduct, Fin.sum_univ_two, Matrix.mulVec_diagonal]
    norm_num
  · have g1 := Matrix3x3.fin_rowv f1 (built_inv2 (fun m hm => hm.1) _ built_scale2).2.1
    have g2 := Matrix3x3.fin_mulv fm f2
    have := C106_dot2 built_scale2 _ _ f1 f2
    exact (Ideal.beq_real (Vector2.fin_dot g1 g2) finite_zero).2 (((Ideal.beq_real (Vector2.fin_dot g1 g2) (Vector2.fin_dot f1 f2)).1 this).trans
      ((Ideal.beq_real (Vector2.fin_dot f1 f2) finite_zero).1 e0))

/-! ## The hypotheses are met by concrete, non-trivial values -/

example := C106_unique2 built_scale2 exV2 (exV2 * (Transform2.scale (Ideal.of 2) (Ideal.of 1)).inverse) exV2_fin
  (Matrix3x3.fin_rowv exV2_fin (built_inv2 (fun m hm => hm.1) _ built_scale2).2.1) (fun v hv => C106_dot2 built_scale2 _ v exV2_fin hv)
/-- a shear with translation from `try_from`; a plane and a ray that is not parallel to it -/
example : ∃ (t : Transform3 Ideal) (n : Vector3 Ideal) (o : Point3 Ideal) (r : Ray3 Ideal), BuiltAffine3 t ∧ t.forward = exA4 ∧
    AllFinite n ∧ AllFinite o ∧ AllFinite r ∧ (Api.dot n r.direction == (zero : Ideal)) = false := by
  obtain ⟨t, e, h⟩ := exists_tr3
  refine ⟨t, exV3, exP3, ⟨exP3, exV3⟩, h, e, exV3_fin, exP3_fin, by rw [Ray3.allFinite]; exact ⟨exP3_fin, exV3_fin⟩, ?_⟩
  rw [← Bool.not_eq_true, Ideal.beq_real (Vector3.fin_dot exV3_fin exV3_fin) finite_zero, Vector3.real_dot exV3_fin exV3_fin, real_zero]
  simp [Vector3.toReal, dotProduct, Fin.sum_univ_three, exV3]
  norm_num
example := C106_compose3 built_scale3 (Built3.rotateAxis exV3 (.of 1) exV3_fin exV3_ne trivial) exV3 exV3_fin
example := C106_rigid3 (.andThen _ _ (.translate exV3 exV3_fin) (.rotateAxis exV3 (.of 1) exV3_fin exV3_ne trivial)) exV3 exV3_fin
/-- `scale(2, 1, 1)` has determinant 2 -/
example := C106_cross built_scale3 exV3 ⟨.of 1, .of 0, .of 0⟩ exV3_fin (Vector3.allFinite.2 ⟨trivial, trivial, trivial⟩) (.of 2) trivial (by
  show _ = (Matrix4x4.scale (Ideal.of 2) (Ideal.of 1) (Ideal.of 1)).linear.det
  rw [Matrix4x4.linear_scale, Matrix.det_diagonal]
  simp [Fin.prod_univ_three])
end VecMath
''')
open('/verif/lean/Verif/Props/RealNormal.lean','w').write(out)

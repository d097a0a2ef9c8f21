import Verif.Props.RealTransform
import Mathlib.LinearAlgebra.Matrix.DotProduct
/-!
# Normals and planes under transformation, in exact real arithmetic (layer R): C106

A plane is a point `o` of it and a normal `n`; its points are the `p` with `dot(n, p - o) == 0`. A client transforms
`o` with `transform(o)` and the normal with the row product `n * &t.inverse`. (Generated by tools/gen.)
-/

namespace VecMath
open Scalar IEEE

/-! ## 2D -/

/-- The transforms a program can build when only finite affine matrices are passed to `try_from` (C52). -/
abbrev BuiltAffine2 (t : Transform2 Ideal) : Prop := Built2 (fun m => AllFinite m ∧ m.Affine) t

section
variable {m : Matrix3x3 Ideal} {u v : Vector2 Ideal}
theorem Matrix3x3.fin_rowv (hv : AllFinite v) (hm : AllFinite m) : AllFinite (v * m) := by
  rw [Matrix3x3.allFinite, forall_lt_9] at hm
  rw [Vector2.allFinite] at hv ⊢
  mat_simp []
  simp (maxDischargeDepth := 20) only [Ideal.finite_add, Ideal.finite_mul, hm, hv, and_self]
theorem Matrix3x3.toReal_rowv (hv : AllFinite v) (hm : AllFinite m) :
    (v * m).toReal = Matrix.vecMul v.toReal m.linear := by
  rw [Matrix3x3.allFinite, forall_lt_9] at hm
  rw [Vector2.allFinite] at hv
  unfold Matrix3x3.linear
  rw [Matrix3x3.toReal_eq, Vector2.toReal]
  mat_simp []
  simp (maxDischargeDepth := 20) only [Ideal.real_add, Ideal.finite_add, Ideal.finite_mul, Ideal.real_mul, hm, hv]
  ext i
  fin_cases i <;> simp [Matrix.vecMul, dotProduct, Fin.sum_univ_succ, Vector2.toReal, add_assoc]
end

section
variable {t : Transform2 Ideal}
theorem built_linear2 (h : BuiltAffine2 t) : t.inverse.linear * t.forward.linear = 1 ∧
    t.forward.linear * t.inverse.linear = 1 := by
  obtain ⟨f, g, p⟩ := built_inv2 (fun m hm => hm.1) t h
  obtain ⟨a1, a2⟩ := built_affine2 t h
  have h1 : t.forward.linear * t.inverse.linear = 1 := by
    rw [← a2.linear_mul f g, ← Matrix3x3.linear_identity]
    unfold Matrix3x3.linear
    rw [Matrix3x3.toReal_mul f g, (Transform2.paired_iff f g).1 p, Matrix3x3.toReal_identity]
  exact ⟨mul_eq_one_comm.1 h1, h1⟩

/-- **C106** (2D): a normal `n` transformed by `n * &t.inverse` has, with every transformed vector, the same dot
product as before; in particular it stays perpendicular to the transformed surface. -/
theorem C106_dot2 (h : BuiltAffine2 t) (n v : Vector2 Ideal) (hn : AllFinite n) (hv : AllFinite v) :
    (Api.dot (n * t.inverse) (Transform.transform t v : Vector2 Ideal) == Api.dot n v) = true := by
  obtain ⟨f, g, -⟩ := built_inv2 (fun m hm => hm.1) t h
  show (Api.dot (n * t.inverse) (t.forward * v) == Api.dot n v) = true
  have f1 := Matrix3x3.fin_rowv hn g
  have f2 := Matrix3x3.fin_mulv f hv
  rw [Ideal.beq_real (Vector2.fin_dot f1 f2) (Vector2.fin_dot hn hv), Vector2.real_dot f1 f2, Vector2.real_dot hn hv,
    Matrix3x3.toReal_rowv hn g, Matrix3x3.toReal_mulv' f hv, Matrix.dotProduct_mulVec, Matrix.vecMul_vecMul, (built_linear2 h).1,
    Matrix.vecMul_one]

/-- **C106** (2D): it is the only vector with that property. -/
theorem C106_unique2 (h : BuiltAffine2 t) (n n' : Vector2 Ideal) (hn : AllFinite n) (hn' : AllFinite n')
    (e : ∀ v : Vector2 Ideal, AllFinite v →
      (Api.dot n' (Transform.transform t v : Vector2 Ideal) == Api.dot n v) = true) :
    (n' == n * t.inverse) = true := by
  obtain ⟨f, g, -⟩ := built_inv2 (fun m hm => hm.1) t h
  have f1 := Matrix3x3.fin_rowv hn g
  rw [Vector2.beq_toReal hn' f1, Matrix3x3.toReal_rowv hn g]
  have key : Matrix.vecMul n'.toReal t.forward.linear = n.toReal := by
    refine (dotProduct_eq_iff).1 fun w => ?_
    have fw : AllFinite (⟨.of (w 0), .of (w 1)⟩ : Vector2 Ideal) := Vector2.allFinite.2 ⟨trivial, trivial⟩
    have := e (⟨.of (w 0), .of (w 1)⟩ : Vector2 Ideal) fw
    have f2 := Matrix3x3.fin_mulv f fw
    rw [show (Transform.transform t (⟨.of (w 0), .of (w 1)⟩ : Vector2 Ideal) : Vector2 Ideal) = t.forward * (⟨.of (w 0), .of (w 1)⟩ : Vector2 Ideal) from rfl,
      Ideal.beq_real (Vector2.fin_dot hn' f2) (Vector2.fin_dot hn fw), Vector2.real_dot hn' f2, Vector2.real_dot hn fw,
      Matrix3x3.toReal_mulv' f fw, Matrix.dotProduct_mulVec, show (⟨.of (w 0), .of (w 1)⟩ : Vector2 Ideal).toReal = w from by ext i; fin_cases i <;> rfl] at this
    exact this
  rw [← key, Matrix.vecMul_vecMul, (built_linear2 h).2, Matrix.vecMul_one]

/-- **C106** (2D): `dot(n, p - o)`, whose sign is the side of the plane `p` is on, is unchanged when the plane and the
point are transformed. -/
theorem C106_plane2 (h : BuiltAffine2 t) (n : Vector2 Ideal) (o p : Point2 Ideal) (hn : AllFinite n) (ho : AllFinite o)
    (hp : AllFinite p) :
    (Api.dot (n * t.inverse) ((Transform.transform t p : Point2 Ideal) - (Transform.transform t o : Point2 Ideal) : Vector2 Ideal)
      == Api.dot n (p - o : Vector2 Ideal)) = true := by
  obtain ⟨f, g, -⟩ := built_inv2 (fun m hm => hm.1) t h
  obtain ⟨a1, a2⟩ := built_affine2 t h
  show (Api.dot (n * t.inverse) (t.forward * p - t.forward * o : Vector2 Ideal) == Api.dot n (p - o : Vector2 Ideal)) = true
  have f1 := Matrix3x3.fin_rowv hn g
  have f2 := a1.fin_mulp f hp
  have f3 := a1.fin_mulp f ho
  have f4 := Vector2.fin_subp f2 f3
  have f5 := Vector2.fin_subp hp ho
  rw [Ideal.beq_real (Vector2.fin_dot f1 f4) (Vector2.fin_dot hn f5), Vector2.real_dot f1 f4, Vector2.real_dot hn f5,
    Matrix3x3.toReal_rowv hn g, Vector2.toReal_subp f2 f3, a1.toReal_mulp f hp, a1.toReal_mulp f ho, add_sub_add_right_eq_sub,
    ← Matrix.mulVec_sub, Matrix.dotProduct_mulVec, Matrix.vecMul_vecMul, (built_linear2 h).1,
    Matrix.vecMul_one, Vector2.toReal_subp hp ho]

/-- **C106** (2D): the ray parameter at which a ray meets the plane is unchanged when both are transformed. -/
theorem C106_ray2 (h : BuiltAffine2 t) (n : Vector2 Ideal) (o : Point2 Ideal) (r : Ray2 Ideal) (hn : AllFinite n)
    (ho : AllFinite o) (hr : AllFinite r) (h0 : (Api.dot n r.direction == (zero : Ideal)) = false) :
    (Api.dot (n * t.inverse)
        ((Transform.transform t o : Point2 Ideal) - (Transform.transform t r : Ray2 Ideal).origin : Vector2 Ideal)
      / Api.dot (n * t.inverse) (Transform.transform t r : Ray2 Ideal).direction
      == Api.dot n (o - r.origin : Vector2 Ideal) / Api.dot n r.direction) = true ∧
    (Api.dot n (r.at (Api.dot n (o - r.origin : Vector2 Ideal) / Api.dot n r.direction) - o : Vector2 Ideal) == (zero : Ideal)) = true := by
  rw [Ray2.allFinite] at hr
  obtain ⟨f, g, -⟩ := built_inv2 (fun m hm => hm.1) t h
  obtain ⟨a1, a2⟩ := built_affine2 t h
  have e1 := C106_plane2 h n r.origin o hn hr.1 ho
  have e2 := C106_dot2 h n r.direction hn hr.2
  have f1 := Matrix3x3.fin_rowv hn g
  have f2 := a1.fin_mulp f ho
  have f3 := a1.fin_mulp f hr.1
  have f4 := Vector2.fin_subp f2 f3
  have f5 := Vector2.fin_subp ho hr.1
  have f6 := Matrix3x3.fin_mulv f hr.2
  have d1 := Vector2.fin_dot f1 f4
  have d2 := Vector2.fin_dot hn f5
  have d3 := Vector2.fin_dot f1 f6
  have d4 := Vector2.fin_dot hn hr.2
  have z : real (Api.dot n r.direction) ≠ 0 := by
    intro hz
    rw [← Bool.not_eq_true, Ideal.beq_real d4 finite_zero, real_zero] at h0
    exact h0 hz
  have r1 := (Ideal.beq_real d1 d2).1 e1
  have r2 := (Ideal.beq_real d3 d4).1 e2
  have z' : real (Api.dot (n * t.inverse) (t.forward * r.direction)) ≠ 0 := by rw [r2]; exact z
  constructor
  · refine (Ideal.beq_real (Ideal.finite_div d1 d3 z') (Ideal.finite_div d2 d4 z)).2 ?_
    refine (Ideal.real_div d1 d3 z').trans (Eq.trans ?_ (Ideal.real_div d2 d4 z).symm)
    rw [r1, r2]
  · have fs := Ideal.finite_div d2 d4 z
    have fv := Vector2.fin_mul hr.2 fs
    have fa := Point2.fin_addv hr.1 fv
    have fd := Vector2.fin_subp fa ho
    refine (Ideal.beq_real (Vector2.fin_dot hn fd) finite_zero).2 ?_
    refine (Vector2.real_dot hn fd).trans ?_
    rw [Vector2.toReal_subp fa ho, Point2.toReal_addv hr.1 fv, Vector2.toReal_mul hr.2 fs, real_zero,
      show r.origin.toReal + real (Api.dot n (o - r.origin : Vector2 Ideal) / Api.dot n r.direction) • r.direction.toReal - o.toReal =
        real (Api.dot n (o - r.origin : Vector2 Ideal) / Api.dot n r.direction) • r.direction.toReal - (o.toReal - r.origin.toReal) from by abel,
      ← Vector2.toReal_subp ho hr.1, dotProduct_sub, dotProduct_smul, Ideal.real_div d2 d4 z, Vector2.real_dot hn f5,
      Vector2.real_dot hn hr.2, smul_eq_mul, div_mul_cancel₀, sub_self]
    rwa [Vector2.real_dot hn hr.2] at z

/-- **C106** (2D): transforming a normal by a composition is transforming it twice; transforming it back restores it. -/
theorem C106_compose2 {a b : Transform2 Ideal} (ha : BuiltAffine2 a) (hb : BuiltAffine2 b) (n : Vector2 Ideal) (hn : AllFinite n) :
    (n * (a.andThen b).inverse == (n * a.inverse) * b.inverse) = true ∧ ((n * a.inverse) * a.inv.inverse == n) = true ∧
    (n * (Transform2.identity : Transform2 Ideal).inverse == n) = true := by
  obtain ⟨f, g, -⟩ := built_inv2 (fun m hm => hm.1) a ha
  obtain ⟨f', g', -⟩ := built_inv2 (fun m hm => hm.1) b hb
  obtain ⟨a1, a2⟩ := built_affine2 b hb
  have f1 := Matrix3x3.fin_rowv hn g
  refine ⟨?_, ?_, ?_⟩
  · show (n * (a.inverse * b.inverse) == (n * a.inverse) * b.inverse) = true
    rw [Vector2.beq_toReal (Matrix3x3.fin_rowv hn (Matrix3x3.fin_mul g g')) (Matrix3x3.fin_rowv f1 g'), Matrix3x3.toReal_rowv hn (Matrix3x3.fin_mul g g'),
      Matrix3x3.toReal_rowv f1 g', Matrix3x3.toReal_rowv hn g, a2.linear_mul g g', Matrix.vecMul_vecMul]
  · show ((n * a.inverse) * a.forward == n) = true
    rw [Vector2.beq_toReal (Matrix3x3.fin_rowv f1 f) hn, Matrix3x3.toReal_rowv f1 f, Matrix3x3.toReal_rowv hn g, Matrix.vecMul_vecMul,
      (built_linear2 ha).1, Matrix.vecMul_one]
  · show (n * (Matrix3x3.identity : Matrix3x3 Ideal) == n) = true
    rw [Vector2.beq_toReal (Matrix3x3.fin_rowv hn Matrix3x3.fin_identity) hn, Matrix3x3.toReal_rowv hn Matrix3x3.fin_identity, Matrix3x3.linear_identity,
      Matrix.vecMul_one]

/-- **C106** (2D): for rigid motions the normal may be transformed like any vector. -/
theorem C106_rigid2 (h : Motion2 t) (n : Vector2 Ideal) (hn : AllFinite n) :
    (n * t.inverse == (Transform.transform t n : Vector2 Ideal)) = true ∧
    (Api.length (n * t.inverse) == Api.length n) = true := by
  obtain ⟨hb, ho, hd⟩ := motion_inv2 t h
  obtain ⟨f, g, -⟩ := built_inv2 (fun m hm => hm.1) t hb
  have e : (n * t.inverse == t.forward * n) = true := by
    rw [Vector2.beq_toReal (Matrix3x3.fin_rowv hn g) (Matrix3x3.fin_mulv f hn), Matrix3x3.toReal_rowv hn g, Matrix3x3.toReal_mulv' f hn]
    have : t.inverse.linear = t.forward.linear.transpose := by
      have e : t.forward.linear.transpose * (t.forward.linear * t.inverse.linear) = t.forward.linear.transpose := by
        rw [(built_linear2 hb).2, mul_one]
      rwa [← mul_assoc, ho, one_mul] at e
    rw [this, Matrix.vecMul_transpose]
  refine ⟨e, ?_⟩
  have l := (C52_rigid2 t h).1.length n hn
  have fl := Vector2.fin_length (Matrix3x3.fin_rowv hn g)
  have fl' := Vector2.fin_length (Matrix3x3.fin_mulv f hn)
  have fl'' := Vector2.fin_length hn
  rw [Ideal.beq_real fl fl'']
  refine Eq.trans ?_ ((Ideal.beq_real fl' fl'').1 l)
  rw [Vector2.real_length (Matrix3x3.fin_rowv hn g), Vector2.real_length (Matrix3x3.fin_mulv f hn), Vector2.toE, Vector2.toE,
    (Vector2.beq_toReal (Matrix3x3.fin_rowv hn g) (Matrix3x3.fin_mulv f hn)).1 e]
end

/-! ## 3D -/

/-- The transforms a program can build when only finite affine matrices are passed to `try_from` (C52). -/
abbrev BuiltAffine3 (t : Transform3 Ideal) : Prop := Built3 (fun m => AllFinite m ∧ m.Affine) t

section
variable {m : Matrix4x4 Ideal} {u v : Vector3 Ideal}
theorem Matrix4x4.fin_rowv (hv : AllFinite v) (hm : AllFinite m) : AllFinite (v * m) := by
  rw [Matrix4x4.allFinite, forall_lt_16] at hm
  rw [Vector3.allFinite] at hv ⊢
  mat_simp []
  simp (maxDischargeDepth := 20) only [Ideal.finite_add, Ideal.finite_mul, hm, hv, and_self]
theorem Matrix4x4.toReal_rowv (hv : AllFinite v) (hm : AllFinite m) :
    (v * m).toReal = Matrix.vecMul v.toReal m.linear := by
  rw [Matrix4x4.allFinite, forall_lt_16] at hm
  rw [Vector3.allFinite] at hv
  unfold Matrix4x4.linear
  rw [Matrix4x4.toReal_eq, Vector3.toReal]
  mat_simp []
  simp (maxDischargeDepth := 20) only [Ideal.real_add, Ideal.finite_add, Ideal.finite_mul, Ideal.real_mul, hm, hv]
  ext i
  fin_cases i <;> simp [Matrix.vecMul, dotProduct, Fin.sum_univ_succ, Vector3.toReal, add_assoc]
end

section
variable {t : Transform3 Ideal}
theorem built_linear3 (h : BuiltAffine3 t) : t.inverse.linear * t.forward.linear = 1 ∧
    t.forward.linear * t.inverse.linear = 1 := by
  obtain ⟨f, g, p⟩ := built_inv3 (fun m hm => hm.1) t h
  obtain ⟨a1, a2⟩ := built_affine3 t h
  have h1 : t.forward.linear * t.inverse.linear = 1 := by
    rw [← a2.linear_mul f g, ← Matrix4x4.linear_identity]
    unfold Matrix4x4.linear
    rw [Matrix4x4.toReal_mul f g, (Transform3.paired_iff f g).1 p, Matrix4x4.toReal_identity]
  exact ⟨mul_eq_one_comm.1 h1, h1⟩

/-- **C106** (3D): a normal `n` transformed by `n * &t.inverse` has, with every transformed vector, the same dot
product as before; in particular it stays perpendicular to the transformed surface. -/
theorem C106_dot3 (h : BuiltAffine3 t) (n v : Vector3 Ideal) (hn : AllFinite n) (hv : AllFinite v) :
    (Api.dot (n * t.inverse) (Transform.transform t v : Vector3 Ideal) == Api.dot n v) = true := by
  obtain ⟨f, g, -⟩ := built_inv3 (fun m hm => hm.1) t h
  show (Api.dot (n * t.inverse) (t.forward * v) == Api.dot n v) = true
  have f1 := Matrix4x4.fin_rowv hn g
  have f2 := Matrix4x4.fin_mulv f hv
  rw [Ideal.beq_real (Vector3.fin_dot f1 f2) (Vector3.fin_dot hn hv), Vector3.real_dot f1 f2, Vector3.real_dot hn hv,
    Matrix4x4.toReal_rowv hn g, Matrix4x4.toReal_mulv' f hv, Matrix.dotProduct_mulVec, Matrix.vecMul_vecMul, (built_linear3 h).1,
    Matrix.vecMul_one]

/-- **C106** (3D): it is the only vector with that property. -/
theorem C106_unique3 (h : BuiltAffine3 t) (n n' : Vector3 Ideal) (hn : AllFinite n) (hn' : AllFinite n')
    (e : ∀ v : Vector3 Ideal, AllFinite v →
      (Api.dot n' (Transform.transform t v : Vector3 Ideal) == Api.dot n v) = true) :
    (n' == n * t.inverse) = true := by
  obtain ⟨f, g, -⟩ := built_inv3 (fun m hm => hm.1) t h
  have f1 := Matrix4x4.fin_rowv hn g
  rw [Vector3.beq_toReal hn' f1, Matrix4x4.toReal_rowv hn g]
  have key : Matrix.vecMul n'.toReal t.forward.linear = n.toReal := by
    refine (dotProduct_eq_iff).1 fun w => ?_
    have fw : AllFinite (⟨.of (w 0), .of (w 1), .of (w 2)⟩ : Vector3 Ideal) := Vector3.allFinite.2 ⟨trivial, trivial, trivial⟩
    have := e (⟨.of (w 0), .of (w 1), .of (w 2)⟩ : Vector3 Ideal) fw
    have f2 := Matrix4x4.fin_mulv f fw
    rw [show (Transform.transform t (⟨.of (w 0), .of (w 1), .of (w 2)⟩ : Vector3 Ideal) : Vector3 Ideal) = t.forward * (⟨.of (w 0), .of (w 1), .of (w 2)⟩ : Vector3 Ideal) from rfl,
      Ideal.beq_real (Vector3.fin_dot hn' f2) (Vector3.fin_dot hn fw), Vector3.real_dot hn' f2, Vector3.real_dot hn fw,
      Matrix4x4.toReal_mulv' f fw, Matrix.dotProduct_mulVec, show (⟨.of (w 0), .of (w 1), .of (w 2)⟩ : Vector3 Ideal).toReal = w from by ext i; fin_cases i <;> rfl] at this
    exact this
  rw [← key, Matrix.vecMul_vecMul, (built_linear3 h).2, Matrix.vecMul_one]

/-- **C106** (3D): `dot(n, p - o)`, whose sign is the side of the plane `p` is on, is unchanged when the plane and the
point are transformed. -/
theorem C106_plane3 (h : BuiltAffine3 t) (n : Vector3 Ideal) (o p : Point3 Ideal) (hn : AllFinite n) (ho : AllFinite o)
    (hp : AllFinite p) :
    (Api.dot (n * t.inverse) ((Transform.transform t p : Point3 Ideal) - (Transform.transform t o : Point3 Ideal) : Vector3 Ideal)
      == Api.dot n (p - o : Vector3 Ideal)) = true := by
  obtain ⟨f, g, -⟩ := built_inv3 (fun m hm => hm.1) t h
  obtain ⟨a1, a2⟩ := built_affine3 t h
  show (Api.dot (n * t.inverse) (t.forward * p - t.forward * o : Vector3 Ideal) == Api.dot n (p - o : Vector3 Ideal)) = true
  have f1 := Matrix4x4.fin_rowv hn g
  have f2 := a1.fin_mulp f hp
  have f3 := a1.fin_mulp f ho
  have f4 := Vector3.fin_subp f2 f3
  have f5 := Vector3.fin_subp hp ho
  rw [Ideal.beq_real (Vector3.fin_dot f1 f4) (Vector3.fin_dot hn f5), Vector3.real_dot f1 f4, Vector3.real_dot hn f5,
    Matrix4x4.toReal_rowv hn g, Vector3.toReal_subp f2 f3, a1.toReal_mulp f hp, a1.toReal_mulp f ho, add_sub_add_right_eq_sub,
    ← Matrix.mulVec_sub, Matrix.dotProduct_mulVec, Matrix.vecMul_vecMul, (built_linear3 h).1,
    Matrix.vecMul_one, Vector3.toReal_subp hp ho]

/-- **C106** (3D): the ray parameter at which a ray meets the plane is unchanged when both are transformed. -/
theorem C106_ray3 (h : BuiltAffine3 t) (n : Vector3 Ideal) (o : Point3 Ideal) (r : Ray3 Ideal) (hn : AllFinite n)
    (ho : AllFinite o) (hr : AllFinite r) (h0 : (Api.dot n r.direction == (zero : Ideal)) = false) :
    (Api.dot (n * t.inverse)
        ((Transform.transform t o : Point3 Ideal) - (Transform.transform t r : Ray3 Ideal).origin : Vector3 Ideal)
      / Api.dot (n * t.inverse) (Transform.transform t r : Ray3 Ideal).direction
      == Api.dot n (o - r.origin : Vector3 Ideal) / Api.dot n r.direction) = true ∧
    (Api.dot n (r.at (Api.dot n (o - r.origin : Vector3 Ideal) / Api.dot n r.direction) - o : Vector3 Ideal) == (zero : Ideal)) = true := by
  rw [Ray3.allFinite] at hr
  obtain ⟨f, g, -⟩ := built_inv3 (fun m hm => hm.1) t h
  obtain ⟨a1, a2⟩ := built_affine3 t h
  have e1 := C106_plane3 h n r.origin o hn hr.1 ho
  have e2 := C106_dot3 h n r.direction hn hr.2
  have f1 := Matrix4x4.fin_rowv hn g
  have f2 := a1.fin_mulp f ho
  have f3 := a1.fin_mulp f hr.1
  have f4 := Vector3.fin_subp f2 f3
  have f5 := Vector3.fin_subp ho hr.1
  have f6 := Matrix4x4.fin_mulv f hr.2
  have d1 := Vector3.fin_dot f1 f4
  have d2 := Vector3.fin_dot hn f5
  have d3 := Vector3.fin_dot f1 f6
  have d4 := Vector3.fin_dot hn hr.2
  have z : real (Api.dot n r.direction) ≠ 0 := by
    intro hz
    rw [← Bool.not_eq_true, Ideal.beq_real d4 finite_zero, real_zero] at h0
    exact h0 hz
  have r1 := (Ideal.beq_real d1 d2).1 e1
  have r2 := (Ideal.beq_real d3 d4).1 e2
  have z' : real (Api.dot (n * t.inverse) (t.forward * r.direction)) ≠ 0 := by rw [r2]; exact z
  constructor
  · refine (Ideal.beq_real (Ideal.finite_div d1 d3 z') (Ideal.finite_div d2 d4 z)).2 ?_
    refine (Ideal.real_div d1 d3 z').trans (Eq.trans ?_ (Ideal.real_div d2 d4 z).symm)
    rw [r1, r2]
  · have fs := Ideal.finite_div d2 d4 z
    have fv := Vector3.fin_mul hr.2 fs
    have fa := Point3.fin_addv hr.1 fv
    have fd := Vector3.fin_subp fa ho
    refine (Ideal.beq_real (Vector3.fin_dot hn fd) finite_zero).2 ?_
    refine (Vector3.real_dot hn fd).trans ?_
    rw [Vector3.toReal_subp fa ho, Point3.toReal_addv hr.1 fv, Vector3.toReal_mul hr.2 fs, real_zero,
      show r.origin.toReal + real (Api.dot n (o - r.origin : Vector3 Ideal) / Api.dot n r.direction) • r.direction.toReal - o.toReal =
        real (Api.dot n (o - r.origin : Vector3 Ideal) / Api.dot n r.direction) • r.direction.toReal - (o.toReal - r.origin.toReal) from by abel,
      ← Vector3.toReal_subp ho hr.1, dotProduct_sub, dotProduct_smul, Ideal.real_div d2 d4 z, Vector3.real_dot hn f5,
      Vector3.real_dot hn hr.2, smul_eq_mul, div_mul_cancel₀, sub_self]
    rwa [Vector3.real_dot hn hr.2] at z

/-- **C106** (3D): transforming a normal by a composition is transforming it twice; transforming it back restores it. -/
theorem C106_compose3 {a b : Transform3 Ideal} (ha : BuiltAffine3 a) (hb : BuiltAffine3 b) (n : Vector3 Ideal) (hn : AllFinite n) :
    (n * (a.andThen b).inverse == (n * a.inverse) * b.inverse) = true ∧ ((n * a.inverse) * a.inv.inverse == n) = true ∧
    (n * (Transform3.identity : Transform3 Ideal).inverse == n) = true := by
  obtain ⟨f, g, -⟩ := built_inv3 (fun m hm => hm.1) a ha
  obtain ⟨f', g', -⟩ := built_inv3 (fun m hm => hm.1) b hb
  obtain ⟨a1, a2⟩ := built_affine3 b hb
  have f1 := Matrix4x4.fin_rowv hn g
  refine ⟨?_, ?_, ?_⟩
  · show (n * (a.inverse * b.inverse) == (n * a.inverse) * b.inverse) = true
    rw [Vector3.beq_toReal (Matrix4x4.fin_rowv hn (Matrix4x4.fin_mul g g')) (Matrix4x4.fin_rowv f1 g'), Matrix4x4.toReal_rowv hn (Matrix4x4.fin_mul g g'),
      Matrix4x4.toReal_rowv f1 g', Matrix4x4.toReal_rowv hn g, a2.linear_mul g g', Matrix.vecMul_vecMul]
  · show ((n * a.inverse) * a.forward == n) = true
    rw [Vector3.beq_toReal (Matrix4x4.fin_rowv f1 f) hn, Matrix4x4.toReal_rowv f1 f, Matrix4x4.toReal_rowv hn g, Matrix.vecMul_vecMul,
      (built_linear3 ha).1, Matrix.vecMul_one]
  · show (n * (Matrix4x4.identity : Matrix4x4 Ideal) == n) = true
    rw [Vector3.beq_toReal (Matrix4x4.fin_rowv hn Matrix4x4.fin_identity) hn, Matrix4x4.toReal_rowv hn Matrix4x4.fin_identity, Matrix4x4.linear_identity,
      Matrix.vecMul_one]

/-- **C106** (3D): for rigid motions the normal may be transformed like any vector. -/
theorem C106_rigid3 (h : Motion3 t) (n : Vector3 Ideal) (hn : AllFinite n) :
    (n * t.inverse == (Transform.transform t n : Vector3 Ideal)) = true ∧
    (Api.length (n * t.inverse) == Api.length n) = true := by
  obtain ⟨hb, ho, hd⟩ := motion_inv3 t h
  obtain ⟨f, g, -⟩ := built_inv3 (fun m hm => hm.1) t hb
  have e : (n * t.inverse == t.forward * n) = true := by
    rw [Vector3.beq_toReal (Matrix4x4.fin_rowv hn g) (Matrix4x4.fin_mulv f hn), Matrix4x4.toReal_rowv hn g, Matrix4x4.toReal_mulv' f hn]
    have : t.inverse.linear = t.forward.linear.transpose := by
      have e : t.forward.linear.transpose * (t.forward.linear * t.inverse.linear) = t.forward.linear.transpose := by
        rw [(built_linear3 hb).2, mul_one]
      rwa [← mul_assoc, ho, one_mul] at e
    rw [this, Matrix.vecMul_transpose]
  refine ⟨e, ?_⟩
  have l := (C52_rigid3 t h).1.length n hn
  have fl := Vector3.fin_length (Matrix4x4.fin_rowv hn g)
  have fl' := Vector3.fin_length (Matrix4x4.fin_mulv f hn)
  have fl'' := Vector3.fin_length hn
  rw [Ideal.beq_real fl fl'']
  refine Eq.trans ?_ ((Ideal.beq_real fl' fl'').1 l)
  rw [Vector3.real_length (Matrix4x4.fin_rowv hn g), Vector3.real_length (Matrix4x4.fin_mulv f hn), Vector3.toE, Vector3.toE,
    (Vector3.beq_toReal (Matrix4x4.fin_rowv hn g) (Matrix4x4.fin_mulv f hn)).1 e]
end
theorem cofactor_cross (L : Matrix (Fin 3) (Fin 3) ℝ) (u v : Fin 3 → ℝ) :
    Matrix.vecMul (crossProduct (L.mulVec u) (L.mulVec v)) L = L.det • crossProduct u v := by
  rw [Matrix.det_fin_three, cross_apply, cross_apply]
  ext i
  fin_cases i <;> simp [Matrix.vecMul, Matrix.mulVec, dotProduct, Fin.sum_univ_succ] <;> ring

/-- **C106** (3D): the cross product of two transformed vectors is the transformed cross product (as a normal), scaled by
the determinant of the linear part: the face normal of a transformed triangle points to the same side, except that
reflections reverse it. -/
theorem C106_cross {t : Transform3 Ideal} (h : BuiltAffine3 t) (u v : Vector3 Ideal) (hu : AllFinite u) (hv : AllFinite v)
    (s : Ideal) (hs : IsFinite s) (e : real s = t.forward.linear.det) :
    (Api.cross (Transform.transform t u : Vector3 Ideal) (Transform.transform t v : Vector3 Ideal)
      == (Api.cross u v * t.inverse) * s) = true ∧ real s ≠ 0 := by
  obtain ⟨f, g, -⟩ := built_inv3 (fun m hm => hm.1) t h
  have c := Vector3.fin_cross hu hv
  have f1 := Matrix4x4.fin_rowv c g
  have f2 := Matrix4x4.fin_mulv f hu
  have f3 := Matrix4x4.fin_mulv f hv
  constructor
  · show (Api.cross (t.forward * u) (t.forward * v) == (Api.cross u v * t.inverse) * s) = true
    rw [Vector3.beq_toReal (Vector3.fin_cross f2 f3) (Vector3.fin_mul f1 hs), Vector3.toReal_cross f2 f3, Vector3.toReal_mul f1 hs,
      Matrix4x4.toReal_rowv c g, Vector3.toReal_cross hu hv, Matrix4x4.toReal_mulv' f hu, Matrix4x4.toReal_mulv' f hv, e,
      ← Matrix.smul_vecMul, ← cofactor_cross, Matrix.vecMul_vecMul, (built_linear3 h).2, Matrix.vecMul_one]
  · rw [e]; intro h0
    have := congrArg Matrix.det (built_linear3 h).2
    rw [Matrix.det_mul, h0, zero_mul, Matrix.det_one] at this
    exact zero_ne_one this

/-! ## A normal must not be transformed like a vector -/

theorem scale_ok : (IsFinite (Ideal.of 2) ∧ real (Ideal.of 2) ≠ 0) ∧ (IsFinite (Ideal.of 1) ∧ real (Ideal.of 1) ≠ 0) :=
  ⟨⟨trivial, by norm_num⟩, ⟨trivial, by norm_num⟩⟩
theorem built_scale2 : BuiltAffine2 (Transform2.scale (Ideal.of 2) (Ideal.of 1)) := .scale _ _ scale_ok
theorem built_scale3 : BuiltAffine3 (Transform3.scale (Ideal.of 2) (Ideal.of 1) (Ideal.of 1)) :=
  .scale _ _ _ ⟨scale_ok.1, scale_ok.2, scale_ok.2⟩

/-- **C106**: transforming a normal like a vector does not keep it perpendicular when the transform is not rigid:
`n = (1, -1)` and `v = (1, 1)` under `scale(2, 1)`. -/
theorem C106_not_like_vector2 : ∃ (t : Transform2 Ideal) (n v : Vector2 Ideal), BuiltAffine2 t ∧ AllFinite n ∧ AllFinite v ∧
    (Api.dot n v == (zero : Ideal)) = true ∧
    (Api.dot (Transform.transform t n : Vector2 Ideal) (Transform.transform t v : Vector2 Ideal) == (zero : Ideal)) = false ∧
    (Api.dot (n * t.inverse) (Transform.transform t v : Vector2 Ideal) == (zero : Ideal)) = true := by
  have f1 : AllFinite (⟨.of 1, .of (-1)⟩ : Vector2 Ideal) := Vector2.allFinite.2 ⟨trivial, trivial⟩
  have f2 : AllFinite (⟨.of 1, .of 1⟩ : Vector2 Ideal) := Vector2.allFinite.2 ⟨trivial, trivial⟩
  have fm : AllFinite (Matrix3x3.scale (Ideal.of 2) (Ideal.of 1)) := Matrix3x3.fin_scale ⟨trivial, trivial⟩
  have e0 : (Api.dot (⟨.of 1, .of (-1)⟩ : Vector2 Ideal) (⟨.of 1, .of 1⟩ : Vector2 Ideal) == (zero : Ideal)) = true := by
    rw [Ideal.beq_real (Vector2.fin_dot f1 f2) finite_zero, Vector2.real_dot f1 f2, real_zero]
    simp [Vector2.toReal, dotProduct, Fin.sum_univ_two]
  refine ⟨Transform2.scale (.of 2) (.of 1), ⟨.of 1, .of (-1)⟩, ⟨.of 1, .of 1⟩, built_scale2, f1, f2, e0, ?_, ?_⟩
  · rw [← Bool.not_eq_true]
    show ¬ (Api.dot (Matrix3x3.scale (Ideal.of 2) (Ideal.of 1) * (⟨.of 1, .of (-1)⟩ : Vector2 Ideal))
      (Matrix3x3.scale (Ideal.of 2) (Ideal.of 1) * (⟨.of 1, .of 1⟩ : Vector2 Ideal)) == (zero : Ideal)) = true
    have g1 := Matrix3x3.fin_mulv fm f1
    have g2 := Matrix3x3.fin_mulv fm f2
    rw [Ideal.beq_real (Vector2.fin_dot g1 g2) finite_zero, Vector2.real_dot g1 g2, real_zero, Matrix3x3.toReal_mulv' fm f1,
      Matrix3x3.toReal_mulv' fm f2, Matrix3x3.linear_scale]
    simp [Vector2.toReal, dotProduct, Fin.sum_univ_two, Matrix.mulVec_diagonal]
    norm_num
  · have g1 := Matrix3x3.fin_rowv f1 (built_inv2 (fun m hm => hm.1) _ built_scale2).2.1
    have g2 := Matrix3x3.fin_mulv fm f2
    have := C106_dot2 built_scale2 _ _ f1 f2
    exact (Ideal.beq_real (Vector2.fin_dot g1 g2) finite_zero).2 (((Ideal.beq_real (Vector2.fin_dot g1 g2) (Vector2.fin_dot f1 f2)).1 this).trans
      ((Ideal.beq_real (Vector2.fin_dot f1 f2) finite_zero).1 e0))

/-! ## The hypotheses are met by concrete, non-trivial values -/

example := C106_unique2 built_scale2 exV2 (exV2 * (Transform2.scale (Ideal.of 2) (Ideal.of 1)).inverse) exV2_fin
  (Matrix3x3.fin_rowv exV2_fin (built_inv2 (fun m hm => hm.1) _ built_scale2).2.1) (fun v hv => C106_dot2 built_scale2 _ v exV2_fin hv)
/-- a shear with translation from `try_from`; a plane and a ray that is not parallel to it -/
example : ∃ (t : Transform3 Ideal) (n : Vector3 Ideal) (o : Point3 Ideal) (r : Ray3 Ideal), BuiltAffine3 t ∧ t.forward = exA4 ∧
    AllFinite n ∧ AllFinite o ∧ AllFinite r ∧ (Api.dot n r.direction == (zero : Ideal)) = false := by
  obtain ⟨t, e, h⟩ := exists_tr3
  refine ⟨t, exV3, exP3, ⟨exP3, exV3⟩, h, e, exV3_fin, exP3_fin, by rw [Ray3.allFinite]; exact ⟨exP3_fin, exV3_fin⟩, ?_⟩
  rw [← Bool.not_eq_true, Ideal.beq_real (Vector3.fin_dot exV3_fin exV3_fin) finite_zero, Vector3.real_dot exV3_fin exV3_fin, real_zero]
  simp [Vector3.toReal, dotProduct, Fin.sum_univ_three, exV3]
  norm_num
example := C106_compose3 built_scale3 (Built3.rotateAxis exV3 (.of 1) exV3_fin exV3_ne trivial) exV3 exV3_fin
example := C106_rigid3 (.andThen _ _ (.translate exV3 exV3_fin) (.rotateAxis exV3 (.of 1) exV3_fin exV3_ne trivial)) exV3 exV3_fin
/-- `scale(2, 1, 1)` has determinant 2 -/
example := C106_cross built_scale3 exV3 ⟨.of 1, .of 0, .of 0⟩ exV3_fin (Vector3.allFinite.2 ⟨trivial, trivial, trivial⟩) (.of 2) trivial (by
  show _ = (Matrix4x4.scale (Ideal.of 2) (Ideal.of 1) (Ideal.of 1)).linear.det
  rw [Matrix4x4.linear_scale, Matrix.det_diagonal]
  simp [Fin.prod_univ_three])
end VecMath

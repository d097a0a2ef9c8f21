# C124: appends the affine part and the 3D twin to Props/RealArea.lean (run once on the 2D draft)
import re
s=open('/tmp/d/RealArea.lean').read()
s=s.replace("exact eq_neg_of_add_eq_zero_right this","exact eq_neg_of_add_eq_zero_left this")
i=s.index("/-- **C124**: in exact arithmetic an affine")
s=s[:i]
d2=s[s.index("/-! ## Dimension 2 -/"):]
aff2="""/-- **C124**: in exact arithmetic an affine transform multiplies the area of every polygon by the determinant of its linear part. -/
theorem C124_affine2 (t : Transform2 Ideal) (hf : AllFinite t.forward) (ht : t.forward.Affine) (p : Point2 Ideal) (ps : List (Point2 Ideal))
    (hp : AllFinite p) (h : ∀ q ∈ ps, AllFinite q) (s : Ideal) (hs : IsFinite s) (es : real s = t.forward.linear.det) :
    ((Transform.transform t p : Point2 Ideal).polygon (ps.map fun q => (Transform.transform t q : Point2 Ideal)) == s * p.polygon ps) = true := by
  obtain ⟨a, b⟩ := Point2.area_real (t.forward * p) (ps.map (t.forward * ·)) (ht.fin_mulp hf hp) (by
    intro q hq
    obtain ⟨r, hr, rfl⟩ := List.mem_map.1 hq
    exact ht.fin_mulp hf (h r hr))
  obtain ⟨a', b'⟩ := Point2.area_real p ps hp h
  show ((t.forward * p).areaFrom (ps.map (t.forward * ·)) == s * p.areaFrom ps) = true
  rw [Ideal.beq_real a (Ideal.finite_mul hs a'), Ideal.real_mul hs a', b, b', es, exactArea2, exactArea2, legs_map, legs_map, legs_map]
  have := legs_congr (fun x y : Point2 Ideal => perp (x.toReal - p.toReal) (y.toReal - p.toReal))
    (fun x y => perp ((t.forward * x).toReal - (t.forward * p).toReal) ((t.forward * y).toReal - (t.forward * p).toReal))
    (t.forward.linear.det * ·) ps (fun x hx y hy => by
      rw [← Vector2.toReal_subp (ht.fin_mulp hf (h x hx)) (ht.fin_mulp hf hp), ← Vector2.toReal_subp (ht.fin_mulp hf (h y hy)) (ht.fin_mulp hf hp),
        ht.sub_mulp hf (h x hx) hp, ht.sub_mulp hf (h y hy) hp, Matrix.det_fin_two]
      simp only [perp, Matrix.mulVec, dotProduct, Fin.sum_univ_two]
      ring)
  rw [← this, List.sum_map_mul_left, List.map_id']
"""
d3=d2.replace("2","3").replace("C134","C124").replace("perp_alternating","cross_alternating").replace("perp","crossProduct")
i=d3.index("theorem Point3.area_real"); j=d3.index("/-- **C124**: in exact arithmetic the fan")
d3=d3[:i]+"""theorem ideal_sum3 (ds : List (Vector3 Ideal)) (x : Vector3 Ideal) (hx : AllFinite x) (h : ∀ d ∈ ds, AllFinite d) :
    AllFinite (ds.foldl Vector3.addAssign x) ∧ (ds.foldl Vector3.addAssign x).toReal = x.toReal + (ds.map Vector3.toReal).sum := by
  induction ds generalizing x with
  | nil => simp [hx]
  | cons d ds ih =>
    have hd := h d (by simp)
    obtain ⟨a, b⟩ := ih (x + d) (Vector3.fin_add hx hd) fun e he => h e (by simp [he])
    rw [List.foldl_cons, List.map_cons, List.sum_cons]
    exact ⟨a, by rw [show x.addAssign d = x + d from rfl, b, Vector3.toReal_add hx hd, add_assoc]⟩
theorem Point3.area_real (o : Point3 Ideal) (ps : List (Point3 Ideal)) (ho : AllFinite o) (h : ∀ p ∈ ps, AllFinite p) :
    AllFinite (o.areaFrom ps) ∧ (o.areaFrom ps).toReal = exactArea3 o.toReal (ps.map Point3.toReal) := by
  have f : ∀ p ∈ ps, AllFinite (p - o : Vector3 Ideal) := fun p hp => Vector3.fin_subp (h p hp) ho
  have hf : ∀ d ∈ legs (fun a b : Point3 Ideal => (Api.cross (a - o : Vector3 Ideal) (b - o : Vector3 Ideal) : Vector3 Ideal)) ps, AllFinite d := by
    intro d hd
    obtain ⟨p, hp, q, hq, rfl⟩ := mem_legs _ ps hd
    exact Vector3.fin_cross (f p hp) (f q hq)
  obtain ⟨a, b⟩ := ideal_sum3 _ Vector3.zero Vector3.fin_zero hf
  refine ⟨a, b.trans ?_⟩
  have z : (Vector3.zero : Vector3 Ideal).toReal = 0 := by
    ext i; fin_cases i <;> simp [Vector3.toReal, Vector3.zero, Vector3.new]
  unfold exactArea3
  rw [z, zero_add, legs_map, legs_congr _ _ _ ps fun p hp q hq => by
    rw [Vector3.toReal_cross (f p hp) (f q hq), Vector3.toReal_subp (h p hp) ho, Vector3.toReal_subp (h q hq) ho]]
"""+d3[j:]
d3=d3.replace("Ideal.beq_real","Vector3.beq_toReal").replace("(finite_neg.3 a'), IEEE.real_neg","(Vector3.fin_neg a'), Vector3.toReal_neg a'").replace("Ideal.finite_add","Vector3.fin_add").replace("Ideal.real_add","Vector3.toReal_add")
d3=d3.replace("measures the same area as","has the same area vector as").replace("its area vector","its area")
aff3="""/-- **C124**: in exact arithmetic the area vector of the image of a polygon under an affine transform is the area vector, transformed as a normal
(`n * &t.inverse`) and multiplied by the determinant of the linear part. -/
theorem C124_affine3 {t : Transform3 Ideal} (ht : BuiltAffine3 t) (p : Point3 Ideal) (ps : List (Point3 Ideal))
    (hp : AllFinite p) (h : ∀ q ∈ ps, AllFinite q) (s : Ideal) (hs : IsFinite s) (es : real s = t.forward.linear.det) :
    ((Transform.transform t p : Point3 Ideal).polygon (ps.map fun q => (Transform.transform t q : Point3 Ideal))
      == (p.polygon ps * t.inverse) * s) = true := by
  obtain ⟨f, g, -⟩ := built_inv3 (fun m hm => hm.1) t ht
  obtain ⟨a1, -⟩ := built_affine3 t ht
  obtain ⟨a, b⟩ := Point3.area_real (t.forward * p) (ps.map (t.forward * ·)) (a1.fin_mulp f hp) (by
    intro q hq
    obtain ⟨r, hr, rfl⟩ := List.mem_map.1 hq
    exact a1.fin_mulp f (h r hr))
  obtain ⟨a', b'⟩ := Point3.area_real p ps hp h
  have f1 := Matrix4x4.fin_rowv a' g
  show ((t.forward * p).areaFrom (ps.map (t.forward * ·)) == (p.areaFrom ps * t.inverse) * s) = true
  have key : Matrix.vecMul (exactArea3 (t.forward * p).toReal ((ps.map fun q : Point3 Ideal => (t.forward * q : Point3 Ideal)).map Point3.toReal)) t.forward.linear
      = t.forward.linear.det • exactArea3 p.toReal (ps.map Point3.toReal) := by
    rw [exactArea3, exactArea3, legs_map, legs_map, legs_map]
    have e := legs_congr (fun x y : Point3 Ideal => crossProduct ((t.forward * x).toReal - (t.forward * p).toReal) ((t.forward * y).toReal - (t.forward * p).toReal))
      (fun x y => t.forward.linear.det • crossProduct (x.toReal - p.toReal) (y.toReal - p.toReal))
      (fun v => Matrix.vecMul v t.forward.linear) ps (fun x hx y hy => by
        rw [← Vector3.toReal_subp (a1.fin_mulp f (h x hx)) (a1.fin_mulp f hp), ← Vector3.toReal_subp (a1.fin_mulp f (h y hy)) (a1.fin_mulp f hp),
          a1.sub_mulp f (h x hx) hp, a1.sub_mulp f (h y hy) hp, cofactor_cross])
    have e' := legs_congr (fun x y : Point3 Ideal => crossProduct (x.toReal - p.toReal) (y.toReal - p.toReal))
      (fun x y => t.forward.linear.det • crossProduct (x.toReal - p.toReal) (y.toReal - p.toReal))
      (fun v => t.forward.linear.det • v) ps (fun _ _ _ _ => rfl)
    have l1 : ∀ l : List (Fin 3 → ℝ), Matrix.vecMul l.sum t.forward.linear = (l.map fun v => Matrix.vecMul v t.forward.linear).sum := by
      intro l; induction l with
      | nil => simp
      | cons x l ih => rw [List.sum_cons, List.map_cons, List.sum_cons, Matrix.add_vecMul, ih]
    rw [l1, e, ← e', List.smul_sum]
  rw [Vector3.beq_toReal a (Vector3.fin_mul f1 hs), Vector3.toReal_mul f1 hs, Matrix4x4.toReal_rowv a' g, b, b', es, ← Matrix.smul_vecMul, ← key,
    Matrix.vecMul_vecMul, (built_linear3 ht).2, Matrix.vecMul_one]
/-- **C124**: in exact arithmetic the area vector of a polygon in a plane is parallel to the normal of the plane. -/
theorem C124_plane (n : Vector3 Ideal) (p : Point3 Ideal) (ps : List (Point3 Ideal)) (hn : AllFinite n) (hp : AllFinite p) (h : ∀ q ∈ ps, AllFinite q)
    (hpl : ∀ q ∈ ps, (Api.dot n (q - p : Vector3 Ideal) == (zero : Ideal)) = true) :
    (Api.cross n (p.polygon ps) == (Vector3.zero : Vector3 Ideal)) = true := by
  obtain ⟨a, b⟩ := Point3.area_real p ps hp h
  have z : (Vector3.zero : Vector3 Ideal).toReal = 0 := by
    ext i; fin_cases i <;> simp [Vector3.toReal, Vector3.zero, Vector3.new]
  have d : ∀ q ∈ ps, n.toReal ⬝ᵥ (q.toReal - p.toReal) = 0 := by
    intro q hq
    have e := hpl q hq
    have fq := Vector3.fin_subp (h q hq) hp
    rwa [Ideal.beq_real (Vector3.fin_dot hn fq) finite_zero, Vector3.real_dot hn fq, real_zero, Vector3.toReal_subp (h q hq) hp] at e
  rw [Point3.polygon, Vector3.beq_toReal (Vector3.fin_cross hn a) Vector3.fin_zero, Vector3.toReal_cross hn a, b, z, exactArea3, legs_map]
  have e := legs_congr (fun x y : Point3 Ideal => crossProduct (x.toReal - p.toReal) (y.toReal - p.toReal)) (fun _ _ => (0 : Fin 3 → ℝ))
    (fun v => crossProduct n.toReal v) ps (fun x hx y hy => by
      have e1 := d x hx
      have e2 := d y hy
      generalize x.toReal - p.toReal = u at e1
      generalize y.toReal - p.toReal = w at e2
      rw [cross_cross_eq_smul_sub_smul', e2, dotProduct_comm, e1]
      simp)
  have l : ∀ l : List (Fin 3 → ℝ), crossProduct n.toReal l.sum = (l.map fun v => crossProduct n.toReal v).sum := by
    intro l; induction l with
    | nil => simp
    | cons x l ih => rw [List.sum_cons, List.map_cons, List.sum_cons, map_add, ih]
  rw [l, e]
  refine List.sum_eq_zero fun x hx => ?_
  obtain ⟨_, -, _, -, rfl⟩ := mem_legs _ ps hx
  rfl

end VecMath
"""
s=s.replace("import Verif.Lemmas.RealMat\n","import Verif.Props.RealNormal\n")
open('/tmp/d/RealArea2.lean','w').write(s+aff2+"\n"+d3+aff3)

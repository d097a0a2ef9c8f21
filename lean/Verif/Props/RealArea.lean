import Verif.Spec.Area
import Verif.Props.RealPath
import Verif.Props.RealNormal
/-!
# Areas of polygons in exact real arithmetic (layer R): C124
-/

namespace VecMath
open Scalar IEEE

section
variable {E G : Type} [AddCommGroup E] [AddCommGroup G]
/-- A product that is additive on both sides and vanishes on equal factors. -/
structure Alternating (B : E → E → G) : Prop where
  left : ∀ a b c, B (a - b) c = B a c - B b c
  right : ∀ a b c, B a (b - c) = B a b - B a c
  self : ∀ a, B a a = 0
variable {B : E → E → G} (h : Alternating B)
include h
theorem Alternating.zero_left (a : E) : B 0 a = 0 := by have := h.left 0 0 a; rwa [sub_self, sub_self] at this
theorem Alternating.zero_right (a : E) : B a 0 = 0 := by have := h.right a 0 0; rwa [sub_self, sub_self] at this
theorem Alternating.swap (a b : E) : B a b = -B b a := by
  have := h.self (a - b)
  rw [h.left, h.right, h.right, h.self, h.self] at this
  rw [zero_sub, sub_zero, sub_eq_add_neg, ← neg_add, neg_eq_zero] at this
  exact eq_neg_of_add_eq_zero_left this
/-- The area of a way as seen from two points differs by the two triangles at the ends. -/
theorem Alternating.pivot (o q p : E) (ps : List E) (l : E) (hl : (p :: ps).getLast? = some l) :
    (legs (fun a b => B (a - o) (b - o)) (p :: ps)).sum =
      (legs (fun a b => B (a - q) (b - q)) (p :: ps)).sum + (B (o - q) (p - q) - B (o - q) (l - q)) := by
  induction ps generalizing p with
  | nil => simp at hl; subst hl; simp
  | cons r ps ih =>
    rw [List.getLast?_cons_cons] at hl
    rw [legs_cons, legs_cons, List.sum_cons, List.sum_cons, ih r hl]
    have e : B (p - o) (r - o) = B (p - q) (r - q) + (B (o - q) (p - q) - B (o - q) (r - q)) := by
      rw [show p - o = (p - q) - (o - q) by abel, show r - o = (r - q) - (o - q) by abel]
      generalize p - q = x
      generalize r - q = y
      generalize o - q = z
      rw [h.left, h.right, h.right, h.self, h.swap x z]
      abel
    rw [e]; abel
theorem Alternating.closed (o q p : E) (ps : List E) :
    (legs (fun a b => B (a - o) (b - o)) (p :: (ps ++ [p]))).sum = (legs (fun a b => B (a - q) (b - q)) (p :: (ps ++ [p]))).sum := by
  rw [h.pivot o q p (ps ++ [p]) p (by rw [← List.cons_append, List.getLast?_concat]), sub_self, add_zero]
/-- Two more triangles, with no area. -/
theorem Alternating.close (p : E) (ps : List E) :
    (legs (fun a b => B (a - p) (b - p)) (p :: (ps ++ [p]))).sum = (legs (fun a b => B (a - p) (b - p)) ps).sum := by
  have e : ∀ as : List E, (legs (fun a b => B (a - p) (b - p)) (as ++ [p])).sum = (legs (fun a b => B (a - p) (b - p)) as).sum := by
    intro as
    rcases List.eq_nil_or_concat as with rfl | ⟨bs, b, rfl⟩
    · rfl
    · rw [List.concat_eq_append, List.append_assoc, List.singleton_append, legs_join, List.sum_append, legs_cons, legs_one, List.sum_cons, List.sum_nil, sub_self,
        h.zero_right, zero_add, add_zero]
  rw [← List.cons_append, e]
  cases ps with
  | nil => rfl
  | cons q qs => rw [legs_cons, List.sum_cons, sub_self, h.zero_left, zero_add]
/-- The fan around the first vertex measures the closed way seen from anywhere. -/
theorem Alternating.anywhere (o p : E) (ps : List E) :
    (legs (fun a b => B (a - o) (b - o)) (p :: (ps ++ [p]))).sum = (legs (fun a b => B (a - p) (b - p)) ps).sum := by
  rw [h.closed o p p ps, h.close]
theorem Alternating.turn (p q : E) (ps : List E) :
    (legs (fun a b => B (a - q) (b - q)) (ps ++ [p])).sum = (legs (fun a b => B (a - p) (b - p)) (q :: ps)).sum := by
  rw [← h.anywhere p q (ps ++ [p]), ← h.anywhere p p (q :: ps), List.append_assoc, List.singleton_append]
  show (legs _ ((q :: ps) ++ p :: [q])).sum = (legs _ (p :: ((q :: ps) ++ [p]))).sum
  rw [legs_join, List.sum_append, legs_cons, legs_one, List.cons_append, legs_cons, List.sum_cons, List.sum_cons, List.sum_nil]
  abel
theorem Alternating.reverse (o : E) (ps : List E) :
    (legs (fun a b => B (a - o) (b - o)) ps.reverse).sum = -(legs (fun a b => B (a - o) (b - o)) ps).sum := by
  rw [legs_reverse, List.sum_reverse]
  induction ps with
  | nil => simp
  | cons p ps ih =>
    cases ps with
    | nil => simp
    | cons q ps => rw [legs_cons, legs_cons, List.sum_cons, List.sum_cons, ih, h.swap (q - o) (p - o), neg_add]
omit h in
theorem sum_split (d : E → E → G) (as bs : List E) (p : E) : (legs d (as ++ p :: bs)).sum = (legs d (as ++ [p])).sum + (legs d (p :: bs)).sum := by
  rw [legs_join, List.sum_append]
end

theorem perp_alternating : Alternating perp := by
  constructor <;> intros <;> simp [perp] <;> ring
theorem cross_alternating : Alternating (fun a b : Fin 3 → ℝ => crossProduct a b) := by
  constructor
  · intro a b c; simp
  · intro a b c; simp
  · intro a; simp

theorem Vector2.real_turned {u v : Vector2 Ideal} (hu : AllFinite u) (hv : AllFinite v) :
    IsFinite (Api.dot u.turned v) ∧ real (Api.dot u.turned v) = perp u.toReal v.toReal := by
  have ht : AllFinite u.turned := by
    rw [Vector2.allFinite] at hu ⊢
    exact ⟨finite_neg.2 hu.2, hu.1⟩
  refine ⟨Vector2.fin_dot ht hv, ?_⟩
  have e := Vector2.real_dot ht hv
  rw [e]
  rw [Vector2.allFinite] at hu
  simp [perp, Vector2.toReal, Vector2.turned, vector2, Vector2.new, Fin.sum_univ_succ, dotProduct, IEEE.real_neg]
  ring

/-! ## Dimension 2 -/
theorem Point2.area_real (o : Point2 Ideal) (ps : List (Point2 Ideal)) (ho : AllFinite o) (h : ∀ p ∈ ps, AllFinite p) :
    IsFinite (o.areaFrom ps) ∧ real (o.areaFrom ps) = exactArea2 o.toReal (ps.map Point2.toReal) := by
  have key : ∀ p ∈ ps, ∀ q ∈ ps, _ := fun p hp q hq => Vector2.real_turned (Vector2.fin_subp (h p hp) ho) (Vector2.fin_subp (h q hq) ho)
  have hf : ∀ d ∈ legs (fun a b : Point2 Ideal => (Api.dot (Vector2.turned (a - o : Vector2 Ideal)) (b - o : Vector2 Ideal) : Ideal)) ps, IsFinite d := by
    intro d hd
    obtain ⟨p, hp, q, hq, rfl⟩ := mem_legs _ ps hd
    exact (key p hp q hq).1
  obtain ⟨a, b⟩ := ideal_sum _ zero finite_zero hf
  refine ⟨a, b.trans ?_⟩
  unfold exactArea2
  rw [real_zero, zero_add, legs_map, legs_congr _ _ _ ps fun p hp q hq => by
    rw [(key p hp q hq).2, Vector2.toReal_subp (h p hp) ho, Vector2.toReal_subp (h q hq) ho]]
/-- **C124**: in exact arithmetic the fan around the first vertex of a polygon measures the same area as the closed way through its vertices seen from any point. -/
theorem C124_anywhere2 (o p : Point2 Ideal) (ps : List (Point2 Ideal)) (ho : AllFinite o) (hp : AllFinite p) (h : ∀ q ∈ ps, AllFinite q) :
    (o.areaFrom (p :: (ps ++ [p])) == p.polygon ps) = true := by
  obtain ⟨a, b⟩ := Point2.area_real o (p :: (ps ++ [p])) ho (by
    intro q hq
    simp only [List.mem_cons, List.mem_append, List.not_mem_nil, or_false] at hq
    rcases hq with rfl | hq | rfl
    exacts [hp, h q hq, hp])
  obtain ⟨a', b'⟩ := Point2.area_real p ps hp h
  rw [Point2.polygon, Ideal.beq_real a a', b, b', List.map_cons, List.map_append, List.map_cons, List.map_nil]
  exact perp_alternating.anywhere _ _ _
/-- **C124**: in exact arithmetic it does not matter at which vertex the polygon begins. -/
theorem C124_turn2 (p q : Point2 Ideal) (ps : List (Point2 Ideal)) (hp : AllFinite p) (hq : AllFinite q) (h : ∀ q ∈ ps, AllFinite q) :
    (q.polygon (ps ++ [p]) == p.polygon (q :: ps)) = true := by
  obtain ⟨a, b⟩ := Point2.area_real q (ps ++ [p]) hq (by
    intro r hr
    simp only [List.mem_append, List.mem_cons, List.not_mem_nil, or_false] at hr
    rcases hr with hr | rfl
    exacts [h r hr, hp])
  obtain ⟨a', b'⟩ := Point2.area_real p (q :: ps) hp (by
    intro r hr
    rcases List.mem_cons.1 hr with rfl | hr
    exacts [hq, h r hr])
  rw [Point2.polygon, Point2.polygon, Ideal.beq_real a a', b, b', List.map_append, List.map_cons, List.map_cons, List.map_nil]
  exact perp_alternating.turn _ _ _
/-- **C124**: in exact arithmetic the area of the polygon traversed backwards is the negative. -/
theorem C124_reverse2 (p : Point2 Ideal) (ps : List (Point2 Ideal)) (hp : AllFinite p) (h : ∀ q ∈ ps, AllFinite q) :
    (p.polygon ps.reverse == -(p.polygon ps)) = true := by
  obtain ⟨a, b⟩ := Point2.area_real p ps.reverse hp (by simpa using h)
  obtain ⟨a', b'⟩ := Point2.area_real p ps hp h
  rw [Point2.polygon, Point2.polygon, Ideal.beq_real a (finite_neg.2 a'), IEEE.real_neg, b, b', List.map_reverse]
  exact perp_alternating.reverse _ _
/-- **C124**: in exact arithmetic the areas of the two parts into which a diagonal divides a polygon add up to its area. -/
theorem C124_split2 (p q : Point2 Ideal) (as bs : List (Point2 Ideal)) (hp : AllFinite p) (hq : AllFinite q) (ha : ∀ r ∈ as, AllFinite r)
    (hb : ∀ r ∈ bs, AllFinite r) : (p.polygon (as ++ q :: bs) == p.polygon (as ++ [q]) + p.polygon (q :: bs)) = true := by
  obtain ⟨a, b⟩ := Point2.area_real p (as ++ q :: bs) hp (by
    intro r hr
    simp only [List.mem_append, List.mem_cons] at hr
    rcases hr with hr | rfl | hr
    exacts [ha r hr, hq, hb r hr])
  obtain ⟨a', b'⟩ := Point2.area_real p (as ++ [q]) hp (by
    intro r hr
    simp only [List.mem_append, List.mem_cons, List.not_mem_nil, or_false] at hr
    rcases hr with hr | rfl
    exacts [ha r hr, hq])
  obtain ⟨c, d⟩ := Point2.area_real p (q :: bs) hp (by
    intro r hr
    rcases List.mem_cons.1 hr with rfl | hr
    exacts [hq, hb r hr])
  rw [Point2.polygon, Point2.polygon, Point2.polygon, Ideal.beq_real a (Ideal.finite_add a' c), Ideal.real_add a' c, b, b', d, List.map_append, List.map_append,
    List.map_cons, List.map_cons, List.map_nil]
  exact sum_split _ _ _ _
/-- **C124**: in exact arithmetic moving a polygon does not change its area. -/
theorem C124_move2 (v : Vector2 Ideal) (p : Point2 Ideal) (ps : List (Point2 Ideal)) (hv : AllFinite v) (hp : AllFinite p) (h : ∀ q ∈ ps, AllFinite q) :
    ((p + v).polygon (ps.map (· + v)) == p.polygon ps) = true := by
  obtain ⟨a, b⟩ := Point2.area_real (p + v) (ps.map (· + v)) (Point2.fin_addv hp hv) (by
    intro q hq
    obtain ⟨r, hr, rfl⟩ := List.mem_map.1 hq
    exact Point2.fin_addv (h r hr) hv)
  obtain ⟨a', b'⟩ := Point2.area_real p ps hp h
  rw [Point2.polygon, Point2.polygon, Ideal.beq_real a a', b, b', exactArea2, exactArea2, legs_map, legs_map, legs_map]
  congr 1
  have := legs_congr (fun x y : Point2 Ideal => perp ((x + v).toReal - (p + v).toReal) ((y + v).toReal - (p + v).toReal))
    (fun x y => perp (x.toReal - p.toReal) (y.toReal - p.toReal)) id ps (fun x hx y hy => by
      rw [Point2.toReal_addv (h x hx) hv, Point2.toReal_addv (h y hy) hv, Point2.toReal_addv hp hv]
      simp only [add_sub_add_right_eq_sub, id])
  rwa [List.map_id] at this
/-- **C124**: in exact arithmetic an affine transform multiplies the area of every polygon by the determinant of its linear part. -/
theorem C124_affine2 (t : Transform2 Ideal) (hf : AllFinite t.forward) (ht : t.forward.Affine) (p : Point2 Ideal) (ps : List (Point2 Ideal))
    (hp : AllFinite p) (h : ∀ q ∈ ps, AllFinite q) (s : Ideal) (hs : IsFinite s) (es : real s = t.forward.linear.det) :
    ((Transform.transform t p : Point2 Ideal).polygon (ps.map fun q => (Transform.transform t q : Point2 Ideal)) == s * p.polygon ps) = true := by
  obtain ⟨a, b⟩ := Point2.area_real (t.forward * p) (ps.map (t.forward * ·)) (ht.fin_mulp hf hp) (by
    intro q hq
    obtain ⟨r, hr, rfl⟩ := List.mem_map.1 hq
    exact ht.fin_mulp hf (h r hr))
  obtain ⟨a', b'⟩ := Point2.area_real p ps hp h
  show ((t.forward * p).areaFrom (ps.map (t.forward * ·)) == s * p.areaFrom ps) = true
  rw [Ideal.beq_real a (Ideal.finite_mul hs a'), Ideal.real_mul hs a', b, b', es, exactArea2, exactArea2, legs_map, legs_map, legs_map]
  have := legs_congr (fun x y : Point2 Ideal => perp (x.toReal - p.toReal) (y.toReal - p.toReal))
    (fun x y => perp ((t.forward * x).toReal - (t.forward * p).toReal) ((t.forward * y).toReal - (t.forward * p).toReal))
    (t.forward.linear.det * ·) ps (fun x hx y hy => by
      rw [← Vector2.toReal_subp (ht.fin_mulp hf (h x hx)) (ht.fin_mulp hf hp), ← Vector2.toReal_subp (ht.fin_mulp hf (h y hy)) (ht.fin_mulp hf hp),
        ht.sub_mulp hf (h x hx) hp, ht.sub_mulp hf (h y hy) hp, Matrix.det_fin_two]
      simp only [perp, Matrix.mulVec, dotProduct, Fin.sum_univ_two]
      ring)
  rw [← this, List.sum_map_mul_left, List.map_id']

/-! ## Dimension 3 -/
theorem ideal_sum3 (ds : List (Vector3 Ideal)) (x : Vector3 Ideal) (hx : AllFinite x) (h : ∀ d ∈ ds, AllFinite d) :
    AllFinite (ds.foldl Vector3.addAssign x) ∧ (ds.foldl Vector3.addAssign x).toReal = x.toReal + (ds.map Vector3.toReal).sum := by
  induction ds generalizing x with
  | nil => simp [hx]
  | cons d ds ih =>
    have hd := h d (by simp)
    obtain ⟨a, b⟩ := ih (x + d) (Vector3.fin_add hx hd) fun e he => h e (by simp [he])
    rw [List.foldl_cons, List.map_cons, List.sum_cons]
    exact ⟨a, by rw [show x.addAssign d = x + d from rfl, b, Vector3.toReal_add hx hd, add_assoc]⟩
theorem Point3.area_real (o : Point3 Ideal) (ps : List (Point3 Ideal)) (ho : AllFinite o) (h : ∀ p ∈ ps, AllFinite p) :
    AllFinite (o.areaFrom ps) ∧ (o.areaFrom ps).toReal = exactArea3 o.toReal (ps.map Point3.toReal) := by
  have f : ∀ p ∈ ps, AllFinite (p - o : Vector3 Ideal) := fun p hp => Vector3.fin_subp (h p hp) ho
  have hf : ∀ d ∈ legs (fun a b : Point3 Ideal => (Api.cross (a - o : Vector3 Ideal) (b - o : Vector3 Ideal) : Vector3 Ideal)) ps, AllFinite d := by
    intro d hd
    obtain ⟨p, hp, q, hq, rfl⟩ := mem_legs _ ps hd
    exact Vector3.fin_cross (f p hp) (f q hq)
  obtain ⟨a, b⟩ := ideal_sum3 _ Vector3.zero Vector3.fin_zero hf
  refine ⟨a, b.trans ?_⟩
  have z : (Vector3.zero : Vector3 Ideal).toReal = 0 := by
    ext i; fin_cases i <;> simp [Vector3.toReal, Vector3.zero, Vector3.new]
  unfold exactArea3
  rw [z, zero_add, legs_map, legs_congr _ _ _ ps fun p hp q hq => by
    rw [Vector3.toReal_cross (f p hp) (f q hq), Vector3.toReal_subp (h p hp) ho, Vector3.toReal_subp (h q hq) ho]]
/-- **C124**: in exact arithmetic the fan around the first vertex of a polygon has the same area vector as the closed way through its vertices seen from any point. -/
theorem C124_anywhere3 (o p : Point3 Ideal) (ps : List (Point3 Ideal)) (ho : AllFinite o) (hp : AllFinite p) (h : ∀ q ∈ ps, AllFinite q) :
    (o.areaFrom (p :: (ps ++ [p])) == p.polygon ps) = true := by
  obtain ⟨a, b⟩ := Point3.area_real o (p :: (ps ++ [p])) ho (by
    intro q hq
    simp only [List.mem_cons, List.mem_append, List.not_mem_nil, or_false] at hq
    rcases hq with rfl | hq | rfl
    exacts [hp, h q hq, hp])
  obtain ⟨a', b'⟩ := Point3.area_real p ps hp h
  rw [Point3.polygon, Vector3.beq_toReal a a', b, b', List.map_cons, List.map_append, List.map_cons, List.map_nil]
  exact cross_alternating.anywhere _ _ _
/-- **C124**: in exact arithmetic it does not matter at which vertex the polygon begins. -/
theorem C124_turn3 (p q : Point3 Ideal) (ps : List (Point3 Ideal)) (hp : AllFinite p) (hq : AllFinite q) (h : ∀ q ∈ ps, AllFinite q) :
    (q.polygon (ps ++ [p]) == p.polygon (q :: ps)) = true := by
  obtain ⟨a, b⟩ := Point3.area_real q (ps ++ [p]) hq (by
    intro r hr
    simp only [List.mem_append, List.mem_cons, List.not_mem_nil, or_false] at hr
    rcases hr with hr | rfl
    exacts [h r hr, hp])
  obtain ⟨a', b'⟩ := Point3.area_real p (q :: ps) hp (by
    intro r hr
    rcases List.mem_cons.1 hr with rfl | hr
    exacts [hq, h r hr])
  rw [Point3.polygon, Point3.polygon, Vector3.beq_toReal a a', b, b', List.map_append, List.map_cons, List.map_cons, List.map_nil]
  exact cross_alternating.turn _ _ _
/-- **C124**: in exact arithmetic the area of the polygon traversed backwards is the negative. -/
theorem C124_reverse3 (p : Point3 Ideal) (ps : List (Point3 Ideal)) (hp : AllFinite p) (h : ∀ q ∈ ps, AllFinite q) :
    (p.polygon ps.reverse == -(p.polygon ps)) = true := by
  obtain ⟨a, b⟩ := Point3.area_real p ps.reverse hp (by simpa using h)
  obtain ⟨a', b'⟩ := Point3.area_real p ps hp h
  rw [Point3.polygon, Point3.polygon, Vector3.beq_toReal a (Vector3.fin_neg a'), Vector3.toReal_neg a', b, b', List.map_reverse]
  exact cross_alternating.reverse _ _
/-- **C124**: in exact arithmetic the areas of the two parts into which a diagonal divides a polygon add up to its area. -/
theorem C124_split3 (p q : Point3 Ideal) (as bs : List (Point3 Ideal)) (hp : AllFinite p) (hq : AllFinite q) (ha : ∀ r ∈ as, AllFinite r)
    (hb : ∀ r ∈ bs, AllFinite r) : (p.polygon (as ++ q :: bs) == p.polygon (as ++ [q]) + p.polygon (q :: bs)) = true := by
  obtain ⟨a, b⟩ := Point3.area_real p (as ++ q :: bs) hp (by
    intro r hr
    simp only [List.mem_append, List.mem_cons] at hr
    rcases hr with hr | rfl | hr
    exacts [ha r hr, hq, hb r hr])
  obtain ⟨a', b'⟩ := Point3.area_real p (as ++ [q]) hp (by
    intro r hr
    simp only [List.mem_append, List.mem_cons, List.not_mem_nil, or_false] at hr
    rcases hr with hr | rfl
    exacts [ha r hr, hq])
  obtain ⟨c, d⟩ := Point3.area_real p (q :: bs) hp (by
    intro r hr
    rcases List.mem_cons.1 hr with rfl | hr
    exacts [hq, hb r hr])
  rw [Point3.polygon, Point3.polygon, Point3.polygon, Vector3.beq_toReal a (Vector3.fin_add a' c), Vector3.toReal_add a' c, b, b', d, List.map_append, List.map_append,
    List.map_cons, List.map_cons, List.map_nil]
  exact sum_split _ _ _ _
/-- **C124**: in exact arithmetic moving a polygon does not change its area. -/
theorem C124_move3 (v : Vector3 Ideal) (p : Point3 Ideal) (ps : List (Point3 Ideal)) (hv : AllFinite v) (hp : AllFinite p) (h : ∀ q ∈ ps, AllFinite q) :
    ((p + v).polygon (ps.map (· + v)) == p.polygon ps) = true := by
  obtain ⟨a, b⟩ := Point3.area_real (p + v) (ps.map (· + v)) (Point3.fin_addv hp hv) (by
    intro q hq
    obtain ⟨r, hr, rfl⟩ := List.mem_map.1 hq
    exact Point3.fin_addv (h r hr) hv)
  obtain ⟨a', b'⟩ := Point3.area_real p ps hp h
  rw [Point3.polygon, Point3.polygon, Vector3.beq_toReal a a', b, b', exactArea3, exactArea3, legs_map, legs_map, legs_map]
  congr 1
  have := legs_congr (fun x y : Point3 Ideal => crossProduct ((x + v).toReal - (p + v).toReal) ((y + v).toReal - (p + v).toReal))
    (fun x y => crossProduct (x.toReal - p.toReal) (y.toReal - p.toReal)) id ps (fun x hx y hy => by
      rw [Point3.toReal_addv (h x hx) hv, Point3.toReal_addv (h y hy) hv, Point3.toReal_addv hp hv]
      simp only [add_sub_add_right_eq_sub, id])
  rwa [List.map_id] at this
/-- **C124**: in exact arithmetic the area vector of the image of a polygon under an affine transform is the area vector, transformed as a normal
(`n * &t.inverse`) and multiplied by the determinant of the linear part. -/
theorem C124_affine3 {t : Transform3 Ideal} (ht : BuiltAffine3 t) (p : Point3 Ideal) (ps : List (Point3 Ideal))
    (hp : AllFinite p) (h : ∀ q ∈ ps, AllFinite q) (s : Ideal) (hs : IsFinite s) (es : real s = t.forward.linear.det) :
    ((Transform.transform t p : Point3 Ideal).polygon (ps.map fun q => (Transform.transform t q : Point3 Ideal))
      == (p.polygon ps * t.inverse) * s) = true := by
  obtain ⟨f, g, -⟩ := built_inv3 (fun m hm => hm.1) t ht
  obtain ⟨a1, -⟩ := built_affine3 t ht
  obtain ⟨a, b⟩ := Point3.area_real (t.forward * p) (ps.map (t.forward * ·)) (a1.fin_mulp f hp) (by
    intro q hq
    obtain ⟨r, hr, rfl⟩ := List.mem_map.1 hq
    exact a1.fin_mulp f (h r hr))
  obtain ⟨a', b'⟩ := Point3.area_real p ps hp h
  have f1 := Matrix4x4.fin_rowv a' g
  show ((t.forward * p).areaFrom (ps.map (t.forward * ·)) == (p.areaFrom ps * t.inverse) * s) = true
  have key : Matrix.vecMul (exactArea3 (t.forward * p).toReal ((ps.map fun q : Point3 Ideal => (t.forward * q : Point3 Ideal)).map Point3.toReal)) t.forward.linear
      = t.forward.linear.det • exactArea3 p.toReal (ps.map Point3.toReal) := by
    rw [exactArea3, exactArea3, legs_map, legs_map, legs_map]
    have e := legs_congr (fun x y : Point3 Ideal => crossProduct ((t.forward * x).toReal - (t.forward * p).toReal) ((t.forward * y).toReal - (t.forward * p).toReal))
      (fun x y => t.forward.linear.det • crossProduct (x.toReal - p.toReal) (y.toReal - p.toReal))
      (fun v => Matrix.vecMul v t.forward.linear) ps (fun x hx y hy => by
        rw [← Vector3.toReal_subp (a1.fin_mulp f (h x hx)) (a1.fin_mulp f hp), ← Vector3.toReal_subp (a1.fin_mulp f (h y hy)) (a1.fin_mulp f hp),
          a1.sub_mulp f (h x hx) hp, a1.sub_mulp f (h y hy) hp, cofactor_cross])
    have e' := legs_congr (fun x y : Point3 Ideal => crossProduct (x.toReal - p.toReal) (y.toReal - p.toReal))
      (fun x y => t.forward.linear.det • crossProduct (x.toReal - p.toReal) (y.toReal - p.toReal))
      (fun v => t.forward.linear.det • v) ps (fun _ _ _ _ => rfl)
    have l1 : ∀ l : List (Fin 3 → ℝ), Matrix.vecMul l.sum t.forward.linear = (l.map fun v => Matrix.vecMul v t.forward.linear).sum := by
      intro l; induction l with
      | nil => simp
      | cons x l ih => rw [List.sum_cons, List.map_cons, List.sum_cons, Matrix.add_vecMul, ih]
    rw [l1, e, ← e', List.smul_sum]
  rw [Vector3.beq_toReal a (Vector3.fin_mul f1 hs), Vector3.toReal_mul f1 hs, Matrix4x4.toReal_rowv a' g, b, b', es, ← Matrix.smul_vecMul, ← key,
    Matrix.vecMul_vecMul, (built_linear3 ht).2, Matrix.vecMul_one]
/-- **C124**: in exact arithmetic the area vector of a polygon in a plane is parallel to the normal of the plane. -/
theorem C124_plane (n : Vector3 Ideal) (p : Point3 Ideal) (ps : List (Point3 Ideal)) (hn : AllFinite n) (hp : AllFinite p) (h : ∀ q ∈ ps, AllFinite q)
    (hpl : ∀ q ∈ ps, (Api.dot n (q - p : Vector3 Ideal) == (zero : Ideal)) = true) :
    (Api.cross n (p.polygon ps) == (Vector3.zero : Vector3 Ideal)) = true := by
  obtain ⟨a, b⟩ := Point3.area_real p ps hp h
  have z : (Vector3.zero : Vector3 Ideal).toReal = 0 := by
    ext i; fin_cases i <;> simp [Vector3.toReal, Vector3.zero, Vector3.new]
  have d : ∀ q ∈ ps, n.toReal ⬝ᵥ (q.toReal - p.toReal) = 0 := by
    intro q hq
    have e := hpl q hq
    have fq := Vector3.fin_subp (h q hq) hp
    rwa [Ideal.beq_real (Vector3.fin_dot hn fq) finite_zero, Vector3.real_dot hn fq, real_zero, Vector3.toReal_subp (h q hq) hp] at e
  rw [Point3.polygon, Vector3.beq_toReal (Vector3.fin_cross hn a) Vector3.fin_zero, Vector3.toReal_cross hn a, b, z, exactArea3, legs_map]
  have e := legs_congr (fun x y : Point3 Ideal => crossProduct (x.toReal - p.toReal) (y.toReal - p.toReal)) (fun _ _ => (0 : Fin 3 → ℝ))
    (fun v => crossProduct n.toReal v) ps (fun x hx y hy => by
      have e1 := d x hx
      have e2 := d y hy
      generalize x.toReal - p.toReal = u at e1
      generalize y.toReal - p.toReal = w at e2
      rw [cross_cross_eq_smul_sub_smul', e2, dotProduct_comm, e1]
      simp)
  have l : ∀ l : List (Fin 3 → ℝ), crossProduct n.toReal l.sum = (l.map fun v => crossProduct n.toReal v).sum := by
    intro l; induction l with
    | nil => simp
    | cons x l ih => rw [List.sum_cons, List.map_cons, List.sum_cons, map_add, ih]
  rw [l, e]
  refine List.sum_eq_zero fun x hx => ?_
  obtain ⟨_, -, _, -, rfl⟩ := mem_legs _ ps hx
  rfl

end VecMath

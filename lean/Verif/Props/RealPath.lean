import Verif.Spec.Path
import Verif.Props.RealBox
import Verif.Props.RealTransform
import Verif.Lemmas.Num
import Verif.Props.FloatErrorMat
/-!
# Polylines in exact real arithmetic (layer R): C122

(Generated by tools/gen.)
-/

namespace VecMath
open Scalar IEEE

section
variable {P T : Type} (d : P → P → T)
@[simp] theorem legs_nil : legs d [] = [] := rfl
@[simp] theorem legs_one (p : P) : legs d [p] = [] := rfl
@[simp] theorem legs_cons (p q : P) (ps : List P) : legs d (p :: q :: ps) = d p q :: legs d (q :: ps) := rfl
theorem legs_map {Q : Type} (f : Q → P) (ps : List Q) : legs d (ps.map f) = legs (fun a b => d (f a) (f b)) ps := by
  unfold legs
  rw [← List.map_tail, List.zipWith_map]
/-- Every leg is the function of two of the vertices. -/
theorem mem_legs {x : T} (ps : List P) (h : x ∈ legs d ps) : ∃ p ∈ ps, ∃ q ∈ ps, x = d p q := by
  induction ps with
  | nil => simp at h
  | cons p ps ih =>
    cases ps with
    | nil => simp at h
    | cons q ps =>
      rw [legs_cons, List.mem_cons] at h
      rcases h with rfl | h
      · exact ⟨p, by simp, q, by simp, rfl⟩
      · obtain ⟨a, ha, b, hb, e⟩ := ih h
        exact ⟨a, by simp [ha], b, by simp [hb], e⟩
theorem legs_congr {U : Type} (d' : P → P → U) (f : T → U) (ps : List P) (h : ∀ p ∈ ps, ∀ q ∈ ps, f (d p q) = d' p q) :
    (legs d ps).map f = legs d' ps := by
  induction ps with
  | nil => rfl
  | cons p ps ih =>
    cases ps with
    | nil => rfl
    | cons q ps =>
      rw [legs_cons, legs_cons, List.map_cons, h p (by simp) q (by simp), ih fun a ha b hb => h a (by simp [ha]) b (by simp [hb])]
/-- The legs of a path that passes through a vertex. -/
theorem legs_join (as : List P) (p : P) (bs : List P) : legs d (as ++ p :: bs) = legs d (as ++ [p]) ++ legs d (p :: bs) := by
  induction as with
  | nil => simp
  | cons a as ih =>
    cases as with
    | nil => simp
    | cons b as =>
      simp only [List.cons_append] at ih ⊢
      rw [legs_cons, legs_cons, ih, List.cons_append]
theorem legs_reverse (ps : List P) : legs d ps.reverse = (legs (fun a b => d b a) ps).reverse := by
  induction ps with
  | nil => rfl
  | cons p ps ih =>
    cases ps with
    | nil => rfl
    | cons q ps =>
      rw [legs_cons, List.reverse_cons (a := d q p), ← ih, List.reverse_cons, List.reverse_cons, List.append_assoc]
      show legs d (ps.reverse ++ q :: [p]) = _
      rw [legs_join]; simp
end

section
variable {X : Type} [PseudoMetricSpace X]
theorem legs_nonneg (ps : List X) : 0 ≤ (legs dist ps).sum := by
  refine List.sum_nonneg fun x hx => ?_
  obtain ⟨p, -, q, -, rfl⟩ := mem_legs _ ps hx
  exact dist_nonneg
/-- A path is at least as long as the way from its first to its last vertex. -/
theorem legs_direct (p q : X) (ps : List X) : dist p q ≤ (legs dist (p :: (ps ++ [q]))).sum := by
  induction ps generalizing p with
  | nil => simp
  | cons r ps ih =>
    rw [List.cons_append, legs_cons, List.sum_cons]
    linarith [ih r, dist_triangle p r q]
/-- Inserting a vertex makes no path shorter. -/
theorem legs_insert (as bs : List X) (q : X) : (legs dist (as ++ bs)).sum ≤ (legs dist (as ++ q :: bs)).sum := by
  induction as with
  | nil =>
    cases bs with
    | nil => simp
    | cons b bs => simp
  | cons a as ih =>
    cases as with
    | nil =>
      cases bs with
      | nil => simp
      | cons b bs => simp only [List.cons_append, List.nil_append, legs_cons, List.sum_cons]; linarith [dist_triangle a q b]
    | cons a' as =>
      simp only [List.cons_append, legs_cons, List.sum_cons] at ih ⊢
      linarith
end

/-- Adding up finite numbers exactly. -/
theorem ideal_sum (ds : List Ideal) (x : Ideal) (hx : IsFinite x) (h : ∀ d ∈ ds, IsFinite d) :
    IsFinite (ds.foldl (· + ·) x) ∧ real (ds.foldl (· + ·) x) = real x + (ds.map real).sum := by
  induction ds generalizing x with
  | nil => simp [hx]
  | cons d ds ih =>
    have hd := h d (by simp)
    obtain ⟨a, b⟩ := ih (x + d) (Ideal.finite_add hx hd) fun e he => h e (by simp [he])
    rw [List.foldl_cons, List.map_cons, List.sum_cons]
    exact ⟨a, by rw [b, Ideal.real_add hx hd]; ring⟩

/-! ## Dimension 2 -/
theorem Point2.path_real (ps : List (Point2 Ideal)) (h : ∀ p ∈ ps, AllFinite p) :
    IsFinite (Point2.pathLength ps) ∧ real (Point2.pathLength ps) = (legs dist (ps.map Point2.toE)).sum := by
  have hf : ∀ d ∈ legs (Api.distance : Point2 Ideal → Point2 Ideal → Ideal) ps, IsFinite d := by
    intro d hd
    obtain ⟨p, hp, q, hq, rfl⟩ := mem_legs _ ps hd
    exact Point2.fin_distance (h p hp) (h q hq)
  obtain ⟨a, b⟩ := ideal_sum _ zero finite_zero hf
  refine ⟨a, b.trans ?_⟩
  rw [real_zero, zero_add, legs_congr _ _ _ ps fun p hp q hq => Point2.real_distance (h p hp) (h q hq), legs_map]
/-- **C122**: in exact arithmetic a path is at least as long as the way from its first vertex to its last. -/
theorem C122_direct2 (p q : Point2 Ideal) (ps : List (Point2 Ideal)) (hp : AllFinite p) (hq : AllFinite q) (h : ∀ r ∈ ps, AllFinite r) :
    (Api.distance p q ≤? Point2.pathLength (p :: (ps ++ [q]))) = true := by
  have hf : ∀ r ∈ p :: (ps ++ [q]), AllFinite r := by
    intro r hr
    simp only [List.mem_cons, List.mem_append, List.not_mem_nil, or_false] at hr
    rcases hr with rfl | hr | rfl
    exacts [hp, h r hr, hq]
  obtain ⟨a, b⟩ := Point2.path_real _ hf
  rw [Ideal.le_real (Point2.fin_distance hp hq) a, b, Point2.real_distance hp hq, List.map_cons, List.map_append]
  exact legs_direct _ _ _
/-- **C122**: in exact arithmetic a further vertex, wherever it is inserted, makes no path shorter. -/
theorem C122_insert2 (as bs : List (Point2 Ideal)) (q : Point2 Ideal) (h : ∀ r ∈ as ++ q :: bs, AllFinite r) :
    (Point2.pathLength (as ++ bs) ≤? Point2.pathLength (as ++ q :: bs)) = true := by
  have h' : ∀ r ∈ as ++ bs, AllFinite r := fun r hr => h r (by
    simp only [List.mem_append, List.mem_cons] at hr ⊢; tauto)
  obtain ⟨a, b⟩ := Point2.path_real _ h
  obtain ⟨a', b'⟩ := Point2.path_real _ h'
  rw [Ideal.le_real a' a, b, b', List.map_append, List.map_append, List.map_cons]
  exact legs_insert _ _ _
/-- **C122**: in exact arithmetic the length of a path is the sum of the lengths of its two parts, wherever it is divided at a vertex. -/
theorem C122_split2 (as bs : List (Point2 Ideal)) (q : Point2 Ideal) (h : ∀ r ∈ as ++ q :: bs, AllFinite r) :
    (Point2.pathLength (as ++ q :: bs) == Point2.pathLength (as ++ [q]) + Point2.pathLength (q :: bs)) = true := by
  obtain ⟨a, b⟩ := Point2.path_real _ h
  obtain ⟨a1, b1⟩ := Point2.path_real (as ++ [q]) fun r hr => h r (by
    simp only [List.mem_append, List.mem_cons, List.not_mem_nil, or_false] at hr ⊢; tauto)
  obtain ⟨a2, b2⟩ := Point2.path_real (q :: bs) fun r hr => h r (by
    simp only [List.mem_append, List.mem_cons] at hr ⊢; tauto)
  rw [Ideal.beq_real a (Ideal.finite_add a1 a2), Ideal.real_add a1 a2, b, b1, b2, List.map_append, List.map_append, List.map_cons,
    List.map_cons, List.map_nil, legs_join, List.sum_append]
/-- **C122**: in exact arithmetic a path is as long backwards as forwards. -/
theorem C122_reverse2 (ps : List (Point2 Ideal)) (h : ∀ r ∈ ps, AllFinite r) :
    (Point2.pathLength ps.reverse == Point2.pathLength ps) = true := by
  obtain ⟨a, b⟩ := Point2.path_real _ h
  obtain ⟨a', b'⟩ := Point2.path_real ps.reverse fun r hr => h r (List.mem_reverse.1 hr)
  rw [Ideal.beq_real a' a, b, b', List.map_reverse, legs_reverse, List.sum_reverse]
  congr 2
  funext x y
  exact dist_comm _ _
/-- **C122**: in exact arithmetic, moving a path by any sequence of translations and rotations and their inverses keeps its length. -/
theorem C122_motion2 (t : Transform2 Ideal) (hm : Motion2 t) (ps : List (Point2 Ideal)) (h : ∀ r ∈ ps, AllFinite r) :
    (Point2.pathLength (ps.map fun p => (Transform.transform t p : Point2 Ideal)) == Point2.pathLength ps) = true := by
  have k := (C52_rigid2 t hm).1.distance
  obtain ⟨a, b⟩ := Point2.path_real _ h
  have hf : ∀ d ∈ legs (fun p q : Point2 Ideal => (Api.distance (Transform.transform t p : Point2 Ideal) (Transform.transform t q : Point2 Ideal) : Ideal)) ps,
      IsFinite d := by
    intro d hd
    obtain ⟨p, hp, q, hq, rfl⟩ := mem_legs _ ps hd
    exact (finite_num (num_of_beq (k p q (h p hp) (h q hq)))).2 (Point2.fin_distance (h p hp) (h q hq))
  obtain ⟨a', b'⟩ := ideal_sum _ zero finite_zero hf
  have e : Point2.pathLength (ps.map fun p => (Transform.transform t p : Point2 Ideal)) = (legs (fun p q : Point2 Ideal =>
      (Api.distance (Transform.transform t p : Point2 Ideal) (Transform.transform t q : Point2 Ideal) : Ideal)) ps).foldl (· + ·) zero := by
    unfold Point2.pathLength; rw [legs_map]
  rw [e, Ideal.beq_real a' a, b, b', real_zero, zero_add, legs_map, legs_congr _ _ _ ps fun p hp q hq => ?_]
  have f := Point2.fin_distance (h p hp) (h q hq)
  rw [(Ideal.beq_real ((finite_num (num_of_beq (k p q (h p hp) (h q hq)))).2 f) f).1 (k p q (h p hp) (h q hq)), Point2.real_distance (h p hp) (h q hq)]

/-! ## Dimension 3 -/
theorem Point3.path_real (ps : List (Point3 Ideal)) (h : ∀ p ∈ ps, AllFinite p) :
    IsFinite (Point3.pathLength ps) ∧ real (Point3.pathLength ps) = (legs dist (ps.map Point3.toE)).sum := by
  have hf : ∀ d ∈ legs (Api.distance : Point3 Ideal → Point3 Ideal → Ideal) ps, IsFinite d := by
    intro d hd
    obtain ⟨p, hp, q, hq, rfl⟩ := mem_legs _ ps hd
    exact Point3.fin_distance (h p hp) (h q hq)
  obtain ⟨a, b⟩ := ideal_sum _ zero finite_zero hf
  refine ⟨a, b.trans ?_⟩
  rw [real_zero, zero_add, legs_congr _ _ _ ps fun p hp q hq => Point3.real_distance (h p hp) (h q hq), legs_map]
/-- **C122**: in exact arithmetic a path is at least as long as the way from its first vertex to its last. -/
theorem C122_direct3 (p q : Point3 Ideal) (ps : List (Point3 Ideal)) (hp : AllFinite p) (hq : AllFinite q) (h : ∀ r ∈ ps, AllFinite r) :
    (Api.distance p q ≤? Point3.pathLength (p :: (ps ++ [q]))) = true := by
  have hf : ∀ r ∈ p :: (ps ++ [q]), AllFinite r := by
    intro r hr
    simp only [List.mem_cons, List.mem_append, List.not_mem_nil, or_false] at hr
    rcases hr with rfl | hr | rfl
    exacts [hp, h r hr, hq]
  obtain ⟨a, b⟩ := Point3.path_real _ hf
  rw [Ideal.le_real (Point3.fin_distance hp hq) a, b, Point3.real_distance hp hq, List.map_cons, List.map_append]
  exact legs_direct _ _ _
/-- **C122**: in exact arithmetic a further vertex, wherever it is inserted, makes no path shorter. -/
theorem C122_insert3 (as bs : List (Point3 Ideal)) (q : Point3 Ideal) (h : ∀ r ∈ as ++ q :: bs, AllFinite r) :
    (Point3.pathLength (as ++ bs) ≤? Point3.pathLength (as ++ q :: bs)) = true := by
  have h' : ∀ r ∈ as ++ bs, AllFinite r := fun r hr => h r (by
    simp only [List.mem_append, List.mem_cons] at hr ⊢; tauto)
  obtain ⟨a, b⟩ := Point3.path_real _ h
  obtain ⟨a', b'⟩ := Point3.path_real _ h'
  rw [Ideal.le_real a' a, b, b', List.map_append, List.map_append, List.map_cons]
  exact legs_insert _ _ _
/-- **C122**: in exact arithmetic the length of a path is the sum of the lengths of its two parts, wherever it is divided at a vertex. -/
theorem C122_split3 (as bs : List (Point3 Ideal)) (q : Point3 Ideal) (h : ∀ r ∈ as ++ q :: bs, AllFinite r) :
    (Point3.pathLength (as ++ q :: bs) == Point3.pathLength (as ++ [q]) + Point3.pathLength (q :: bs)) = true := by
  obtain ⟨a, b⟩ := Point3.path_real _ h
  obtain ⟨a1, b1⟩ := Point3.path_real (as ++ [q]) fun r hr => h r (by
    simp only [List.mem_append, List.mem_cons, List.not_mem_nil, or_false] at hr ⊢; tauto)
  obtain ⟨a2, b2⟩ := Point3.path_real (q :: bs) fun r hr => h r (by
    simp only [List.mem_append, List.mem_cons] at hr ⊢; tauto)
  rw [Ideal.beq_real a (Ideal.finite_add a1 a2), Ideal.real_add a1 a2, b, b1, b2, List.map_append, List.map_append, List.map_cons,
    List.map_cons, List.map_nil, legs_join, List.sum_append]
/-- **C122**: in exact arithmetic a path is as long backwards as forwards. -/
theorem C122_reverse3 (ps : List (Point3 Ideal)) (h : ∀ r ∈ ps, AllFinite r) :
    (Point3.pathLength ps.reverse == Point3.pathLength ps) = true := by
  obtain ⟨a, b⟩ := Point3.path_real _ h
  obtain ⟨a', b'⟩ := Point3.path_real ps.reverse fun r hr => h r (List.mem_reverse.1 hr)
  rw [Ideal.beq_real a' a, b, b', List.map_reverse, legs_reverse, List.sum_reverse]
  congr 2
  funext x y
  exact dist_comm _ _
/-- **C122**: in exact arithmetic, moving a path by any sequence of translations and rotations and their inverses keeps its length. -/
theorem C122_motion3 (t : Transform3 Ideal) (hm : Motion3 t) (ps : List (Point3 Ideal)) (h : ∀ r ∈ ps, AllFinite r) :
    (Point3.pathLength (ps.map fun p => (Transform.transform t p : Point3 Ideal)) == Point3.pathLength ps) = true := by
  have k := (C52_rigid3 t hm).1.distance
  obtain ⟨a, b⟩ := Point3.path_real _ h
  have hf : ∀ d ∈ legs (fun p q : Point3 Ideal => (Api.distance (Transform.transform t p : Point3 Ideal) (Transform.transform t q : Point3 Ideal) : Ideal)) ps,
      IsFinite d := by
    intro d hd
    obtain ⟨p, hp, q, hq, rfl⟩ := mem_legs _ ps hd
    exact (finite_num (num_of_beq (k p q (h p hp) (h q hq)))).2 (Point3.fin_distance (h p hp) (h q hq))
  obtain ⟨a', b'⟩ := ideal_sum _ zero finite_zero hf
  have e : Point3.pathLength (ps.map fun p => (Transform.transform t p : Point3 Ideal)) = (legs (fun p q : Point3 Ideal =>
      (Api.distance (Transform.transform t p : Point3 Ideal) (Transform.transform t q : Point3 Ideal) : Ideal)) ps).foldl (· + ·) zero := by
    unfold Point3.pathLength; rw [legs_map]
  rw [e, Ideal.beq_real a' a, b, b', real_zero, zero_add, legs_map, legs_congr _ _ _ ps fun p hp q hq => ?_]
  have f := Point3.fin_distance (h p hp) (h q hq)
  rw [(Ideal.beq_real ((finite_num (num_of_beq (k p q (h p hp) (h q hq)))).2 f) f).1 (k p q (h p hp) (h q hq)), Point3.real_distance (h p hp) (h q hq)]

end VecMath

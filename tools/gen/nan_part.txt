import Verif.Lemmas.Symm
import Verif.Lemmas.Float
import Verif.Props.FloatMatrix
/-!
# Layer F: what a NaN coordinate does, everywhere in the API (C75)

`¬ NoNaN t` reads "some component of `t` is NaN". (Generated by tools/gen/nan.py.)
-/

open Classical

namespace VecMath
open Scalar IEEE

variable {S : Type} [Scalar S] [IEEE S]

theorem isNaN_sqrt {a : S} (h : IsNaN a) : IsNaN (Scalar.sqrt a) := by
  unfold IsNaN at *; rw [den_sqrt, h]; simp [Rounding.sqrt]
/-- Chases a NaN through an arithmetic expression. -/
macro "chase_nan" : tactic => `(tactic| with_reducible
  solve_by_elim (maxDepth := 12) [isNaN_add_left, isNaN_add_right, isNaN_sub_left, isNaN_sub_right,
    isNaN_mul_left, isNaN_mul_right, isNaN_div_left, isNaN_div_right, isNaN_sqrt])
theorem lt_nan_left {a b : S} (h : IsNaN a) : (a <? b) = false := by
  rw [Bool.eq_false_iff]; exact fun h' => (lt_iff.1 h').1 h
theorem lt_nan_right {a b : S} (h : IsNaN b) : (a <? b) = false := by
  rw [Bool.eq_false_iff]; exact fun h' => (lt_iff.1 h').2.1 h
theorem le_nan_left {a b : S} (h : IsNaN a) : (a ≤? b) = false := by
  rw [Bool.eq_false_iff]; exact fun h' => (le_iff.1 h').1 h
theorem le_nan_right {a b : S} (h : IsNaN b) : (a ≤? b) = false := by
  rw [Bool.eq_false_iff]; exact fun h' => (le_iff.1 h').2.1 h

/-! ## Unfolding -/

theorem Vector2.someNaN {v : Vector2 S} : ¬ NoNaN v ↔ IsNaN v.x ∨ IsNaN v.y := by
  simp only [NoNaN, Comps.comps, List.mem_cons, List.not_mem_nil, or_false, forall_eq_or_imp, forall_eq]; tauto
theorem Vector2.allNaN {v : Vector2 S} : AllNaN v ↔ IsNaN v.x ∧ IsNaN v.y := by
  simp only [AllNaN, Comps.comps, List.mem_cons, List.not_mem_nil, or_false, forall_eq_or_imp, forall_eq]

theorem Point2.someNaN {v : Point2 S} : ¬ NoNaN v ↔ IsNaN v.x ∨ IsNaN v.y := by
  simp only [NoNaN, Comps.comps, List.mem_cons, List.not_mem_nil, or_false, forall_eq_or_imp, forall_eq]; tauto
theorem Point2.allNaN {v : Point2 S} : AllNaN v ↔ IsNaN v.x ∧ IsNaN v.y := by
  simp only [AllNaN, Comps.comps, List.mem_cons, List.not_mem_nil, or_false, forall_eq_or_imp, forall_eq]

theorem BoundingBox2.someNaN {b : BoundingBox2 S} : ¬ NoNaN b ↔ ¬ NoNaN b.min ∨ ¬ NoNaN b.max := by
  rw [BoundingBox2.noNaN]; tauto
theorem Ray2.someNaN {r : Ray2 S} : ¬ NoNaN r ↔ ¬ NoNaN r.origin ∨ ¬ NoNaN r.direction := by
  unfold NoNaN; simp only [Comps.comps, List.mem_append, or_imp, forall_and]; tauto
theorem sameAll_point2 {a b : Point2 S} : SameAll a b ↔ Same a.x b.x ∧ Same a.y b.y := by
  simp [SameAll, Comps.comps]
theorem sameAll_of_allNaN2 {a b : Point2 S} (ha : AllNaN a) (hb : AllNaN b) : SameAll a b := by
  rw [Point2.allNaN] at ha hb; rw [sameAll_point2]; unfold IsNaN at ha hb; unfold Same; simp [ha, hb]

theorem Vector3.someNaN {v : Vector3 S} : ¬ NoNaN v ↔ IsNaN v.x ∨ IsNaN v.y ∨ IsNaN v.z := by
  simp only [NoNaN, Comps.comps, List.mem_cons, List.not_mem_nil, or_false, forall_eq_or_imp, forall_eq]; tauto
theorem Vector3.allNaN {v : Vector3 S} : AllNaN v ↔ IsNaN v.x ∧ IsNaN v.y ∧ IsNaN v.z := by
  simp only [AllNaN, Comps.comps, List.mem_cons, List.not_mem_nil, or_false, forall_eq_or_imp, forall_eq]

theorem Point3.someNaN {v : Point3 S} : ¬ NoNaN v ↔ IsNaN v.x ∨ IsNaN v.y ∨ IsNaN v.z := by
  simp only [NoNaN, Comps.comps, List.mem_cons, List.not_mem_nil, or_false, forall_eq_or_imp, forall_eq]; tauto
theorem Point3.allNaN {v : Point3 S} : AllNaN v ↔ IsNaN v.x ∧ IsNaN v.y ∧ IsNaN v.z := by
  simp only [AllNaN, Comps.comps, List.mem_cons, List.not_mem_nil, or_false, forall_eq_or_imp, forall_eq]

theorem BoundingBox3.someNaN {b : BoundingBox3 S} : ¬ NoNaN b ↔ ¬ NoNaN b.min ∨ ¬ NoNaN b.max := by
  rw [BoundingBox3.noNaN]; tauto
theorem Ray3.someNaN {r : Ray3 S} : ¬ NoNaN r ↔ ¬ NoNaN r.origin ∨ ¬ NoNaN r.direction := by
  unfold NoNaN; simp only [Comps.comps, List.mem_append, or_imp, forall_and]; tauto
theorem sameAll_point3 {a b : Point3 S} : SameAll a b ↔ Same a.x b.x ∧ Same a.y b.y ∧ Same a.z b.z := by
  simp [SameAll, Comps.comps]
theorem sameAll_of_allNaN3 {a b : Point3 S} (ha : AllNaN a) (hb : AllNaN b) : SameAll a b := by
  rw [Point3.allNaN] at ha hb; rw [sameAll_point3]; unfold IsNaN at ha hb; unfold Same; simp [ha, hb]

/-! ## NaN is contagious in arithmetic -/

/-- **C75**: a NaN coordinate makes `dot` NaN. -/
theorem C75_dot2 (a b : Vector2 S) (h : ¬ NoNaN a ∨ ¬ NoNaN b) : IsNaN (Api.dot a b : S) := by
  show IsNaN (a.x * b.x + a.y * b.y)
  rw [Vector2.someNaN, Vector2.someNaN] at h
  rcases h with h | h <;> rcases h with h | h <;> chase_nan
/-- **C75**: a NaN coordinate makes `length` NaN, and only that does. -/
theorem C75_length2 (v : Vector2 S) : IsNaN (Api.length v : S) ↔ ¬ NoNaN v := by
  refine ⟨fun h hn => ?_, fun h => isNaN_sqrt (C75_dot2 v v (.inl h))⟩
  rw [Vector2.noNaN] at hn
  have hd : ¬ IsNaN (Api.dot v v : S) ∧ 0 ≤ val (Api.dot v v : S) := by
    DOTPROOF2
  exact hd.1 ((isNaN_sqrt_nonneg hd.2).1 h)
/-- **C75**: `normalize` of a vector with a NaN coordinate is NaN in every coordinate. -/
theorem C75_normalize2 (v : Vector2 S) (h : ¬ NoNaN v) : AllNaN v.normalize := by
  have := (C75_length2 v).2 h
  rw [Vector2.allNaN]
  exact ⟨isNaN_div_right this, isNaN_div_right this⟩
/-- **C75**: a NaN coordinate makes `distance` NaN. -/
theorem C75_distance2 (a b : Point2 S) (h : ¬ NoNaN a ∨ ¬ NoNaN b) : IsNaN (Api.distance a b : S) := by
  refine (C75_length2 (b - a)).2 (Vector2.someNaN.2 ?_)
  show IsNaN (b.x - a.x) ∨ IsNaN (b.y - a.y)
  rw [Point2.someNaN, Point2.someNaN] at h
  rcases h with h | h <;> rcases h with h | h <;>
    first | exact .inl (by chase_nan) | exact .inr (by chase_nan)
/-- **C75**: no vector is shorter or longer than, or than it, when a NaN is involved, and the selections then always
return their second candidate — even if that is the one with the NaN. -/
theorem C75_relative_length2 (a b : Vector2 S) (h : ¬ NoNaN a ∨ ¬ NoNaN b) :
    RelativeLength.isShorterThan a b = false ∧ RelativeLength.isLongerThan a b = false ∧ Api.shortest a b = b ∧ Api.longest a b = b := by
  have hn : IsNaN (Api.dot a a : S) ∨ IsNaN (Api.dot b b : S) :=
    h.imp (fun h => C75_dot2 a a (.inl h)) (fun h => C75_dot2 b b (.inl h))
  have h1 : ((Api.dot a a : S) <? (Api.dot b b : S)) = false := hn.elim lt_nan_left lt_nan_right
  have h2 : ((Api.dot b b : S) <? (Api.dot a a : S)) = false := hn.elim lt_nan_right lt_nan_left
  refine ⟨h1, h2, ?_, ?_⟩
  · show (if ((Api.dot a a : S) <? (Api.dot b b : S)) then a else b) = b
    rw [h1]; rfl
  · show (if ((Api.dot b b : S) <? (Api.dot a a : S)) then a else b) = b
    rw [h2]; rfl
/-- **C75**: the same for distances. -/
theorem C75_relative_distance2 (p a b : Point2 S) (h : ¬ NoNaN p ∨ ¬ NoNaN a ∨ ¬ NoNaN b) :
    RelativeDistance.isCloserTo p a b = false ∧ RelativeDistance.isFartherFrom p a b = false ∧ Api.closest p a b = b ∧ Api.farthest p a b = b := by
  have nn : ∀ q : Point2 S, ¬ NoNaN p ∨ ¬ NoNaN q → ¬ NoNaN (q - p : Vector2 S) := by
    intro q h
    rw [Vector2.someNaN]
    show IsNaN (q.x - p.x) ∨ IsNaN (q.y - p.y)
    rw [Point2.someNaN, Point2.someNaN] at h
    rcases h with h | h <;> rcases h with h | h <;>
      first | exact .inl (by chase_nan) | exact .inr (by chase_nan)
  have hn : ¬ NoNaN (a - p : Vector2 S) ∨ ¬ NoNaN (b - p : Vector2 S) := by
    rcases h with h | h | h
    · exact .inl (nn a (.inl h))
    · exact .inl (nn a (.inr h))
    · exact .inr (nn b (.inr h))
  obtain ⟨h1, h2, -, -⟩ := C75_relative_length2 _ _ hn
  have h1' : Point2.isCloserTo p a b = false := h1
  have h2' : Point2.isFartherFrom p a b = false := h2
  refine ⟨h1, h2, ?_, ?_⟩
  · show (if Point2.isCloserTo p a b then a else b) = b
    rw [h1']; rfl
  · show (if Point2.isFartherFrom p a b then a else b) = b
    rw [h2']; rfl
/-- **C75**: `ray.at t` is NaN in a coordinate if the origin or the direction is NaN in that coordinate, and NaN in all
of them if `t` is NaN. -/
theorem C75_ray_at2 (r : Ray2 S) (t : S) :
    (IsNaN r.origin.x ∨ IsNaN r.direction.x ∨ IsNaN t → IsNaN (r.at t).x) ∧ (IsNaN r.origin.y ∨ IsNaN r.direction.y ∨ IsNaN t → IsNaN (r.at t).y) := by
  refine ⟨?_, ?_⟩

  · show _ → IsNaN (r.origin.x + r.direction.x * t)
    rintro (h | h | h) <;> chase_nan
  · show _ → IsNaN (r.origin.y + r.direction.y * t)
    rintro (h | h | h) <;> chase_nan

/-- **C75**: a NaN coordinate makes `dot` NaN. -/
theorem C75_dot3 (a b : Vector3 S) (h : ¬ NoNaN a ∨ ¬ NoNaN b) : IsNaN (Api.dot a b : S) := by
  show IsNaN (a.x * b.x + a.y * b.y + a.z * b.z)
  rw [Vector3.someNaN, Vector3.someNaN] at h
  rcases h with h | h <;> rcases h with h | h | h <;> chase_nan
/-- **C75**: a NaN coordinate makes `length` NaN, and only that does. -/
theorem C75_length3 (v : Vector3 S) : IsNaN (Api.length v : S) ↔ ¬ NoNaN v := by
  refine ⟨fun h hn => ?_, fun h => isNaN_sqrt (C75_dot3 v v (.inl h))⟩
  rw [Vector3.noNaN] at hn
  have hd : ¬ IsNaN (Api.dot v v : S) ∧ 0 ≤ val (Api.dot v v : S) := by
    DOTPROOF3
  exact hd.1 ((isNaN_sqrt_nonneg hd.2).1 h)
/-- **C75**: `normalize` of a vector with a NaN coordinate is NaN in every coordinate. -/
theorem C75_normalize3 (v : Vector3 S) (h : ¬ NoNaN v) : AllNaN v.normalize := by
  have := (C75_length3 v).2 h
  rw [Vector3.allNaN]
  exact ⟨isNaN_div_right this, isNaN_div_right this, isNaN_div_right this⟩
/-- **C75**: a NaN coordinate makes `distance` NaN. -/
theorem C75_distance3 (a b : Point3 S) (h : ¬ NoNaN a ∨ ¬ NoNaN b) : IsNaN (Api.distance a b : S) := by
  refine (C75_length3 (b - a)).2 (Vector3.someNaN.2 ?_)
  show IsNaN (b.x - a.x) ∨ IsNaN (b.y - a.y) ∨ IsNaN (b.z - a.z)
  rw [Point3.someNaN, Point3.someNaN] at h
  rcases h with h | h <;> rcases h with h | h | h <;>
    first | exact .inl (by chase_nan) | exact .inr (.inl (by chase_nan)) | exact .inr (.inr (by chase_nan))
/-- **C75**: no vector is shorter or longer than, or than it, when a NaN is involved, and the selections then always
return their second candidate — even if that is the one with the NaN. -/
theorem C75_relative_length3 (a b : Vector3 S) (h : ¬ NoNaN a ∨ ¬ NoNaN b) :
    RelativeLength.isShorterThan a b = false ∧ RelativeLength.isLongerThan a b = false ∧ Api.shortest a b = b ∧ Api.longest a b = b := by
  have hn : IsNaN (Api.dot a a : S) ∨ IsNaN (Api.dot b b : S) :=
    h.imp (fun h => C75_dot3 a a (.inl h)) (fun h => C75_dot3 b b (.inl h))
  have h1 : ((Api.dot a a : S) <? (Api.dot b b : S)) = false := hn.elim lt_nan_left lt_nan_right
  have h2 : ((Api.dot b b : S) <? (Api.dot a a : S)) = false := hn.elim lt_nan_right lt_nan_left
  refine ⟨h1, h2, ?_, ?_⟩
  · show (if ((Api.dot a a : S) <? (Api.dot b b : S)) then a else b) = b
    rw [h1]; rfl
  · show (if ((Api.dot b b : S) <? (Api.dot a a : S)) then a else b) = b
    rw [h2]; rfl
/-- **C75**: the same for distances. -/
theorem C75_relative_distance3 (p a b : Point3 S) (h : ¬ NoNaN p ∨ ¬ NoNaN a ∨ ¬ NoNaN b) :
    RelativeDistance.isCloserTo p a b = false ∧ RelativeDistance.isFartherFrom p a b = false ∧ Api.closest p a b = b ∧ Api.farthest p a b = b := by
  have nn : ∀ q : Point3 S, ¬ NoNaN p ∨ ¬ NoNaN q → ¬ NoNaN (q - p : Vector3 S) := by
    intro q h
    rw [Vector3.someNaN]
    show IsNaN (q.x - p.x) ∨ IsNaN (q.y - p.y) ∨ IsNaN (q.z - p.z)
    rw [Point3.someNaN, Point3.someNaN] at h
    rcases h with h | h <;> rcases h with h | h | h <;>
      first | exact .inl (by chase_nan) | exact .inr (.inl (by chase_nan)) | exact .inr (.inr (by chase_nan))
  have hn : ¬ NoNaN (a - p : Vector3 S) ∨ ¬ NoNaN (b - p : Vector3 S) := by
    rcases h with h | h | h
    · exact .inl (nn a (.inl h))
    · exact .inl (nn a (.inr h))
    · exact .inr (nn b (.inr h))
  obtain ⟨h1, h2, -, -⟩ := C75_relative_length3 _ _ hn
  have h1' : Point3.isCloserTo p a b = false := h1
  have h2' : Point3.isFartherFrom p a b = false := h2
  refine ⟨h1, h2, ?_, ?_⟩
  · show (if Point3.isCloserTo p a b then a else b) = b
    rw [h1']; rfl
  · show (if Point3.isFartherFrom p a b then a else b) = b
    rw [h2']; rfl
/-- **C75**: `ray.at t` is NaN in a coordinate if the origin or the direction is NaN in that coordinate, and NaN in all
of them if `t` is NaN. -/
theorem C75_ray_at3 (r : Ray3 S) (t : S) :
    (IsNaN r.origin.x ∨ IsNaN r.direction.x ∨ IsNaN t → IsNaN (r.at t).x) ∧ (IsNaN r.origin.y ∨ IsNaN r.direction.y ∨ IsNaN t → IsNaN (r.at t).y) ∧ (IsNaN r.origin.z ∨ IsNaN r.direction.z ∨ IsNaN t → IsNaN (r.at t).z) := by
  refine ⟨?_, ?_, ?_⟩

  · show _ → IsNaN (r.origin.x + r.direction.x * t)
    rintro (h | h | h) <;> chase_nan
  · show _ → IsNaN (r.origin.y + r.direction.y * t)
    rintro (h | h | h) <;> chase_nan
  · show _ → IsNaN (r.origin.z + r.direction.z * t)
    rintro (h | h | h) <;> chase_nan

/-- **C75**: in a cross product a NaN coordinate makes the two *other* coordinates NaN. -/
theorem C75_cross (a b : Vector3 S) :
    (IsNaN a.x ∨ IsNaN b.x → IsNaN (Api.cross a b : Vector3 S).y ∧ IsNaN (Api.cross a b : Vector3 S).z) ∧
    (IsNaN a.y ∨ IsNaN b.y → IsNaN (Api.cross a b : Vector3 S).x ∧ IsNaN (Api.cross a b : Vector3 S).z) ∧
    (IsNaN a.z ∨ IsNaN b.z → IsNaN (Api.cross a b : Vector3 S).x ∧ IsNaN (Api.cross a b : Vector3 S).y) := by
  refine ⟨?_, ?_, ?_⟩
  · show _ → IsNaN (a.z * b.x - a.x * b.z) ∧ IsNaN (a.x * b.y - a.y * b.x)
    rintro (h | h) <;> constructor <;> chase_nan
  · show _ → IsNaN (a.y * b.z - a.z * b.y) ∧ IsNaN (a.x * b.y - a.y * b.x)
    rintro (h | h) <;> constructor <;> chase_nan
  · show _ → IsNaN (a.y * b.z - a.z * b.y) ∧ IsNaN (a.z * b.x - a.x * b.z)
    rintro (h | h) <;> constructor <;> chase_nan

/-! ## Matrices and transforms -/

/-- **C75**: a NaN coordinate of the operand makes every coordinate of `m * v` NaN, whatever the matrix. -/
theorem C75_matrix_point2 (m : Matrix3x3 S) (v : Point2 S) (h : ¬ NoNaN v) : AllNaN (m * v : Point2 S) := by
  rw [Point2.allNaN]
  show IsNaN ((m.m[0] * v.x + m.m[1] * v.y + m.m[2]) / (m.m[6] * v.x + m.m[7] * v.y + m.m[8])) ∧ IsNaN ((m.m[3] * v.x + m.m[4] * v.y + m.m[5]) / (m.m[6] * v.x + m.m[7] * v.y + m.m[8]))
  rw [Point2.someNaN] at h
  rcases h with h | h <;> refine ⟨?_, ?_⟩ <;> chase_nan

/-- **C75**: a NaN coordinate of the operand makes every coordinate of `v * m` NaN, whatever the matrix. -/
theorem C75_matrix_point_row2 (m : Matrix3x3 S) (v : Point2 S) (h : ¬ NoNaN v) : AllNaN (v * m : Point2 S) := by
  rw [Point2.allNaN]
  show IsNaN ((v.x * m.m[0] + v.y * m.m[3] + m.m[6]) / (v.x * m.m[2] + v.y * m.m[5] + m.m[8])) ∧ IsNaN ((v.x * m.m[1] + v.y * m.m[4] + m.m[7]) / (v.x * m.m[2] + v.y * m.m[5] + m.m[8]))
  rw [Point2.someNaN] at h
  rcases h with h | h <;> refine ⟨?_, ?_⟩ <;> chase_nan

/-- **C75**: a NaN coordinate of the operand makes every coordinate of `m * v` NaN, whatever the matrix. -/
theorem C75_matrix_vector2 (m : Matrix3x3 S) (v : Vector2 S) (h : ¬ NoNaN v) : AllNaN (m * v : Vector2 S) := by
  rw [Vector2.allNaN]
  show IsNaN (m.m[0] * v.x + m.m[1] * v.y) ∧ IsNaN (m.m[3] * v.x + m.m[4] * v.y)
  rw [Vector2.someNaN] at h
  rcases h with h | h <;> refine ⟨?_, ?_⟩ <;> chase_nan

/-- **C75**: a NaN coordinate of the operand makes every coordinate of `v * m` NaN, whatever the matrix. -/
theorem C75_matrix_vector_row2 (m : Matrix3x3 S) (v : Vector2 S) (h : ¬ NoNaN v) : AllNaN (v * m : Vector2 S) := by
  rw [Vector2.allNaN]
  show IsNaN (v.x * m.m[0] + v.y * m.m[3]) ∧ IsNaN (v.x * m.m[1] + v.y * m.m[4])
  rw [Vector2.someNaN] at h
  rcases h with h | h <;> refine ⟨?_, ?_⟩ <;> chase_nan

/-- **C75**: a transform turns a ray whose origin (direction) has a NaN coordinate into one whose origin (direction)
is all NaN. -/
theorem C75_transform_ray2 (t : Transform2 S) (r : Ray2 S) :
    (¬ NoNaN r.origin → AllNaN (Transform.transform t r : Ray2 S).origin) ∧
    (¬ NoNaN r.direction → AllNaN (Transform.transform t r : Ray2 S).direction) :=
  ⟨C75_matrix_point2 t.forward r.origin, C75_matrix_vector2 t.forward r.direction⟩

/-- **C75**: in a product, a NaN in row `i` of the left factor makes row `i` NaN. -/
theorem C75_product_left2 (a b : Matrix3x3 S) (i j k : Fin 3) (h : IsNaN a.m[3 * i.val + k.val]) :
    IsNaN (a * b).m[3 * i.val + j.val] := by
  fin_cases i <;> fin_cases k <;> simp only [Fin.zero_eta, Fin.mk_one, Fin.reduceFinMk, Fin.val_zero, Fin.val_one, Fin.isValue] at h <;>
    fin_cases j <;> PRODUNF
/-- **C75**: in a product, a NaN in column `j` of the right factor makes column `j` NaN. -/
theorem C75_product_right2 (a b : Matrix3x3 S) (i j k : Fin 3) (h : IsNaN b.m[3 * k.val + j.val]) :
    IsNaN (a * b).m[3 * i.val + j.val] := by
  fin_cases i <;> fin_cases k <;> simp only [Fin.zero_eta, Fin.mk_one, Fin.reduceFinMk, Fin.val_zero, Fin.val_one, Fin.isValue] at h <;>
    fin_cases j <;> PRODUNF

/-- **C75**: `TryFrom` accepts a matrix with a NaN anywhere; the transform it returns has an all-NaN inverse. -/
theorem C75_try_from2 (m : Matrix3x3 S) (h : ¬ NoNaN m) : ∃ t, Transform2.tryFrom m = .ok t ∧ t.forward = m ∧ AllNaN t.inverse := by
  obtain ⟨i, e, hi⟩ := C45_nan_accepted2 m h
  exact ⟨⟨m, i⟩, by unfold Transform2.tryFrom; rw [e]; rfl, rfl, hi⟩

/-- **C75**: a NaN coordinate of the operand makes every coordinate of `m * v` NaN, whatever the matrix. -/
theorem C75_matrix_point3 (m : Matrix4x4 S) (v : Point3 S) (h : ¬ NoNaN v) : AllNaN (m * v : Point3 S) := by
  rw [Point3.allNaN]
  show IsNaN ((m.m[0] * v.x + m.m[1] * v.y + m.m[2] * v.z + m.m[3]) / (m.m[12] * v.x + m.m[13] * v.y + m.m[14] * v.z + m.m[15])) ∧ IsNaN ((m.m[4] * v.x + m.m[5] * v.y + m.m[6] * v.z + m.m[7]) / (m.m[12] * v.x + m.m[13] * v.y + m.m[14] * v.z + m.m[15])) ∧ IsNaN ((m.m[8] * v.x + m.m[9] * v.y + m.m[10] * v.z + m.m[11]) / (m.m[12] * v.x + m.m[13] * v.y + m.m[14] * v.z + m.m[15]))
  rw [Point3.someNaN] at h
  rcases h with h | h | h <;> refine ⟨?_, ?_, ?_⟩ <;> chase_nan

/-- **C75**: a NaN coordinate of the operand makes every coordinate of `v * m` NaN, whatever the matrix. -/
theorem C75_matrix_point_row3 (m : Matrix4x4 S) (v : Point3 S) (h : ¬ NoNaN v) : AllNaN (v * m : Point3 S) := by
  rw [Point3.allNaN]
  show IsNaN ((v.x * m.m[0] + v.y * m.m[4] + v.z * m.m[8] + m.m[12]) / (v.x * m.m[3] + v.y * m.m[7] + v.z * m.m[11] + m.m[15])) ∧ IsNaN ((v.x * m.m[1] + v.y * m.m[5] + v.z * m.m[9] + m.m[13]) / (v.x * m.m[3] + v.y * m.m[7] + v.z * m.m[11] + m.m[15])) ∧ IsNaN ((v.x * m.m[2] + v.y * m.m[6] + v.z * m.m[10] + m.m[14]) / (v.x * m.m[3] + v.y * m.m[7] + v.z * m.m[11] + m.m[15]))
  rw [Point3.someNaN] at h
  rcases h with h | h | h <;> refine ⟨?_, ?_, ?_⟩ <;> chase_nan

/-- **C75**: a NaN coordinate of the operand makes every coordinate of `m * v` NaN, whatever the matrix. -/
theorem C75_matrix_vector3 (m : Matrix4x4 S) (v : Vector3 S) (h : ¬ NoNaN v) : AllNaN (m * v : Vector3 S) := by
  rw [Vector3.allNaN]
  show IsNaN (m.m[0] * v.x + m.m[1] * v.y + m.m[2] * v.z) ∧ IsNaN (m.m[4] * v.x + m.m[5] * v.y + m.m[6] * v.z) ∧ IsNaN (m.m[8] * v.x + m.m[9] * v.y + m.m[10] * v.z)
  rw [Vector3.someNaN] at h
  rcases h with h | h | h <;> refine ⟨?_, ?_, ?_⟩ <;> chase_nan

/-- **C75**: a NaN coordinate of the operand makes every coordinate of `v * m` NaN, whatever the matrix. -/
theorem C75_matrix_vector_row3 (m : Matrix4x4 S) (v : Vector3 S) (h : ¬ NoNaN v) : AllNaN (v * m : Vector3 S) := by
  rw [Vector3.allNaN]
  show IsNaN (v.x * m.m[0] + v.y * m.m[4] + v.z * m.m[8]) ∧ IsNaN (v.x * m.m[1] + v.y * m.m[5] + v.z * m.m[9]) ∧ IsNaN (v.x * m.m[2] + v.y * m.m[6] + v.z * m.m[10])
  rw [Vector3.someNaN] at h
  rcases h with h | h | h <;> refine ⟨?_, ?_, ?_⟩ <;> chase_nan

/-- **C75**: a transform turns a ray whose origin (direction) has a NaN coordinate into one whose origin (direction)
is all NaN. -/
theorem C75_transform_ray3 (t : Transform3 S) (r : Ray3 S) :
    (¬ NoNaN r.origin → AllNaN (Transform.transform t r : Ray3 S).origin) ∧
    (¬ NoNaN r.direction → AllNaN (Transform.transform t r : Ray3 S).direction) :=
  ⟨C75_matrix_point3 t.forward r.origin, C75_matrix_vector3 t.forward r.direction⟩

/-- **C75**: in a product, a NaN in row `i` of the left factor makes row `i` NaN. -/
theorem C75_product_left3 (a b : Matrix4x4 S) (i j k : Fin 4) (h : IsNaN a.m[4 * i.val + k.val]) :
    IsNaN (a * b).m[4 * i.val + j.val] := by
  fin_cases i <;> fin_cases k <;> simp only [Fin.zero_eta, Fin.mk_one, Fin.reduceFinMk, Fin.val_zero, Fin.val_one, Fin.isValue] at h <;>
    fin_cases j <;> PRODUNF
/-- **C75**: in a product, a NaN in column `j` of the right factor makes column `j` NaN. -/
theorem C75_product_right3 (a b : Matrix4x4 S) (i j k : Fin 4) (h : IsNaN b.m[4 * k.val + j.val]) :
    IsNaN (a * b).m[4 * i.val + j.val] := by
  fin_cases i <;> fin_cases k <;> simp only [Fin.zero_eta, Fin.mk_one, Fin.reduceFinMk, Fin.val_zero, Fin.val_one, Fin.isValue] at h <;>
    fin_cases j <;> PRODUNF

/-- **C75**: `TryFrom` accepts a matrix with a NaN anywhere; the transform it returns has an all-NaN inverse. -/
theorem C75_try_from3 (m : Matrix4x4 S) (h : ¬ NoNaN m) : ∃ t, Transform3.tryFrom m = .ok t ∧ t.forward = m ∧ AllNaN t.inverse := by
  obtain ⟨i, e, hi⟩ := C45_nan_accepted m h
  exact ⟨⟨m, i⟩, by unfold Transform3.tryFrom; rw [e]; rfl, rfl, hi⟩

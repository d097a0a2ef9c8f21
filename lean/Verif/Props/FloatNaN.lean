import Verif.Lemmas.Symm
import Verif.Lemmas.Float
import Verif.Props.FloatMatrix
/-!
# Layer F: what a NaN coordinate does, everywhere in the API (C75)

`¬ NoNaN t` reads "some component of `t` is NaN". (Generated by tools/gen/nan.py.)
-/

open Classical

namespace VecMath
open Scalar IEEE

variable {S : Type} [Scalar S] [IEEE S]

theorem isNaN_sqrt {a : S} (h : IsNaN a) : IsNaN (Scalar.sqrt a) := by
  unfold IsNaN at *; rw [den_sqrt, h]; simp [Rounding.sqrt]
/-- Chases a NaN through an arithmetic expression. -/
macro "chase_nan" : tactic => `(tactic| with_reducible
  solve_by_elim (maxDepth := 12) [isNaN_add_left, isNaN_add_right, isNaN_sub_left, isNaN_sub_right,
    isNaN_mul_left, isNaN_mul_right, isNaN_div_left, isNaN_div_right, isNaN_sqrt])
theorem lt_nan_left {a b : S} (h : IsNaN a) : (a <? b) = false := by
  rw [Bool.eq_false_iff]; exact fun h' => (lt_iff.1 h').1 h
theorem lt_nan_right {a b : S} (h : IsNaN b) : (a <? b) = false := by
  rw [Bool.eq_false_iff]; exact fun h' => (lt_iff.1 h').2.1 h
theorem le_nan_left {a b : S} (h : IsNaN a) : (a ≤? b) = false := by
  rw [Bool.eq_false_iff]; exact fun h' => (le_iff.1 h').1 h
theorem le_nan_right {a b : S} (h : IsNaN b) : (a ≤? b) = false := by
  rw [Bool.eq_false_iff]; exact fun h' => (le_iff.1 h').2.1 h

/-! ## Unfolding -/

theorem Vector2.someNaN {v : Vector2 S} : ¬ NoNaN v ↔ IsNaN v.x ∨ IsNaN v.y := by
  simp only [NoNaN, Comps.comps, List.mem_cons, List.not_mem_nil, or_false, forall_eq_or_imp, forall_eq]; tauto
theorem Vector2.allNaN {v : Vector2 S} : AllNaN v ↔ IsNaN v.x ∧ IsNaN v.y := by
  simp only [AllNaN, Comps.comps, List.mem_cons, List.not_mem_nil, or_false, forall_eq_or_imp, forall_eq]

theorem Point2.someNaN {v : Point2 S} : ¬ NoNaN v ↔ IsNaN v.x ∨ IsNaN v.y := by
  simp only [NoNaN, Comps.comps, List.mem_cons, List.not_mem_nil, or_false, forall_eq_or_imp, forall_eq]; tauto
theorem Point2.allNaN {v : Point2 S} : AllNaN v ↔ IsNaN v.x ∧ IsNaN v.y := by
  simp only [AllNaN, Comps.comps, List.mem_cons, List.not_mem_nil, or_false, forall_eq_or_imp, forall_eq]

theorem BoundingBox2.someNaN {b : BoundingBox2 S} : ¬ NoNaN b ↔ ¬ NoNaN b.min ∨ ¬ NoNaN b.max := by
  rw [BoundingBox2.noNaN]; tauto
theorem Ray2.someNaN {r : Ray2 S} : ¬ NoNaN r ↔ ¬ NoNaN r.origin ∨ ¬ NoNaN r.direction := by
  unfold NoNaN; simp only [Comps.comps, List.mem_append, or_imp, forall_and]; tauto
theorem sameAll_point2 {a b : Point2 S} : SameAll a b ↔ Same a.x b.x ∧ Same a.y b.y := by
  simp [SameAll, Comps.comps]
theorem sameAll_of_allNaN2 {a b : Point2 S} (ha : AllNaN a) (hb : AllNaN b) : SameAll a b := by
  rw [Point2.allNaN] at ha hb; rw [sameAll_point2]; unfold IsNaN at ha hb; unfold Same; simp [ha, hb]

theorem Vector3.someNaN {v : Vector3 S} : ¬ NoNaN v ↔ IsNaN v.x ∨ IsNaN v.y ∨ IsNaN v.z := by
  simp only [NoNaN, Comps.comps, List.mem_cons, List.not_mem_nil, or_false, forall_eq_or_imp, forall_eq]; tauto
theorem Vector3.allNaN {v : Vector3 S} : AllNaN v ↔ IsNaN v.x ∧ IsNaN v.y ∧ IsNaN v.z := by
  simp only [AllNaN, Comps.comps, List.mem_cons, List.not_mem_nil, or_false, forall_eq_or_imp, forall_eq]

theorem Point3.someNaN {v : Point3 S} : ¬ NoNaN v ↔ IsNaN v.x ∨ IsNaN v.y ∨ IsNaN v.z := by
  simp only [NoNaN, Comps.comps, List.mem_cons, List.not_mem_nil, or_false, forall_eq_or_imp, forall_eq]; tauto
theorem Point3.allNaN {v : Point3 S} : AllNaN v ↔ IsNaN v.x ∧ IsNaN v.y ∧ IsNaN v.z := by
  simp only [AllNaN, Comps.comps, List.mem_cons, List.not_mem_nil, or_false, forall_eq_or_imp, forall_eq]

theorem BoundingBox3.someNaN {b : BoundingBox3 S} : ¬ NoNaN b ↔ ¬ NoNaN b.min ∨ ¬ NoNaN b.max := by
  rw [BoundingBox3.noNaN]; tauto
theorem Ray3.someNaN {r : Ray3 S} : ¬ NoNaN r ↔ ¬ NoNaN r.origin ∨ ¬ NoNaN r.direction := by
  unfold NoNaN; simp only [Comps.comps, List.mem_append, or_imp, forall_and]; tauto
theorem sameAll_point3 {a b : Point3 S} : SameAll a b ↔ Same a.x b.x ∧ Same a.y b.y ∧ Same a.z b.z := by
  simp [SameAll, Comps.comps]
theorem sameAll_of_allNaN3 {a b : Point3 S} (ha : AllNaN a) (hb : AllNaN b) : SameAll a b := by
  rw [Point3.allNaN] at ha hb; rw [sameAll_point3]; unfold IsNaN at ha hb; unfold Same; simp [ha, hb]

/-! ## NaN is contagious in arithmetic -/

/-- **C75**: a NaN coordinate makes `dot` NaN. -/
theorem C75_dot2 (a b : Vector2 S) (h : ¬ NoNaN a ∨ ¬ NoNaN b) : IsNaN (Api.dot a b : S) := by
  show IsNaN (a.x * b.x + a.y * b.y)
  rw [Vector2.someNaN, Vector2.someNaN] at h
  rcases h with h | h <;> rcases h with h | h <;> chase_nan
/-- **C75**: a NaN coordinate makes `length` NaN, and only that does. -/
theorem C75_length2 (v : Vector2 S) : IsNaN (Api.length v : S) ↔ ¬ NoNaN v := by
  refine ⟨fun h hn => ?_, fun h => isNaN_sqrt (C75_dot2 v v (.inl h))⟩
  rw [Vector2.noNaN] at hn
  have hd : ¬ IsNaN (Api.dot v v : S) ∧ 0 ≤ val (Api.dot v v : S) := by
    exact add_nonneg (fun h => hn.1 (isNaN_mul_self.1 h)) (fun h => hn.2 (isNaN_mul_self.1 h)) (val_mul_self_nonneg _) (val_mul_self_nonneg _)
  exact hd.1 ((isNaN_sqrt_nonneg hd.2).1 h)
/-- **C75**: `normalize` of a vector with a NaN coordinate is NaN in every coordinate. -/
theorem C75_normalize2 (v : Vector2 S) (h : ¬ NoNaN v) : AllNaN v.normalize := by
  have := (C75_length2 v).2 h
  rw [Vector2.allNaN]
  exact ⟨isNaN_div_right this, isNaN_div_right this⟩
/-- **C75**: a NaN coordinate makes `distance` NaN. -/
theorem C75_distance2 (a b : Point2 S) (h : ¬ NoNaN a ∨ ¬ NoNaN b) : IsNaN (Api.distance a b : S) := by
  refine (C75_length2 (b - a)).2 (Vector2.someNaN.2 ?_)
  show IsNaN (b.x - a.x) ∨ IsNaN (b.y - a.y)
  rw [Point2.someNaN, Point2.someNaN] at h
  rcases h with h | h <;> rcases h with h | h <;>
    first | exact .inl (by chase_nan) | exact .inr (by chase_nan)
/-- **C75**: no vector is shorter or longer than, or than it, when a NaN is involved, and the selections then always
return their second candidate — even if that is the one with the NaN. -/
theorem C75_relative_length2 (a b : Vector2 S) (h : ¬ NoNaN a ∨ ¬ NoNaN b) :
    RelativeLength.isShorterThan a b = false ∧ RelativeLength.isLongerThan a b = false ∧ Api.shortest a b = b ∧ Api.longest a b = b := by
  have hn : IsNaN (Api.dot a a : S) ∨ IsNaN (Api.dot b b : S) :=
    h.imp (fun h => C75_dot2 a a (.inl h)) (fun h => C75_dot2 b b (.inl h))
  have h1 : ((Api.dot a a : S) <? (Api.dot b b : S)) = false := hn.elim lt_nan_left lt_nan_right
  have h2 : ((Api.dot b b : S) <? (Api.dot a a : S)) = false := hn.elim lt_nan_right lt_nan_left
  refine ⟨h1, h2, ?_, ?_⟩
  · show (if ((Api.dot a a : S) <? (Api.dot b b : S)) then a else b) = b
    rw [h1]; rfl
  · show (if ((Api.dot b b : S) <? (Api.dot a a : S)) then a else b) = b
    rw [h2]; rfl
/-- **C75**: the same for distances. -/
theorem C75_relative_distance2 (p a b : Point2 S) (h : ¬ NoNaN p ∨ ¬ NoNaN a ∨ ¬ NoNaN b) :
    RelativeDistance.isCloserTo p a b = false ∧ RelativeDistance.isFartherFrom p a b = false ∧ Api.closest p a b = b ∧ Api.farthest p a b = b := by
  have nn : ∀ q : Point2 S, ¬ NoNaN p ∨ ¬ NoNaN q → ¬ NoNaN (q - p : Vector2 S) := by
    intro q h
    rw [Vector2.someNaN]
    show IsNaN (q.x - p.x) ∨ IsNaN (q.y - p.y)
    rw [Point2.someNaN, Point2.someNaN] at h
    rcases h with h | h <;> rcases h with h | h <;>
      first | exact .inl (by chase_nan) | exact .inr (by chase_nan)
  have hn : ¬ NoNaN (a - p : Vector2 S) ∨ ¬ NoNaN (b - p : Vector2 S) := by
    rcases h with h | h | h
    · exact .inl (nn a (.inl h))
    · exact .inl (nn a (.inr h))
    · exact .inr (nn b (.inr h))
  obtain ⟨h1, h2, -, -⟩ := C75_relative_length2 _ _ hn
  have h1' : Point2.isCloserTo p a b = false := h1
  have h2' : Point2.isFartherFrom p a b = false := h2
  refine ⟨h1, h2, ?_, ?_⟩
  · show (if Point2.isCloserTo p a b then a else b) = b
    rw [h1']; rfl
  · show (if Point2.isFartherFrom p a b then a else b) = b
    rw [h2']; rfl
/-- **C75**: `ray.at t` is NaN in a coordinate if the origin or the direction is NaN in that coordinate, and NaN in all
of them if `t` is NaN. -/
theorem C75_ray_at2 (r : Ray2 S) (t : S) :
    (IsNaN r.origin.x ∨ IsNaN r.direction.x ∨ IsNaN t → IsNaN (r.at t).x) ∧ (IsNaN r.origin.y ∨ IsNaN r.direction.y ∨ IsNaN t → IsNaN (r.at t).y) := by
  refine ⟨?_, ?_⟩

  · show _ → IsNaN (r.origin.x + r.direction.x * t)
    rintro (h | h | h) <;> chase_nan
  · show _ → IsNaN (r.origin.y + r.direction.y * t)
    rintro (h | h | h) <;> chase_nan

/-- **C75**: a NaN coordinate makes `dot` NaN. -/
theorem C75_dot3 (a b : Vector3 S) (h : ¬ NoNaN a ∨ ¬ NoNaN b) : IsNaN (Api.dot a b : S) := by
  show IsNaN (a.x * b.x + a.y * b.y + a.z * b.z)
  rw [Vector3.someNaN, Vector3.someNaN] at h
  rcases h with h | h <;> rcases h with h | h | h <;> chase_nan
/-- **C75**: a NaN coordinate makes `length` NaN, and only that does. -/
theorem C75_length3 (v : Vector3 S) : IsNaN (Api.length v : S) ↔ ¬ NoNaN v := by
  refine ⟨fun h hn => ?_, fun h => isNaN_sqrt (C75_dot3 v v (.inl h))⟩
  rw [Vector3.noNaN] at hn
  have hd : ¬ IsNaN (Api.dot v v : S) ∧ 0 ≤ val (Api.dot v v : S) := by
    have h1 := add_nonneg (fun h => hn.1 (isNaN_mul_self.1 h)) (fun h => hn.2.1 (isNaN_mul_self.1 h))
      (val_mul_self_nonneg v.x) (val_mul_self_nonneg v.y)
    exact add_nonneg h1.1 (fun h => hn.2.2 (isNaN_mul_self.1 h)) h1.2 (val_mul_self_nonneg _)
  exact hd.1 ((isNaN_sqrt_nonneg hd.2).1 h)
/-- **C75**: `normalize` of a vector with a NaN coordinate is NaN in every coordinate. -/
theorem C75_normalize3 (v : Vector3 S) (h : ¬ NoNaN v) : AllNaN v.normalize := by
  have := (C75_length3 v).2 h
  rw [Vector3.allNaN]
  exact ⟨isNaN_div_right this, isNaN_div_right this, isNaN_div_right this⟩
/-- **C75**: a NaN coordinate makes `distance` NaN. -/
theorem C75_distance3 (a b : Point3 S) (h : ¬ NoNaN a ∨ ¬ NoNaN b) : IsNaN (Api.distance a b : S) := by
  refine (C75_length3 (b - a)).2 (Vector3.someNaN.2 ?_)
  show IsNaN (b.x - a.x) ∨ IsNaN (b.y - a.y) ∨ IsNaN (b.z - a.z)
  rw [Point3.someNaN, Point3.someNaN] at h
  rcases h with h | h <;> rcases h with h | h | h <;>
    first | exact .inl (by chase_nan) | exact .inr (.inl (by chase_nan)) | exact .inr (.inr (by chase_nan))
/-- **C75**: no vector is shorter or longer than, or than it, when a NaN is involved, and the selections then always
return their second candidate — even if that is the one with the NaN. -/
theorem C75_relative_length3 (a b : Vector3 S) (h : ¬ NoNaN a ∨ ¬ NoNaN b) :
    RelativeLength.isShorterThan a b = false ∧ RelativeLength.isLongerThan a b = false ∧ Api.shortest a b = b ∧ Api.longest a b = b := by
  have hn : IsNaN (Api.dot a a : S) ∨ IsNaN (Api.dot b b : S) :=
    h.imp (fun h => C75_dot3 a a (.inl h)) (fun h => C75_dot3 b b (.inl h))
  have h1 : ((Api.dot a a : S) <? (Api.dot b b : S)) = false := hn.elim lt_nan_left lt_nan_right
  have h2 : ((Api.dot b b : S) <? (Api.dot a a : S)) = false := hn.elim lt_nan_right lt_nan_left
  refine ⟨h1, h2, ?_, ?_⟩
  · show (if ((Api.dot a a : S) <? (Api.dot b b : S)) then a else b) = b
    rw [h1]; rfl
  · show (if ((Api.dot b b : S) <? (Api.dot a a : S)) then a else b) = b
    rw [h2]; rfl
/-- **C75**: the same for distances. -/
theorem C75_relative_distance3 (p a b : Point3 S) (h : ¬ NoNaN p ∨ ¬ NoNaN a ∨ ¬ NoNaN b) :
    RelativeDistance.isCloserTo p a b = false ∧ RelativeDistance.isFartherFrom p a b = false ∧ Api.closest p a b = b ∧ Api.farthest p a b = b := by
  have nn : ∀ q : Point3 S, ¬ NoNaN p ∨ ¬ NoNaN q → ¬ NoNaN (q - p : Vector3 S) := by
    intro q h
    rw [Vector3.someNaN]
    show IsNaN (q.x - p.x) ∨ IsNaN (q.y - p.y) ∨ IsNaN (q.z - p.z)
    rw [Point3.someNaN, Point3.someNaN] at h
    rcases h with h | h <;> rcases h with h | h | h <;>
      first | exact .inl (by chase_nan) | exact .inr (.inl (by chase_nan)) | exact .inr (.inr (by chase_nan))
  have hn : ¬ NoNaN (a - p : Vector3 S) ∨ ¬ NoNaN (b - p : Vector3 S) := by
    rcases h with h | h | h
    · exact .inl (nn a (.inl h))
    · exact .inl (nn a (.inr h))
    · exact .inr (nn b (.inr h))
  obtain ⟨h1, h2, -, -⟩ := C75_relative_length3 _ _ hn
  have h1' : Point3.isCloserTo p a b = false := h1
  have h2' : Point3.isFartherFrom p a b = false := h2
  refine ⟨h1, h2, ?_, ?_⟩
  · show (if Point3.isCloserTo p a b then a else b) = b
    rw [h1']; rfl
  · show (if Point3.isFartherFrom p a b then a else b) = b
    rw [h2']; rfl
/-- **C75**: `ray.at t` is NaN in a coordinate if the origin or the direction is NaN in that coordinate, and NaN in all
of them if `t` is NaN. -/
theorem C75_ray_at3 (r : Ray3 S) (t : S) :
    (IsNaN r.origin.x ∨ IsNaN r.direction.x ∨ IsNaN t → IsNaN (r.at t).x) ∧ (IsNaN r.origin.y ∨ IsNaN r.direction.y ∨ IsNaN t → IsNaN (r.at t).y) ∧ (IsNaN r.origin.z ∨ IsNaN r.direction.z ∨ IsNaN t → IsNaN (r.at t).z) := by
  refine ⟨?_, ?_, ?_⟩

  · show _ → IsNaN (r.origin.x + r.direction.x * t)
    rintro (h | h | h) <;> chase_nan
  · show _ → IsNaN (r.origin.y + r.direction.y * t)
    rintro (h | h | h) <;> chase_nan
  · show _ → IsNaN (r.origin.z + r.direction.z * t)
    rintro (h | h | h) <;> chase_nan

/-- **C75**: in a cross product a NaN coordinate makes the two *other* coordinates NaN. -/
theorem C75_cross (a b : Vector3 S) :
    (IsNaN a.x ∨ IsNaN b.x → IsNaN (Api.cross a b : Vector3 S).y ∧ IsNaN (Api.cross a b : Vector3 S).z) ∧
    (IsNaN a.y ∨ IsNaN b.y → IsNaN (Api.cross a b : Vector3 S).x ∧ IsNaN (Api.cross a b : Vector3 S).z) ∧
    (IsNaN a.z ∨ IsNaN b.z → IsNaN (Api.cross a b : Vector3 S).x ∧ IsNaN (Api.cross a b : Vector3 S).y) := by
  refine ⟨?_, ?_, ?_⟩
  · show _ → IsNaN (a.z * b.x - a.x * b.z) ∧ IsNaN (a.x * b.y - a.y * b.x)
    rintro (h | h) <;> constructor <;> chase_nan
  · show _ → IsNaN (a.y * b.z - a.z * b.y) ∧ IsNaN (a.x * b.y - a.y * b.x)
    rintro (h | h) <;> constructor <;> chase_nan
  · show _ → IsNaN (a.y * b.z - a.z * b.y) ∧ IsNaN (a.z * b.x - a.x * b.z)
    rintro (h | h) <;> constructor <;> chase_nan

/-! ## Matrices and transforms -/

/-- **C75**: a NaN coordinate of the operand makes every coordinate of `m * v` NaN, whatever the matrix. -/
theorem C75_matrix_point2 (m : Matrix3x3 S) (v : Point2 S) (h : ¬ NoNaN v) : AllNaN (m * v : Point2 S) := by
  rw [Point2.allNaN]
  show IsNaN ((m.m[0] * v.x + m.m[1] * v.y + m.m[2]) / (m.m[6] * v.x + m.m[7] * v.y + m.m[8])) ∧ IsNaN ((m.m[3] * v.x + m.m[4] * v.y + m.m[5]) / (m.m[6] * v.x + m.m[7] * v.y + m.m[8]))
  rw [Point2.someNaN] at h
  rcases h with h | h <;> refine ⟨?_, ?_⟩ <;> chase_nan

/-- **C75**: a NaN coordinate of the operand makes every coordinate of `v * m` NaN, whatever the matrix. -/
theorem C75_matrix_point_row2 (m : Matrix3x3 S) (v : Point2 S) (h : ¬ NoNaN v) : AllNaN (v * m : Point2 S) := by
  rw [Point2.allNaN]
  show IsNaN ((v.x * m.m[0] + v.y * m.m[3] + m.m[6]) / (v.x * m.m[2] + v.y * m.m[5] + m.m[8])) ∧ IsNaN ((v.x * m.m[1] + v.y * m.m[4] + m.m[7]) / (v.x * m.m[2] + v.y * m.m[5] + m.m[8]))
  rw [Point2.someNaN] at h
  rcases h with h | h <;> refine ⟨?_, ?_⟩ <;> chase_nan

/-- **C75**: a NaN coordinate of the operand makes every coordinate of `m * v` NaN, whatever the matrix. -/
theorem C75_matrix_vector2 (m : Matrix3x3 S) (v : Vector2 S) (h : ¬ NoNaN v) : AllNaN (m * v : Vector2 S) := by
  rw [Vector2.allNaN]
  show IsNaN (m.m[0] * v.x + m.m[1] * v.y) ∧ IsNaN (m.m[3] * v.x + m.m[4] * v.y)
  rw [Vector2.someNaN] at h
  rcases h with h | h <;> refine ⟨?_, ?_⟩ <;> chase_nan

/-- **C75**: a NaN coordinate of the operand makes every coordinate of `v * m` NaN, whatever the matrix. -/
theorem C75_matrix_vector_row2 (m : Matrix3x3 S) (v : Vector2 S) (h : ¬ NoNaN v) : AllNaN (v * m : Vector2 S) := by
  rw [Vector2.allNaN]
  show IsNaN (v.x * m.m[0] + v.y * m.m[3]) ∧ IsNaN (v.x * m.m[1] + v.y * m.m[4])
  rw [Vector2.someNaN] at h
  rcases h with h | h <;> refine ⟨?_, ?_⟩ <;> chase_nan

/-- **C75**: a transform turns a ray whose origin (direction) has a NaN coordinate into one whose origin (direction)
is all NaN. -/
theorem C75_transform_ray2 (t : Transform2 S) (r : Ray2 S) :
    (¬ NoNaN r.origin → AllNaN (Transform.transform t r : Ray2 S).origin) ∧
    (¬ NoNaN r.direction → AllNaN (Transform.transform t r : Ray2 S).direction) :=
  ⟨C75_matrix_point2 t.forward r.origin, C75_matrix_vector2 t.forward r.direction⟩

theorem entry_mul2 (a b : Matrix3x3 S) (i j : Fin 3) : (a * b).m[3 * i.val + j.val] =
    a.m[3 * i.val] * b.m[j.val] + a.m[3 * i.val + 1] * b.m[3 + j.val] + a.m[3 * i.val + 2] * b.m[6 + j.val] := by
  fin_cases i <;> fin_cases j <;> rfl
/-- **C75**: in a product, a NaN in row `i` of the left factor makes row `i` NaN. -/
theorem C75_product_left2 (a b : Matrix3x3 S) (i j k : Fin 3) (h : IsNaN a.m[3 * i.val + k.val]) :
    IsNaN (a * b).m[3 * i.val + j.val] := by
  rw [entry_mul2]
  fin_cases k <;> simp at h <;> chase_nan
/-- **C75**: in a product, a NaN in column `j` of the right factor makes column `j` NaN. -/
theorem C75_product_right2 (a b : Matrix3x3 S) (i j k : Fin 3) (h : IsNaN b.m[3 * k.val + j.val]) :
    IsNaN (a * b).m[3 * i.val + j.val] := by
  rw [entry_mul2]
  fin_cases k <;> simp at h <;> chase_nan

/-- **C75**: `TryFrom` accepts a matrix with a NaN anywhere; the transform it returns has an all-NaN inverse. -/
theorem C75_try_from2 (m : Matrix3x3 S) (h : ¬ NoNaN m) : ∃ t, Transform2.tryFrom m = .ok t ∧ t.forward = m ∧ AllNaN t.inverse := by
  obtain ⟨i, e, hi⟩ := C45_nan_accepted2 m h
  exact ⟨⟨m, i⟩, by unfold Transform2.tryFrom; rw [e]; rfl, rfl, hi⟩

/-- **C75**: a NaN coordinate of the operand makes every coordinate of `m * v` NaN, whatever the matrix. -/
theorem C75_matrix_point3 (m : Matrix4x4 S) (v : Point3 S) (h : ¬ NoNaN v) : AllNaN (m * v : Point3 S) := by
  rw [Point3.allNaN]
  show IsNaN ((m.m[0] * v.x + m.m[1] * v.y + m.m[2] * v.z + m.m[3]) / (m.m[12] * v.x + m.m[13] * v.y + m.m[14] * v.z + m.m[15])) ∧ IsNaN ((m.m[4] * v.x + m.m[5] * v.y + m.m[6] * v.z + m.m[7]) / (m.m[12] * v.x + m.m[13] * v.y + m.m[14] * v.z + m.m[15])) ∧ IsNaN ((m.m[8] * v.x + m.m[9] * v.y + m.m[10] * v.z + m.m[11]) / (m.m[12] * v.x + m.m[13] * v.y + m.m[14] * v.z + m.m[15]))
  rw [Point3.someNaN] at h
  rcases h with h | h | h <;> refine ⟨?_, ?_, ?_⟩ <;> chase_nan

/-- **C75**: a NaN coordinate of the operand makes every coordinate of `v * m` NaN, whatever the matrix. -/
theorem C75_matrix_point_row3 (m : Matrix4x4 S) (v : Point3 S) (h : ¬ NoNaN v) : AllNaN (v * m : Point3 S) := by
  rw [Point3.allNaN]
  show IsNaN ((v.x * m.m[0] + v.y * m.m[4] + v.z * m.m[8] + m.m[12]) / (v.x * m.m[3] + v.y * m.m[7] + v.z * m.m[11] + m.m[15])) ∧ IsNaN ((v.x * m.m[1] + v.y * m.m[5] + v.z * m.m[9] + m.m[13]) / (v.x * m.m[3] + v.y * m.m[7] + v.z * m.m[11] + m.m[15])) ∧ IsNaN ((v.x * m.m[2] + v.y * m.m[6] + v.z * m.m[10] + m.m[14]) / (v.x * m.m[3] + v.y * m.m[7] + v.z * m.m[11] + m.m[15]))
  rw [Point3.someNaN] at h
  rcases h with h | h | h <;> refine ⟨?_, ?_, ?_⟩ <;> chase_nan

/-- **C75**: a NaN coordinate of the operand makes every coordinate of `m * v` NaN, whatever the matrix. -/
theorem C75_matrix_vector3 (m : Matrix4x4 S) (v : Vector3 S) (h : ¬ NoNaN v) : AllNaN (m * v : Vector3 S) := by
  rw [Vector3.allNaN]
  show IsNaN (m.m[0] * v.x + m.m[1] * v.y + m.m[2] * v.z) ∧ IsNaN (m.m[4] * v.x + m.m[5] * v.y + m.m[6] * v.z) ∧ IsNaN (m.m[8] * v.x + m.m[9] * v.y + m.m[10] * v.z)
  rw [Vector3.someNaN] at h
  rcases h with h | h | h <;> refine ⟨?_, ?_, ?_⟩ <;> chase_nan

/-- **C75**: a NaN coordinate of the operand makes every coordinate of `v * m` NaN, whatever the matrix. -/
theorem C75_matrix_vector_row3 (m : Matrix4x4 S) (v : Vector3 S) (h : ¬ NoNaN v) : AllNaN (v * m : Vector3 S) := by
  rw [Vector3.allNaN]
  show IsNaN (v.x * m.m[0] + v.y * m.m[4] + v.z * m.m[8]) ∧ IsNaN (v.x * m.m[1] + v.y * m.m[5] + v.z * m.m[9]) ∧ IsNaN (v.x * m.m[2] + v.y * m.m[6] + v.z * m.m[10])
  rw [Vector3.someNaN] at h
  rcases h with h | h | h <;> refine ⟨?_, ?_, ?_⟩ <;> chase_nan

/-- **C75**: a transform turns a ray whose origin (direction) has a NaN coordinate into one whose origin (direction)
is all NaN. -/
theorem C75_transform_ray3 (t : Transform3 S) (r : Ray3 S) :
    (¬ NoNaN r.origin → AllNaN (Transform.transform t r : Ray3 S).origin) ∧
    (¬ NoNaN r.direction → AllNaN (Transform.transform t r : Ray3 S).direction) :=
  ⟨C75_matrix_point3 t.forward r.origin, C75_matrix_vector3 t.forward r.direction⟩

theorem entry_mul3 (a b : Matrix4x4 S) (i j : Fin 4) : (a * b).m[4 * i.val + j.val] =
    a.m[4 * i.val] * b.m[j.val] + a.m[4 * i.val + 1] * b.m[4 + j.val] + a.m[4 * i.val + 2] * b.m[8 + j.val] + a.m[4 * i.val + 3] * b.m[12 + j.val] := by
  fin_cases i <;> fin_cases j <;> rfl
/-- **C75**: in a product, a NaN in row `i` of the left factor makes row `i` NaN. -/
theorem C75_product_left3 (a b : Matrix4x4 S) (i j k : Fin 4) (h : IsNaN a.m[4 * i.val + k.val]) :
    IsNaN (a * b).m[4 * i.val + j.val] := by
  rw [entry_mul3]
  fin_cases k <;> simp at h <;> chase_nan
/-- **C75**: in a product, a NaN in column `j` of the right factor makes column `j` NaN. -/
theorem C75_product_right3 (a b : Matrix4x4 S) (i j k : Fin 4) (h : IsNaN b.m[4 * k.val + j.val]) :
    IsNaN (a * b).m[4 * i.val + j.val] := by
  rw [entry_mul3]
  fin_cases k <;> simp at h <;> chase_nan

/-- **C75**: `TryFrom` accepts a matrix with a NaN anywhere; the transform it returns has an all-NaN inverse. -/
theorem C75_try_from3 (m : Matrix4x4 S) (h : ¬ NoNaN m) : ∃ t, Transform3.tryFrom m = .ok t ∧ t.forward = m ∧ AllNaN t.inverse := by
  obtain ⟨i, e, hi⟩ := C45_nan_accepted m h
  exact ⟨⟨m, i⟩, by unfold Transform3.tryFrom; rw [e]; rfl, rfl, hi⟩

/-! ## Boxes -/

theorem min_all {a b : S} : Same (fmin a b) b ∨ ¬ IsNaN a := by
  by_cases h : IsNaN a
  · exact .inl (min_nan_left h)
  · exact .inr h
/-- One axis of one step of the box transform: adding NaN changes nothing. -/
theorem nan_step {lo hi o s : S} (hl : Same lo o) (hh : Same hi o) (hs : Same s o ∨ IsNaN s) :
    Same (fmin lo s) o ∧ Same (fmax hi s) o := by
  rcases hs with hs | hs
  · constructor
    · rcases min_same (a := lo) (b := s) with h | h
      · exact h.trans hl
      · exact h.trans hs
    · rcases max_same (a := hi) (b := s) with h | h
      · exact h.trans hh
      · exact h.trans hs
  · exact ⟨(min_nan_right hs).trans hl, (max_nan_right hs).trans hh⟩
theorem nan_sort {lo hi o : S} (hl : Same lo o) (hh : Same hi o) : Same (fmin lo hi) o ∧ Same (fmax lo hi) o := by
  constructor
  · rcases min_same (a := lo) (b := hi) with h | h
    · exact h.trans hl
    · exact h.trans hh
  · rcases max_same (a := lo) (b := hi) with h | h
    · exact h.trans hl
    · exact h.trans hh

theorem nan_union {lo hi p : S} (h : IsNaN p) (hl : (lo ≤? hi) = true) :
    Agree (fmin (fmin lo p) (fmax hi p)) lo ∧ Agree (fmax (fmin lo p) (fmax hi p)) hi := by
  have h1 := min_nan_right (a := lo) h
  have h2 := max_nan_right (a := hi) h
  have hv := le_iff.1 hl
  simp only [agree_iff]
  rw [num_min_congr h1.num h2.num, num_max_congr h1.num h2.num]
  constructor
  · refine num_ext (by rw [isNaN_min]; tauto) fun _ => ?_
    rw [val_min hv.1 hv.2.1, min_eq_left hv.2.2]
  · refine num_ext (by rw [isNaN_max]; tauto) fun _ => ?_
    rw [val_max hv.1 hv.2.1, max_eq_right hv.2.2]

theorem diagonal_nan2 {b : BoundingBox2 S} (h : ¬ NoNaN b) : ¬ NoNaN b.diagonal := by
  rw [Vector2.someNaN]
  show IsNaN (b.max.x - b.min.x) ∨ IsNaN (b.max.y - b.min.y)
  rw [BoundingBox2.someNaN, Point2.someNaN, Point2.someNaN] at h
  rcases h with h | h <;> rcases h with h | h <;>
    first | exact .inl (by chase_nan) | exact .inr (by chase_nan)
/-- One step of the loop with a NaN diagonal. -/
theorem box_step_nan2 {o : Point2 S} {d : Vector2 S} (hd : AllNaN d) {acc : Point2 S × Point2 S} (i : ℕ)
    (h : SameAll acc.1 o ∧ SameAll acc.2 o) :
    SameAll (Transform2.boxStep o d acc i).1 o ∧ SameAll (Transform2.boxStep o d acc i).2 o := by
  rw [Vector2.allNaN] at hd
  simp only [sameAll_point2] at *
  have key : ∀ (c : Bool) (x dx : S), IsNaN dx → Same (if c then x + dx else x) x ∨ IsNaN (if c then x + dx else x) := by
    intro c x dx h
    cases c
    · exact .inl rfl
    · exact .inr (isNaN_add_right h)
  have kx := nan_step h.1.1 h.2.1 (key (i &&& 0b01 != 0) o.x d.x hd.1)
  have ky := nan_step h.1.2 h.2.2 (key (i &&& 0b10 != 0) o.y d.y hd.2)
  have e : Transform2.boxStep o d acc i = (Api.min acc.1 (⟨if i &&& 0b01 != 0 then o.x + d.x else o.x, if i &&& 0b10 != 0 then o.y + d.y else o.y⟩ : Point2 S),
      Api.max acc.2 (⟨if i &&& 0b01 != 0 then o.x + d.x else o.x, if i &&& 0b10 != 0 then o.y + d.y else o.y⟩ : Point2 S)) := by
    unfold Transform2.boxStep
    cases h1 : (i &&& 0b01 != 0) <;> cases h2 : (i &&& 0b10 != 0) <;> rfl
  rw [e]
  exact ⟨⟨kx.1, ky.1⟩, ⟨kx.2, ky.2⟩⟩
/-- **C75**: a box with a NaN in either corner is transformed, silently, to the single point that its `min` corner
is transformed to (all NaN, if the NaN is in `min`; an ordinary point, if it is in `max`). -/
theorem C75_transform_box2 (t : Transform2 S) (b : BoundingBox2 S) (h : ¬ NoNaN b) :
    SameAll (Transform.transform t b : BoundingBox2 S).min (Transform.transform t b.min : Point2 S) ∧
    SameAll (Transform.transform t b : BoundingBox2 S).max (Transform.transform t b.min : Point2 S) := by
  have hd : AllNaN (Transform.transform t b.diagonal : Vector2 S) := C75_matrix_vector2 t.forward _ (diagonal_nan2 h)
  have key : ∀ (l : List ℕ) (acc : Point2 S × Point2 S), SameAll acc.1 (Transform.transform t b.min : Point2 S) ∧ SameAll acc.2 (Transform.transform t b.min : Point2 S) →
      SameAll (l.foldl (Transform2.boxStep (Transform.transform t b.min : Point2 S) (Transform.transform t b.diagonal : Vector2 S)) acc).1 (Transform.transform t b.min : Point2 S) ∧
      SameAll (l.foldl (Transform2.boxStep (Transform.transform t b.min : Point2 S) (Transform.transform t b.diagonal : Vector2 S)) acc).2 (Transform.transform t b.min : Point2 S) := by
    intro l
    induction l with
    | nil => intro acc h; exact h
    | cons i l ih => intro acc h; exact ih _ (box_step_nan2 hd i h)
  have rf : SameAll (Transform.transform t b.min : Point2 S) (Transform.transform t b.min : Point2 S) := by rw [sameAll_point2]; exact ⟨rfl, rfl⟩
  have := key [1, 2, 3] (_, _) ⟨rf, rf⟩
  simp only [sameAll_point2] at this ⊢
  exact ⟨⟨(nan_sort this.1.1 this.2.1).1, (nan_sort this.1.2 this.2.2).1⟩, ⟨(nan_sort this.1.1 this.2.1).2, (nan_sort this.1.2 this.2.2).2⟩⟩

/-- **C75**: no point is inside a box with a NaN corner, and no point with a NaN coordinate is inside any box. -/
theorem C75_is_inside2 (b : BoundingBox2 S) (p : Point2 S) (h : ¬ NoNaN b ∨ ¬ NoNaN p) : b.isInside p = false := by
  rw [Bool.eq_false_iff]
  intro hc
  unfold BoundingBox2.isInside at hc
  simp only [Bool.and_eq_true, le_iff] at hc
  rw [BoundingBox2.someNaN, Point2.someNaN, Point2.someNaN, Point2.someNaN] at h
  tauto
/-- **C75**: a box with a NaN corner overlaps nothing, and its intersection with any box is `None`. -/
theorem C75_overlaps2 (a b : BoundingBox2 S) (h : ¬ NoNaN a ∨ ¬ NoNaN b) :
    a.overlaps b = false ∧ (Api.intersect a b : Option (BoundingBox2 S)) = none := by
  have hf : a.overlaps b = false := by
    rw [Bool.eq_false_iff]
    intro hc
    unfold BoundingBox2.overlaps at hc
    simp only [Bool.and_eq_true, le_iff] at hc
    rw [BoundingBox2.someNaN, BoundingBox2.someNaN, Point2.someNaN, Point2.someNaN, Point2.someNaN, Point2.someNaN] at h
    tauto
  refine ⟨hf, ?_⟩
  show (if a.overlaps b then _ else none) = none
  rw [hf]; rfl

/-- **C75**: growing a box by a point leaves the box as it is along every axis in which the point is NaN. -/
theorem C75_union_point2 (b : BoundingBox2 S) (p : Point2 S) :
    (IsNaN p.x → (b.min.x ≤? b.max.x) = true → Agree (Api.union b p : BoundingBox2 S).min.x b.min.x ∧ Agree (Api.union b p : BoundingBox2 S).max.x b.max.x) ∧ (IsNaN p.y → (b.min.y ≤? b.max.y) = true → Agree (Api.union b p : BoundingBox2 S).min.y b.min.y ∧ Agree (Api.union b p : BoundingBox2 S).max.y b.max.y) :=
  ⟨nan_union, nan_union⟩

theorem diagonal_nan3 {b : BoundingBox3 S} (h : ¬ NoNaN b) : ¬ NoNaN b.diagonal := by
  rw [Vector3.someNaN]
  show IsNaN (b.max.x - b.min.x) ∨ IsNaN (b.max.y - b.min.y) ∨ IsNaN (b.max.z - b.min.z)
  rw [BoundingBox3.someNaN, Point3.someNaN, Point3.someNaN] at h
  rcases h with h | h <;> rcases h with h | h | h <;>
    first | exact .inl (by chase_nan) | exact .inr (.inl (by chase_nan)) | exact .inr (.inr (by chase_nan))
/-- One step of the loop with a NaN diagonal. -/
theorem box_step_nan3 {o : Point3 S} {d : Vector3 S} (hd : AllNaN d) {acc : Point3 S × Point3 S} (i : ℕ)
    (h : SameAll acc.1 o ∧ SameAll acc.2 o) :
    SameAll (Transform3.boxStep o d acc i).1 o ∧ SameAll (Transform3.boxStep o d acc i).2 o := by
  rw [Vector3.allNaN] at hd
  simp only [sameAll_point3] at *
  have key : ∀ (c : Bool) (x dx : S), IsNaN dx → Same (if c then x + dx else x) x ∨ IsNaN (if c then x + dx else x) := by
    intro c x dx h
    cases c
    · exact .inl rfl
    · exact .inr (isNaN_add_right h)
  have kx := nan_step h.1.1 h.2.1 (key (i &&& 0b001 != 0) o.x d.x hd.1)
  have ky := nan_step h.1.2.1 h.2.2.1 (key (i &&& 0b010 != 0) o.y d.y hd.2.1)
  have kz := nan_step h.1.2.2 h.2.2.2 (key (i &&& 0b100 != 0) o.z d.z hd.2.2)
  have e : Transform3.boxStep o d acc i = (Api.min acc.1 (⟨if i &&& 0b001 != 0 then o.x + d.x else o.x, if i &&& 0b010 != 0 then o.y + d.y else o.y, if i &&& 0b100 != 0 then o.z + d.z else o.z⟩ : Point3 S),
      Api.max acc.2 (⟨if i &&& 0b001 != 0 then o.x + d.x else o.x, if i &&& 0b010 != 0 then o.y + d.y else o.y, if i &&& 0b100 != 0 then o.z + d.z else o.z⟩ : Point3 S)) := by
    unfold Transform3.boxStep
    cases h1 : (i &&& 0b001 != 0) <;> cases h2 : (i &&& 0b010 != 0) <;> cases h3 : (i &&& 0b100 != 0) <;> rfl
  rw [e]
  exact ⟨⟨kx.1, ky.1, kz.1⟩, ⟨kx.2, ky.2, kz.2⟩⟩
/-- **C75**: a box with a NaN in either corner is transformed, silently, to the single point that its `min` corner
is transformed to (all NaN, if the NaN is in `min`; an ordinary point, if it is in `max`). -/
theorem C75_transform_box3 (t : Transform3 S) (b : BoundingBox3 S) (h : ¬ NoNaN b) :
    SameAll (Transform.transform t b : BoundingBox3 S).min (Transform.transform t b.min : Point3 S) ∧
    SameAll (Transform.transform t b : BoundingBox3 S).max (Transform.transform t b.min : Point3 S) := by
  have hd : AllNaN (Transform.transform t b.diagonal : Vector3 S) := C75_matrix_vector3 t.forward _ (diagonal_nan3 h)
  have key : ∀ (l : List ℕ) (acc : Point3 S × Point3 S), SameAll acc.1 (Transform.transform t b.min : Point3 S) ∧ SameAll acc.2 (Transform.transform t b.min : Point3 S) →
      SameAll (l.foldl (Transform3.boxStep (Transform.transform t b.min : Point3 S) (Transform.transform t b.diagonal : Vector3 S)) acc).1 (Transform.transform t b.min : Point3 S) ∧
      SameAll (l.foldl (Transform3.boxStep (Transform.transform t b.min : Point3 S) (Transform.transform t b.diagonal : Vector3 S)) acc).2 (Transform.transform t b.min : Point3 S) := by
    intro l
    induction l with
    | nil => intro acc h; exact h
    | cons i l ih => intro acc h; exact ih _ (box_step_nan3 hd i h)
  have rf : SameAll (Transform.transform t b.min : Point3 S) (Transform.transform t b.min : Point3 S) := by rw [sameAll_point3]; exact ⟨rfl, rfl, rfl⟩
  have := key [1, 2, 3, 4, 5, 6, 7] (_, _) ⟨rf, rf⟩
  simp only [sameAll_point3] at this ⊢
  exact ⟨⟨(nan_sort this.1.1 this.2.1).1, (nan_sort this.1.2.1 this.2.2.1).1, (nan_sort this.1.2.2 this.2.2.2).1⟩, ⟨(nan_sort this.1.1 this.2.1).2, (nan_sort this.1.2.1 this.2.2.1).2, (nan_sort this.1.2.2 this.2.2.2).2⟩⟩

/-- **C75**: no point is inside a box with a NaN corner, and no point with a NaN coordinate is inside any box. -/
theorem C75_is_inside3 (b : BoundingBox3 S) (p : Point3 S) (h : ¬ NoNaN b ∨ ¬ NoNaN p) : b.isInside p = false := by
  rw [Bool.eq_false_iff]
  intro hc
  unfold BoundingBox3.isInside at hc
  simp only [Bool.and_eq_true, le_iff] at hc
  rw [BoundingBox3.someNaN, Point3.someNaN, Point3.someNaN, Point3.someNaN] at h
  tauto
/-- **C75**: a box with a NaN corner overlaps nothing, and its intersection with any box is `None`. -/
theorem C75_overlaps3 (a b : BoundingBox3 S) (h : ¬ NoNaN a ∨ ¬ NoNaN b) :
    a.overlaps b = false ∧ (Api.intersect a b : Option (BoundingBox3 S)) = none := by
  have hf : a.overlaps b = false := by
    rw [Bool.eq_false_iff]
    intro hc
    unfold BoundingBox3.overlaps at hc
    simp only [Bool.and_eq_true, le_iff] at hc
    rw [BoundingBox3.someNaN, BoundingBox3.someNaN, Point3.someNaN, Point3.someNaN, Point3.someNaN, Point3.someNaN] at h
    tauto
  refine ⟨hf, ?_⟩
  show (if a.overlaps b then _ else none) = none
  rw [hf]; rfl

/-- **C75**: growing a box by a point leaves the box as it is along every axis in which the point is NaN. -/
theorem C75_union_point3 (b : BoundingBox3 S) (p : Point3 S) :
    (IsNaN p.x → (b.min.x ≤? b.max.x) = true → Agree (Api.union b p : BoundingBox3 S).min.x b.min.x ∧ Agree (Api.union b p : BoundingBox3 S).max.x b.max.x) ∧ (IsNaN p.y → (b.min.y ≤? b.max.y) = true → Agree (Api.union b p : BoundingBox3 S).min.y b.min.y ∧ Agree (Api.union b p : BoundingBox3 S).max.y b.max.y) ∧ (IsNaN p.z → (b.min.z ≤? b.max.z) = true → Agree (Api.union b p : BoundingBox3 S).min.z b.min.z ∧ Agree (Api.union b p : BoundingBox3 S).max.z b.max.z) :=
  ⟨nan_union, nan_union, nan_union⟩

/-! ## Ray/box -/

/-- A NaN in the ray along an axis, or in both ends of the box: that slab does not exist. -/
theorem near_far_nan {lo hi o d : S} (h : IsNaN o ∨ IsNaN d ∨ (IsNaN lo ∧ IsNaN hi)) :
    loVal (near lo hi o d) = ⊥ ∧ hiVal (far lo hi o d) = ⊤ := by
  have h1 : IsNaN ((lo - o) / d) := by rcases h with h | h | h <;> [skip; skip; have h := h.1] <;> chase_nan
  have h2 : IsNaN ((hi - o) / d) := by rcases h with h | h | h <;> [skip; skip; have h := h.2] <;> chase_nan
  have h3 : IsNaN (near lo hi o d) := isNaN_min.2 ⟨h1, h2⟩
  have h4 : IsNaN (far lo hi o d) := isNaN_max.2 ⟨h1, h2⟩
  unfold loVal hiVal
  rw [if_pos h3, if_pos h4]; exact ⟨rfl, rfl⟩

/-- **C75**: a ray that is NaN in every axis (for instance: with an all-NaN direction) is reported to hit *every* box,
over the whole range from 0 to infinity. -/
theorem C75_ray_all_nan2 (b : BoundingBox2 S) (r : Ray2 S) (hx : IsNaN r.origin.x ∨ IsNaN r.direction.x ∨ (IsNaN b.min.x ∧ IsNaN b.max.x)) (hy : IsNaN r.origin.y ∨ IsNaN r.direction.y ∨ (IsNaN b.min.y ∧ IsNaN b.max.y)) :
    ∃ i : Range S, (Api.intersect b r : Option (Range S)) = some i ∧ (i.start == zero) = true ∧ (i.stop == infinity) = true := by
  have ex := near_far_nan hx
  have ey := near_far_nan hy
  have e1 : startVal2 b r = 0 := by unfold startVal2; simp [ex.1, ey.1]
  have e2 : stopVal2 b r = ⊤ := by unfold stopVal2; simp [ex.2, ey.2]
  obtain ⟨i, e, a1, a2, a3, a4⟩ := (hit_iff2 b r).1 (by rw [e1, e2]; exact le_top)
  exact ⟨i, e, beq_iff.2 ⟨a1, not_nan_zero, by rw [a3, e1, val_zero]⟩, beq_iff.2 ⟨a2, not_nan_infinity, by rw [a4, e2, val_infinity]⟩⟩

/-- **C75**: a ray that is NaN in every axis (for instance: with an all-NaN direction) is reported to hit *every* box,
over the whole range from 0 to infinity. -/
theorem C75_ray_all_nan3 (b : BoundingBox3 S) (r : Ray3 S) (hx : IsNaN r.origin.x ∨ IsNaN r.direction.x ∨ (IsNaN b.min.x ∧ IsNaN b.max.x)) (hy : IsNaN r.origin.y ∨ IsNaN r.direction.y ∨ (IsNaN b.min.y ∧ IsNaN b.max.y)) (hz : IsNaN r.origin.z ∨ IsNaN r.direction.z ∨ (IsNaN b.min.z ∧ IsNaN b.max.z)) :
    ∃ i : Range S, (Api.intersect b r : Option (Range S)) = some i ∧ (i.start == zero) = true ∧ (i.stop == infinity) = true := by
  have ex := near_far_nan hx
  have ey := near_far_nan hy
  have ez := near_far_nan hz
  have e1 : startVal3 b r = 0 := by unfold startVal3; simp [ex.1, ey.1, ez.1]
  have e2 : stopVal3 b r = ⊤ := by unfold stopVal3; simp [ex.2, ey.2, ez.2]
  obtain ⟨i, e, a1, a2, a3, a4⟩ := (hit_iff3 b r).1 (by rw [e1, e2]; exact le_top)
  exact ⟨i, e, beq_iff.2 ⟨a1, not_nan_zero, by rw [a3, e1, val_zero]⟩, beq_iff.2 ⟨a2, not_nan_infinity, by rw [a4, e2, val_infinity]⟩⟩

theorem sameHit_of32 {b : BoundingBox3 S} {b' : BoundingBox2 S} {r : Ray3 S} {r' : Ray2 S} (h1 : startVal3 b r = startVal2 b' r')
    (h2 : stopVal3 b r = stopVal2 b' r') : SameHit (Api.intersect b r) (Api.intersect b' r') := by
  have p := hit_iff3 b r
  have q := hit_iff2 b' r'
  show SameHit (b.intersectRay r) (b'.intersectRay r')
  by_cases h : startVal3 b r ≤ stopVal3 b r
  · obtain ⟨i, e, a1, a2, a3, a4⟩ := p.1 h
    obtain ⟨j, e', b1, b2, b3, b4⟩ := q.1 (by rwa [← h1, ← h2])
    rw [e, e']
    exact ⟨beq_iff.2 ⟨a1, b1, by rw [a3, b3, h1]⟩, beq_iff.2 ⟨a2, b2, by rw [a4, b4, h2]⟩⟩
  · rw [p.2 h, q.2 (by rwa [← h1, ← h2])]; trivial

/-- **C75**: an axis in which the ray is NaN is ignored: the answer in 3D is the 2D answer for the other two axes. -/
theorem C75_ray_nan_x (b : BoundingBox3 S) (r : Ray3 S) (h : IsNaN r.origin.x ∨ IsNaN r.direction.x ∨ (IsNaN b.min.x ∧ IsNaN b.max.x)) :
    SameHit (Api.intersect b r : Option (Range S)) (Api.intersect
      (⟨⟨b.min.y, b.min.z⟩, ⟨b.max.y, b.max.z⟩⟩ : BoundingBox2 S)
      (⟨⟨r.origin.y, r.origin.z⟩, ⟨r.direction.y, r.direction.z⟩⟩ : Ray2 S) : Option (Range S)) := by
  have k := near_far_nan h
  apply sameHit_of32
  · unfold startVal3 startVal2; rw [k.1]; simp
  · unfold stopVal3 stopVal2; rw [k.2]; simp

/-- **C75**: an axis in which the ray is NaN is ignored: the answer in 3D is the 2D answer for the other two axes. -/
theorem C75_ray_nan_y (b : BoundingBox3 S) (r : Ray3 S) (h : IsNaN r.origin.y ∨ IsNaN r.direction.y ∨ (IsNaN b.min.y ∧ IsNaN b.max.y)) :
    SameHit (Api.intersect b r : Option (Range S)) (Api.intersect
      (⟨⟨b.min.x, b.min.z⟩, ⟨b.max.x, b.max.z⟩⟩ : BoundingBox2 S)
      (⟨⟨r.origin.x, r.origin.z⟩, ⟨r.direction.x, r.direction.z⟩⟩ : Ray2 S) : Option (Range S)) := by
  have k := near_far_nan h
  apply sameHit_of32
  · unfold startVal3 startVal2; rw [k.1]; simp
  · unfold stopVal3 stopVal2; rw [k.2]; simp

/-- **C75**: an axis in which the ray is NaN is ignored: the answer in 3D is the 2D answer for the other two axes. -/
theorem C75_ray_nan_z (b : BoundingBox3 S) (r : Ray3 S) (h : IsNaN r.origin.z ∨ IsNaN r.direction.z ∨ (IsNaN b.min.z ∧ IsNaN b.max.z)) :
    SameHit (Api.intersect b r : Option (Range S)) (Api.intersect
      (⟨⟨b.min.x, b.min.y⟩, ⟨b.max.x, b.max.y⟩⟩ : BoundingBox2 S)
      (⟨⟨r.origin.x, r.origin.y⟩, ⟨r.direction.x, r.direction.y⟩⟩ : Ray2 S) : Option (Range S)) := by
  have k := near_far_nan h
  apply sameHit_of32
  · unfold startVal3 startVal2; rw [k.1]; simp
  · unfold stopVal3 stopVal2; rw [k.2]; simp

/-- **C75**: in 2D an axis in which the ray is NaN is ignored: the answer is as if it were a copy of the other axis. -/
theorem C75_ray_nan2_x (b : BoundingBox2 S) (r : Ray2 S) (h : IsNaN r.origin.x ∨ IsNaN r.direction.x ∨ (IsNaN b.min.x ∧ IsNaN b.max.x)) :
    SameHit (Api.intersect b r : Option (Range S)) (Api.intersect
      (⟨⟨b.min.y, b.min.y⟩, ⟨b.max.y, b.max.y⟩⟩ : BoundingBox2 S)
      (⟨⟨r.origin.y, r.origin.y⟩, ⟨r.direction.y, r.direction.y⟩⟩ : Ray2 S) : Option (Range S)) := by
  have k := near_far_nan h
  apply sameHit_of2
  · unfold startVal2; rw [k.1]; simp
  · unfold stopVal2; rw [k.2]; simp

/-- **C75**: in 2D an axis in which the ray is NaN is ignored: the answer is as if it were a copy of the other axis. -/
theorem C75_ray_nan2_y (b : BoundingBox2 S) (r : Ray2 S) (h : IsNaN r.origin.y ∨ IsNaN r.direction.y ∨ (IsNaN b.min.y ∧ IsNaN b.max.y)) :
    SameHit (Api.intersect b r : Option (Range S)) (Api.intersect
      (⟨⟨b.min.x, b.min.x⟩, ⟨b.max.x, b.max.x⟩⟩ : BoundingBox2 S)
      (⟨⟨r.origin.x, r.origin.x⟩, ⟨r.direction.x, r.direction.x⟩⟩ : Ray2 S) : Option (Range S)) := by
  have k := near_far_nan h
  apply sameHit_of2
  · unfold startVal2; rw [k.1]; simp
  · unfold stopVal2; rw [k.2]; simp

end VecMath

import Verif.Props.FloatAxis
import Verif.Props.FloatMatrix
import Verif.Spec.Axes
/-!
# Layer F: the coordinate axes are an exact orthonormal basis (C101)

Generated by `tools/gen/basis.py`. Multiplying by the constants 0 and 1 and adding 0 is exact for finite numbers, so
the laws of an orthonormal basis hold without any rounding error; they fail as soon as one component is infinite.
-/

namespace VecMath
set_option linter.unusedSimpArgs false
set_option linter.unusedVariables false
set_option linter.unusedSectionVars false
open Scalar IEEE

/-! ## 2D -/
section
variable {S : Type} [Scalar S] [IEEE S]
/-- **C101**, 2D: the components of the axes, of the zero vector and of the origin. -/
theorem C101_components2 (d e : Dimension2) :
    (Vector2.axis d : Vector2 S).index e = (if e = d then one else zero) ∧
    (Vector2.zero : Vector2 S).index e = zero ∧ (Point2.origin : Point2 S).index e = zero := by
  cases d <;> cases e <;> exact ⟨rfl, rfl, rfl⟩
theorem C101_named2 : (Vector2.axis .X : Vector2 S) = Vector2.xAxis ∧ (Vector2.axis .Y : Vector2 S) = Vector2.yAxis :=
  ⟨rfl, rfl⟩
/-- **C101**, 2D: the inner product with an axis is the component, exactly. -/
theorem C101_dot2 (v : Vector2 S) (hv : AllFinite v) (d : Dimension2) :
    ((Api.dot (Vector2.axis d : Vector2 S) v : S) == v.index d) = true ∧ ((Api.dot v (Vector2.axis d : Vector2 S) : S) == v.index d) = true := by
  rw [Vector2.allFinite] at hv
  obtain ⟨h0, h1⟩ := hv
  cases d <;> constructor <;> refine beq_of_num' ?_ (IsFinite.not_nan (by assumption)) <;>
    simp only [Vector2.axis, Vector2.xAxis, Vector2.yAxis, Vector2.new, Vector2.index, Vector2.zero, Point2.new, Point2.origin, Point2.index, Ray2.new, Ray2.at, Vector2.dot_def] <;> num_simp [h0, h1]
/-- **C101**, 2D: every finite vector is, exactly, the sum of its components times the axes. -/
theorem C101_sum2 (v : Vector2 S) (hv : AllFinite v) :
    ((Vector2.xAxis : Vector2 S) * v.x + (Vector2.yAxis : Vector2 S) * v.y == v) = true ∧
    (v.x * (Vector2.xAxis : Vector2 S) + v.y * (Vector2.yAxis : Vector2 S) == v) = true := by
  rw [Vector2.allFinite] at hv
  obtain ⟨h0, h1⟩ := hv
  rw [Vector2.beq_iff, Vector2.beq_iff]
  refine ⟨⟨?_, ?_⟩, ⟨?_, ?_⟩⟩ <;> refine beq_of_num' ?_ (IsFinite.not_nan (by assumption)) <;>
    simp only [Vector2.add_x, Vector2.add_y, Vector2.mul_x, Vector2.mul_y, Vector2.smul_x, Vector2.smul_y, Vector2.axis, Vector2.xAxis, Vector2.yAxis, Vector2.new, Vector2.index, Vector2.zero, Point2.new, Point2.origin, Point2.index, Ray2.new, Ray2.at] <;> num_simp [h0, h1]
theorem finite_axis2 (d : Dimension2) : AllFinite (Vector2.axis d : Vector2 S) := by
  rw [Vector2.allFinite]
  cases d <;> exact ⟨by first | exact finite_one | exact finite_zero, by first | exact finite_one | exact finite_zero⟩
/-- **C101**, 2D: the axes are orthonormal. -/
theorem C101_orthogonal2 (d e : Dimension2) :
    ((Api.dot (Vector2.axis d : Vector2 S) (Vector2.axis e : Vector2 S) : S) == if d = e then one else zero) = true := by
  have := (C101_dot2 _ (finite_axis2 (S := S) e) d).1
  rwa [(C101_components2 e d).1] at this
/-- **C101**, 2D: a ray along an axis moves one coordinate only, by exactly one rounded addition. -/
theorem C101_ray2 (p : Point2 S) (d : Dimension2) (t : S) (hp : AllFinite p) (ht : IsFinite t) (e : Dimension2) :
    (((Ray2.new p (Vector2.axis d)).at t).index e == if e = d then p.index d + t else p.index e) = true := by
  rw [Point2.allFinite] at hp
  obtain ⟨p0, p1⟩ := hp
  cases d <;> cases e <;> refine beq_of_num' ?_ (by first | exact IsFinite.not_nan (by assumption) | exact isNaN_add_finite (by assumption) ht.not_nan) <;>
    simp only [Point2.add_x, Point2.add_y, Vector2.mul_x, Vector2.mul_y, Vector2.axis, Vector2.xAxis, Vector2.yAxis, Vector2.new, Vector2.index, Vector2.zero, Point2.new, Point2.origin, Point2.index, Ray2.new, Ray2.at, if_pos, if_neg, reduceCtorEq, if_false] <;> num_simp [p0, p1, ht]
/-- **C101**, 2D: the product of a finite matrix with an axis is, exactly, the column of that axis; the product of
an axis with the matrix is the row. -/
theorem C101_columns2 (m : Matrix3x3 S) (hm : AllFinite m) (b : Build) (d e : Dimension2) :
    (∃ s, m.get b e.number d.number = .ok s ∧ ((m * (Vector2.axis d : Vector2 S)).index e == s) = true) ∧
    (∃ s, m.get b d.number e.number = .ok s ∧ (((Vector2.axis d : Vector2 S) * m).index e == s) = true) := by
  have hf := Matrix3x3.allFinite.1 hm
  rw [forall_lt_9] at hf
  obtain ⟨m0, m1, m2, m3, m4, m5, m6, m7, m8⟩ := hf
  cases d <;> cases e <;>
    refine ⟨⟨_, by cases b <;> rfl, ?_⟩, ⟨_, by cases b <;> rfl, ?_⟩⟩ <;>
    refine beq_of_num' ?_ (IsFinite.not_nan (by assumption)) <;> simp only [Vector2.axis, Vector2.xAxis, Vector2.yAxis, Vector2.new, Vector2.index, Vector2.zero, Point2.new, Point2.origin, Point2.index, Ray2.new, Ray2.at] <;> mat_simp [] <;> num_simp [m0, m1, m2, m3, m4, m5, m6, m7, m8] <;> rfl
/-- **C101**, 2D: a finite affine matrix sends the origin, exactly, to its last column. -/
theorem C101_translation2 (m : Matrix3x3 S) (hm : AllFinite m) (b : Build) (ha : m.HasAffineRow b) (e : Dimension2) :
    ∃ s, m.get b e.number 2 = .ok s ∧ ((m * (Point2.origin : Point2 S)).index e == s) = true := by
  have hf := Matrix3x3.allFinite.1 hm
  rw [forall_lt_9] at hf
  obtain ⟨m0, m1, m2, m3, m4, m5, m6, m7, m8⟩ := hf
  obtain ⟨a0, a1, a2, g0, g1, g2, e0, e1, e2⟩ := ha
  have g2 : a2 = m.m[8] := (Except.ok.inj (by rw [← g2]; cases b <;> rfl)).symm
  subst g2
  have ew : num m.m[8] = num (one : S) := num_of_beq e2
  cases e <;> refine ⟨_, by cases b <;> rfl, ?_⟩ <;>
    refine beq_of_num' ?_ (IsFinite.not_nan (by assumption)) <;> simp only [Vector2.axis, Vector2.xAxis, Vector2.yAxis, Vector2.new, Vector2.index, Vector2.zero, Point2.new, Point2.origin, Point2.index, Ray2.new, Ray2.at] <;> mat_simp [] <;>
    refine num_div_of_one ?_ ?_ <;> (try rfl) <;> num_simp [m0, m1, m2, m3, m4, m5, m6, m7, m8, ew] <;> rfl
/-- **C101**, 2D: a finite affine matrix is determined by what it does to the origin and to the axes: two such matrices
that do the same to these are equal. -/
theorem C101_determined2 (m m' : Matrix3x3 S) (hm : AllFinite m) (hm' : AllFinite m') (b : Build) (ha : m.HasAffineRow b) (ha' : m'.HasAffineRow b)
    (ho : (m * (Point2.origin : Point2 S) == m' * (Point2.origin : Point2 S)) = true)
    (hd : ∀ d, (m * (Vector2.axis d : Vector2 S) == m' * (Vector2.axis d : Vector2 S)) = true) : (m == m') = true := by
  have col : ∀ d e, ∀ s s', m.get b e d = .ok s → m'.get b e d = .ok s' → (∃ x x' : S, (x == s) = true ∧ (x' == s') = true ∧ (x == x') = true) →
      (s == s') = true := by
    rintro d e s s' - - ⟨x, x', h, h', h''⟩
    rw [beq_iff] at *
    exact ⟨h.2.1, h'.2.1, by rw [← h.2.2, h''.2.2, h'.2.2]⟩
  have hdi : ∀ d e, ((m * (Vector2.axis d : Vector2 S)).index e == (m' * (Vector2.axis d : Vector2 S)).index e) = true := by
    intro d e
    have := Vector2.beq_iff.1 (hd d)
    cases e
    · exact this.1
    · exact this.2
  have hoi : ∀ e, ((m * (Point2.origin : Point2 S)).index e == (m' * (Point2.origin : Point2 S)).index e) = true := by
    intro e
    have := Point2.beq_iff.1 ho
    cases e
    · exact this.1
    · exact this.2
  have lin : ∀ d e : Dimension2, ∀ s s', m.get b e.number d.number = .ok s → m'.get b e.number d.number = .ok s' → (s == s') = true := by
    intro d e s s' g g'
    obtain ⟨x, k, hx⟩ := (C101_columns2 m hm b d e).1
    obtain ⟨x', k', hx'⟩ := (C101_columns2 m' hm' b d e).1
    rw [g] at k; rw [g'] at k'
    obtain rfl := Except.ok.inj k
    obtain rfl := Except.ok.inj k'
    exact col _ _ _ _ g g' ⟨_, _, hx, hx', hdi d e⟩
  have tr : ∀ e : Dimension2, ∀ s s', m.get b e.number 2 = .ok s → m'.get b e.number 2 = .ok s' → (s == s') = true := by
    intro e s s' g g'
    obtain ⟨x, k, hx⟩ := C101_translation2 m hm b ha e
    obtain ⟨x', k', hx'⟩ := C101_translation2 m' hm' b ha' e
    rw [g] at k; rw [g'] at k'
    obtain rfl := Except.ok.inj k
    obtain rfl := Except.ok.inj k'
    exact col _ _ _ _ g g' ⟨_, _, hx, hx', hoi e⟩
  obtain ⟨a0, a1, a2, g0, g1, g2, e0, e1, e2⟩ := ha
  obtain ⟨a0', a1', a2', g0', g1', g2', e0', e1', e2'⟩ := ha'
  have row : ∀ s s' c : S, (s == c) = true → (s' == c) = true → (s == s') = true := by
    intro s s' c h h'
    rw [beq_iff] at *
    exact ⟨h.1, h'.1, by rw [h.2.2, h'.2.2]⟩
  rw [Matrix3x3.beq_iff, forall_lt_9]
  refine ⟨?_, ?_, ?_, ?_, ?_, ?_, ?_, ?_, ?_⟩
  · exact lin .X .X _ _ (by cases b <;> rfl) (by cases b <;> rfl)
  · exact lin .Y .X _ _ (by cases b <;> rfl) (by cases b <;> rfl)
  · exact tr .X _ _ (by cases b <;> rfl) (by cases b <;> rfl)
  · exact lin .X .Y _ _ (by cases b <;> rfl) (by cases b <;> rfl)
  · exact lin .Y .Y _ _ (by cases b <;> rfl) (by cases b <;> rfl)
  · exact tr .Y _ _ (by cases b <;> rfl) (by cases b <;> rfl)
  · have k1 : a0 = m.m[6] := (Except.ok.inj (by rw [← g0]; cases b <;> rfl)).symm
    have k2 : a0' = m'.m[6] := (Except.ok.inj (by rw [← g0']; cases b <;> rfl)).symm
    rw [← k1, ← k2]; exact row _ _ _ e0 e0'
  · have k1 : a1 = m.m[7] := (Except.ok.inj (by rw [← g1]; cases b <;> rfl)).symm
    have k2 : a1' = m'.m[7] := (Except.ok.inj (by rw [← g1']; cases b <;> rfl)).symm
    rw [← k1, ← k2]; exact row _ _ _ e1 e1'
  · have k1 : a2 = m.m[8] := (Except.ok.inj (by rw [← g2]; cases b <;> rfl)).symm
    have k2 : a2' = m'.m[8] := (Except.ok.inj (by rw [← g2']; cases b <;> rfl)).symm
    rw [← k1, ← k2]; exact row _ _ _ e2 e2'
/-- **C101** ends here: next to an infinite component the inner product with an axis is NaN, although the component
asked for may be any number. -/
theorem C101_infinite2 (v : Vector2 S) (d e : Dimension2) (hne : e ≠ d) (hi : IsInf (v.index e)) :
    IsNaN (Api.dot (Vector2.axis d : Vector2 S) v : S) := by
  have key : IsNaN ((zero : S) * v.index e) := by
    obtain ⟨s, hs⟩ := hi
    unfold IsNaN; rw [den_mul, hs, den_zero]; simp [Rounding.mul, Val.real]
  cases d <;> cases e <;> first | exact absurd rfl hne | exact isNaN_add_left key | exact isNaN_add_right key
end
section
variable {S : Type} [Scalar S] [IEEE S] [Binary S]
/-- **C101**, 2D: the axes have length exactly 1 and are their own normalization. -/
theorem C101_unit2 (d : Dimension2) : (Api.length (Vector2.axis d : Vector2 S) == one) = true ∧
    ((Vector2.axis d : Vector2 S).normalize == Vector2.axis d) = true := by
  have hd : (Vector2.axis d : Vector2 S).index d = one := by rw [(C101_components2 d d).1, if_pos rfl]
  have he : ∀ e ≠ d, (Vector2.axis d : Vector2 S).index e = zero := fun e h => by rw [(C101_components2 d e).1, if_neg h]
  have zz : ((zero : S) == zero) = true := beq_iff.2 ⟨finite_zero.not_nan, finite_zero.not_nan, rfl⟩
  have key := C98_axis2 (Vector2.axis d : Vector2 S) d (by rw [hd]; exact finite_one) (fun e h => by rw [he e h]; exact zz)
    (by rw [hd, real_one, one_pow]; exact .inr (by rw [abs_one]; exact one_normal)) (by rw [hd, real_one, one_pow]; linarith [three_le_overflow (S := S)])
  rw [hd, real_one] at key
  obtain ⟨k1, k2⟩ := key
  have oo : ∀ s : S, IsFinite s → real s = 1 → (s == one) = true := fun s h h' =>
    beq_iff.2 ⟨h.not_nan, finite_one.not_nan, by rw [h.val, finite_one.val, h', real_one]⟩
  constructor
  · rw [beq_iff] at k1 ⊢
    refine ⟨k1.1, finite_one.not_nan, ?_⟩
    rw [k1.2.2, (finite_abs.2 finite_one).val, finite_one.val, real_abs, real_one, abs_one]
  · obtain ⟨f, r, z⟩ := k2 one_ne_zero
    rw [Vector2.beq_iff]
    have hd' := oo _ f (by rw [r]; simp)
    cases d
    · exact ⟨hd', z .Y (by decide)⟩
    · exact ⟨z .X (by decide), hd'⟩
end
/-! ## 3D -/
section
variable {S : Type} [Scalar S] [IEEE S]
/-- **C101**, 3D: the components of the axes, of the zero vector and of the origin. -/
theorem C101_components3 (d e : Dimension3) :
    (Vector3.axis d : Vector3 S).index e = (if e = d then one else zero) ∧
    (Vector3.zero : Vector3 S).index e = zero ∧ (Point3.origin : Point3 S).index e = zero := by
  cases d <;> cases e <;> exact ⟨rfl, rfl, rfl⟩
theorem C101_named3 : (Vector3.axis .X : Vector3 S) = Vector3.xAxis ∧ (Vector3.axis .Y : Vector3 S) = Vector3.yAxis ∧ (Vector3.axis .Z : Vector3 S) = Vector3.zAxis :=
  ⟨rfl, rfl, rfl⟩
/-- **C101**, 3D: the inner product with an axis is the component, exactly. -/
theorem C101_dot3 (v : Vector3 S) (hv : AllFinite v) (d : Dimension3) :
    ((Api.dot (Vector3.axis d : Vector3 S) v : S) == v.index d) = true ∧ ((Api.dot v (Vector3.axis d : Vector3 S) : S) == v.index d) = true := by
  rw [Vector3.allFinite] at hv
  obtain ⟨h0, h1, h2⟩ := hv
  cases d <;> constructor <;> refine beq_of_num' ?_ (IsFinite.not_nan (by assumption)) <;>
    simp only [Vector3.axis, Vector3.xAxis, Vector3.yAxis, Vector3.zAxis, Vector3.new, Vector3.index, Vector3.zero, Point3.new, Point3.origin, Point3.index, Ray3.new, Ray3.at, Vector3.dot_def] <;> num_simp [h0, h1, h2]
/-- **C101**, 3D: every finite vector is, exactly, the sum of its components times the axes. -/
theorem C101_sum3 (v : Vector3 S) (hv : AllFinite v) :
    ((Vector3.xAxis : Vector3 S) * v.x + (Vector3.yAxis : Vector3 S) * v.y + (Vector3.zAxis : Vector3 S) * v.z == v) = true ∧
    (v.x * (Vector3.xAxis : Vector3 S) + v.y * (Vector3.yAxis : Vector3 S) + v.z * (Vector3.zAxis : Vector3 S) == v) = true := by
  rw [Vector3.allFinite] at hv
  obtain ⟨h0, h1, h2⟩ := hv
  rw [Vector3.beq_iff, Vector3.beq_iff]
  refine ⟨⟨?_, ?_, ?_⟩, ⟨?_, ?_, ?_⟩⟩ <;> refine beq_of_num' ?_ (IsFinite.not_nan (by assumption)) <;>
    simp only [Vector3.add_x, Vector3.add_y, Vector3.add_z, Vector3.mul_x, Vector3.mul_y, Vector3.mul_z, Vector3.smul_x, Vector3.smul_y, Vector3.smul_z, Vector3.axis, Vector3.xAxis, Vector3.yAxis, Vector3.zAxis, Vector3.new, Vector3.index, Vector3.zero, Point3.new, Point3.origin, Point3.index, Ray3.new, Ray3.at] <;> num_simp [h0, h1, h2]
theorem finite_axis3 (d : Dimension3) : AllFinite (Vector3.axis d : Vector3 S) := by
  rw [Vector3.allFinite]
  cases d <;> exact ⟨by first | exact finite_one | exact finite_zero, by first | exact finite_one | exact finite_zero, by first | exact finite_one | exact finite_zero⟩
/-- **C101**, 3D: the axes are orthonormal. -/
theorem C101_orthogonal3 (d e : Dimension3) :
    ((Api.dot (Vector3.axis d : Vector3 S) (Vector3.axis e : Vector3 S) : S) == if d = e then one else zero) = true := by
  have := (C101_dot3 _ (finite_axis3 (S := S) e) d).1
  rwa [(C101_components3 e d).1] at this
/-- **C101**, 3D: a ray along an axis moves one coordinate only, by exactly one rounded addition. -/
theorem C101_ray3 (p : Point3 S) (d : Dimension3) (t : S) (hp : AllFinite p) (ht : IsFinite t) (e : Dimension3) :
    (((Ray3.new p (Vector3.axis d)).at t).index e == if e = d then p.index d + t else p.index e) = true := by
  rw [Point3.allFinite] at hp
  obtain ⟨p0, p1, p2⟩ := hp
  cases d <;> cases e <;> refine beq_of_num' ?_ (by first | exact IsFinite.not_nan (by assumption) | exact isNaN_add_finite (by assumption) ht.not_nan) <;>
    simp only [Point3.add_x, Point3.add_y, Point3.add_z, Vector3.mul_x, Vector3.mul_y, Vector3.mul_z, Vector3.axis, Vector3.xAxis, Vector3.yAxis, Vector3.zAxis, Vector3.new, Vector3.index, Vector3.zero, Point3.new, Point3.origin, Point3.index, Ray3.new, Ray3.at, if_pos, if_neg, reduceCtorEq, if_false] <;> num_simp [p0, p1, p2, ht]
/-- **C101**, 3D: the product of a finite matrix with an axis is, exactly, the column of that axis; the product of
an axis with the matrix is the row. -/
theorem C101_columns3 (m : Matrix4x4 S) (hm : AllFinite m) (b : Build) (d e : Dimension3) :
    (∃ s, m.get b e.number d.number = .ok s ∧ ((m * (Vector3.axis d : Vector3 S)).index e == s) = true) ∧
    (∃ s, m.get b d.number e.number = .ok s ∧ (((Vector3.axis d : Vector3 S) * m).index e == s) = true) := by
  have hf := Matrix4x4.allFinite.1 hm
  rw [forall_lt_16] at hf
  obtain ⟨m0, m1, m2, m3, m4, m5, m6, m7, m8, m9, m10, m11, m12, m13, m14, m15⟩ := hf
  cases d <;> cases e <;>
    refine ⟨⟨_, by cases b <;> rfl, ?_⟩, ⟨_, by cases b <;> rfl, ?_⟩⟩ <;>
    refine beq_of_num' ?_ (IsFinite.not_nan (by assumption)) <;> simp only [Vector3.axis, Vector3.xAxis, Vector3.yAxis, Vector3.zAxis, Vector3.new, Vector3.index, Vector3.zero, Point3.new, Point3.origin, Point3.index, Ray3.new, Ray3.at] <;> mat_simp [] <;> num_simp [m0, m1, m2, m3, m4, m5, m6, m7, m8, m9, m10, m11, m12, m13, m14, m15] <;> rfl
/-- **C101**, 3D: a finite affine matrix sends the origin, exactly, to its last column. -/
theorem C101_translation3 (m : Matrix4x4 S) (hm : AllFinite m) (b : Build) (ha : m.HasAffineRow b) (e : Dimension3) :
    ∃ s, m.get b e.number 3 = .ok s ∧ ((m * (Point3.origin : Point3 S)).index e == s) = true := by
  have hf := Matrix4x4.allFinite.1 hm
  rw [forall_lt_16] at hf
  obtain ⟨m0, m1, m2, m3, m4, m5, m6, m7, m8, m9, m10, m11, m12, m13, m14, m15⟩ := hf
  obtain ⟨a0, a1, a2, a3, g0, g1, g2, g3, e0, e1, e2, e3⟩ := ha
  have g3 : a3 = m.m[15] := (Except.ok.inj (by rw [← g3]; cases b <;> rfl)).symm
  subst g3
  have ew : num m.m[15] = num (one : S) := num_of_beq e3
  cases e <;> refine ⟨_, by cases b <;> rfl, ?_⟩ <;>
    refine beq_of_num' ?_ (IsFinite.not_nan (by assumption)) <;> simp only [Vector3.axis, Vector3.xAxis, Vector3.yAxis, Vector3.zAxis, Vector3.new, Vector3.index, Vector3.zero, Point3.new, Point3.origin, Point3.index, Ray3.new, Ray3.at] <;> mat_simp [] <;>
    refine num_div_of_one ?_ ?_ <;> (try rfl) <;> num_simp [m0, m1, m2, m3, m4, m5, m6, m7, m8, m9, m10, m11, m12, m13, m14, m15, ew] <;> rfl
/-- **C101**, 3D: a finite affine matrix is determined by what it does to the origin and to the axes: two such matrices
that do the same to these are equal. -/
theorem C101_determined3 (m m' : Matrix4x4 S) (hm : AllFinite m) (hm' : AllFinite m') (b : Build) (ha : m.HasAffineRow b) (ha' : m'.HasAffineRow b)
    (ho : (m * (Point3.origin : Point3 S) == m' * (Point3.origin : Point3 S)) = true)
    (hd : ∀ d, (m * (Vector3.axis d : Vector3 S) == m' * (Vector3.axis d : Vector3 S)) = true) : (m == m') = true := by
  have col : ∀ d e, ∀ s s', m.get b e d = .ok s → m'.get b e d = .ok s' → (∃ x x' : S, (x == s) = true ∧ (x' == s') = true ∧ (x == x') = true) →
      (s == s') = true := by
    rintro d e s s' - - ⟨x, x', h, h', h''⟩
    rw [beq_iff] at *
    exact ⟨h.2.1, h'.2.1, by rw [← h.2.2, h''.2.2, h'.2.2]⟩
  have hdi : ∀ d e, ((m * (Vector3.axis d : Vector3 S)).index e == (m' * (Vector3.axis d : Vector3 S)).index e) = true := by
    intro d e
    have := Vector3.beq_iff.1 (hd d)
    cases e
    · exact this.1
    · exact this.2.1
    · exact this.2.2
  have hoi : ∀ e, ((m * (Point3.origin : Point3 S)).index e == (m' * (Point3.origin : Point3 S)).index e) = true := by
    intro e
    have := Point3.beq_iff.1 ho
    cases e
    · exact this.1
    · exact this.2.1
    · exact this.2.2
  have lin : ∀ d e : Dimension3, ∀ s s', m.get b e.number d.number = .ok s → m'.get b e.number d.number = .ok s' → (s == s') = true := by
    intro d e s s' g g'
    obtain ⟨x, k, hx⟩ := (C101_columns3 m hm b d e).1
    obtain ⟨x', k', hx'⟩ := (C101_columns3 m' hm' b d e).1
    rw [g] at k; rw [g'] at k'
    obtain rfl := Except.ok.inj k
    obtain rfl := Except.ok.inj k'
    exact col _ _ _ _ g g' ⟨_, _, hx, hx', hdi d e⟩
  have tr : ∀ e : Dimension3, ∀ s s', m.get b e.number 3 = .ok s → m'.get b e.number 3 = .ok s' → (s == s') = true := by
    intro e s s' g g'
    obtain ⟨x, k, hx⟩ := C101_translation3 m hm b ha e
    obtain ⟨x', k', hx'⟩ := C101_translation3 m' hm' b ha' e
    rw [g] at k; rw [g'] at k'
    obtain rfl := Except.ok.inj k
    obtain rfl := Except.ok.inj k'
    exact col _ _ _ _ g g' ⟨_, _, hx, hx', hoi e⟩
  obtain ⟨a0, a1, a2, a3, g0, g1, g2, g3, e0, e1, e2, e3⟩ := ha
  obtain ⟨a0', a1', a2', a3', g0', g1', g2', g3', e0', e1', e2', e3'⟩ := ha'
  have row : ∀ s s' c : S, (s == c) = true → (s' == c) = true → (s == s') = true := by
    intro s s' c h h'
    rw [beq_iff] at *
    exact ⟨h.1, h'.1, by rw [h.2.2, h'.2.2]⟩
  rw [Matrix4x4.beq_iff, forall_lt_16]
  refine ⟨?_, ?_, ?_, ?_, ?_, ?_, ?_, ?_, ?_, ?_, ?_, ?_, ?_, ?_, ?_, ?_⟩
  · exact lin .X .X _ _ (by cases b <;> rfl) (by cases b <;> rfl)
  · exact lin .Y .X _ _ (by cases b <;> rfl) (by cases b <;> rfl)
  · exact lin .Z .X _ _ (by cases b <;> rfl) (by cases b <;> rfl)
  · exact tr .X _ _ (by cases b <;> rfl) (by cases b <;> rfl)
  · exact lin .X .Y _ _ (by cases b <;> rfl) (by cases b <;> rfl)
  · exact lin .Y .Y _ _ (by cases b <;> rfl) (by cases b <;> rfl)
  · exact lin .Z .Y _ _ (by cases b <;> rfl) (by cases b <;> rfl)
  · exact tr .Y _ _ (by cases b <;> rfl) (by cases b <;> rfl)
  · exact lin .X .Z _ _ (by cases b <;> rfl) (by cases b <;> rfl)
  · exact lin .Y .Z _ _ (by cases b <;> rfl) (by cases b <;> rfl)
  · exact lin .Z .Z _ _ (by cases b <;> rfl) (by cases b <;> rfl)
  · exact tr .Z _ _ (by cases b <;> rfl) (by cases b <;> rfl)
  · have k1 : a0 = m.m[12] := (Except.ok.inj (by rw [← g0]; cases b <;> rfl)).symm
    have k2 : a0' = m'.m[12] := (Except.ok.inj (by rw [← g0']; cases b <;> rfl)).symm
    rw [← k1, ← k2]; exact row _ _ _ e0 e0'
  · have k1 : a1 = m.m[13] := (Except.ok.inj (by rw [← g1]; cases b <;> rfl)).symm
    have k2 : a1' = m'.m[13] := (Except.ok.inj (by rw [← g1']; cases b <;> rfl)).symm
    rw [← k1, ← k2]; exact row _ _ _ e1 e1'
  · have k1 : a2 = m.m[14] := (Except.ok.inj (by rw [← g2]; cases b <;> rfl)).symm
    have k2 : a2' = m'.m[14] := (Except.ok.inj (by rw [← g2']; cases b <;> rfl)).symm
    rw [← k1, ← k2]; exact row _ _ _ e2 e2'
  · have k1 : a3 = m.m[15] := (Except.ok.inj (by rw [← g3]; cases b <;> rfl)).symm
    have k2 : a3' = m'.m[15] := (Except.ok.inj (by rw [← g3']; cases b <;> rfl)).symm
    rw [← k1, ← k2]; exact row _ _ _ e3 e3'
/-- **C101** ends here: next to an infinite component the inner product with an axis is NaN, although the component
asked for may be any number. -/
theorem C101_infinite3 (v : Vector3 S) (d e : Dimension3) (hne : e ≠ d) (hi : IsInf (v.index e)) :
    IsNaN (Api.dot (Vector3.axis d : Vector3 S) v : S) := by
  have key : IsNaN ((zero : S) * v.index e) := by
    obtain ⟨s, hs⟩ := hi
    unfold IsNaN; rw [den_mul, hs, den_zero]; simp [Rounding.mul, Val.real]
  cases d <;> cases e <;> first | exact absurd rfl hne | exact isNaN_add_left (isNaN_add_left key) | exact isNaN_add_left (isNaN_add_right key) | exact isNaN_add_right key
end
section
variable {S : Type} [Scalar S] [IEEE S] [Binary S]
/-- **C101**, 3D: the axes have length exactly 1 and are their own normalization. -/
theorem C101_unit3 (d : Dimension3) : (Api.length (Vector3.axis d : Vector3 S) == one) = true ∧
    ((Vector3.axis d : Vector3 S).normalize == Vector3.axis d) = true := by
  have hd : (Vector3.axis d : Vector3 S).index d = one := by rw [(C101_components3 d d).1, if_pos rfl]
  have he : ∀ e ≠ d, (Vector3.axis d : Vector3 S).index e = zero := fun e h => by rw [(C101_components3 d e).1, if_neg h]
  have zz : ((zero : S) == zero) = true := beq_iff.2 ⟨finite_zero.not_nan, finite_zero.not_nan, rfl⟩
  have key := C98_axis3 (Vector3.axis d : Vector3 S) d (by rw [hd]; exact finite_one) (fun e h => by rw [he e h]; exact zz)
    (by rw [hd, real_one, one_pow]; exact .inr (by rw [abs_one]; exact one_normal)) (by rw [hd, real_one, one_pow]; linarith [three_le_overflow (S := S)])
  rw [hd, real_one] at key
  obtain ⟨k1, k2⟩ := key
  have oo : ∀ s : S, IsFinite s → real s = 1 → (s == one) = true := fun s h h' =>
    beq_iff.2 ⟨h.not_nan, finite_one.not_nan, by rw [h.val, finite_one.val, h', real_one]⟩
  constructor
  · rw [beq_iff] at k1 ⊢
    refine ⟨k1.1, finite_one.not_nan, ?_⟩
    rw [k1.2.2, (finite_abs.2 finite_one).val, finite_one.val, real_abs, real_one, abs_one]
  · obtain ⟨f, r, z⟩ := k2 one_ne_zero
    rw [Vector3.beq_iff]
    have hd' := oo _ f (by rw [r]; simp)
    cases d
    · exact ⟨hd', z .Y (by decide), z .Z (by decide)⟩
    · exact ⟨z .X (by decide), hd', z .Z (by decide)⟩
    · exact ⟨z .X (by decide), z .Y (by decide), hd'⟩
end
section
variable {S : Type} [Scalar S] [IEEE S]
/-- **C101**, 3D: the vector product with an axis swaps the other two components and changes one sign, exactly. In
particular the axes form a right-handed system. -/
theorem C101_cross3 (v : Vector3 S) (hv : AllFinite v) :
    (Api.cross (Vector3.xAxis : Vector3 S) v == Vector3.new zero (-v.z) v.y) = true ∧
    (Api.cross (Vector3.yAxis : Vector3 S) v == Vector3.new v.z zero (-v.x)) = true ∧
    (Api.cross (Vector3.zAxis : Vector3 S) v == Vector3.new (-v.y) v.x zero) = true := by
  rw [Vector3.allFinite] at hv
  obtain ⟨h0, h1, h2⟩ := hv
  have c00 : ∀ {s t : S}, IsFinite s → IsFinite t → num (zero * s - zero * t) = num (zero : S) := fun hs ht =>
    (num_sub_congr (IEEE.num_zero_mul hs) (IEEE.num_zero_mul ht)).trans (same_sub_zero _).num
  have c01 : ∀ {s t : S}, IsFinite s → IsFinite t → num (zero * s - one * t) = num (-t) := fun hs ht =>
    (num_sub_congr (IEEE.num_zero_mul hs) (num_one_mul _)).trans ((same_sub _ _).num.trans (num_zero_add _))
  have c10 : ∀ {s t : S}, IsFinite s → IsFinite t → num (one * s - zero * t) = num s := fun hs ht =>
    (num_sub_congr (num_one_mul _) (IEEE.num_zero_mul ht)).trans (same_sub_zero _).num
  have n0 := finite_neg.2 h0
  have n1 := finite_neg.2 h1
  have n2 := finite_neg.2 h2
  rw [Vector3.beq_iff, Vector3.beq_iff, Vector3.beq_iff]
  refine ⟨⟨?_, ?_, ?_⟩, ⟨?_, ?_, ?_⟩, ?_, ?_, ?_⟩ <;> refine beq_of_num' ?_ (by first | exact IsFinite.not_nan (by assumption) | exact finite_zero.not_nan) <;>
    simp only [Api.cross, CrossProduct.cross, Vector3.axis, Vector3.xAxis, Vector3.yAxis, Vector3.zAxis, Vector3.new]
  · exact c00 h2 h1
  · exact c01 h0 h2
  · exact c10 h1 h0
  · exact c10 h2 h1
  · exact c00 h0 h2
  · exact c01 h1 h0
  · exact c01 h2 h1
  · exact c10 h0 h2
  · exact c00 h1 h0
end
end VecMath

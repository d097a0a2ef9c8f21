import Verif.Lemmas.Mat
/-!
# Equality (C58) and the start of a ray (C23), in floating point
-/

namespace VecMath
open Scalar IEEE
variable {S : Type} [Scalar S] [IEEE S]

/-- What a user may assume of the derived `==` on a type of component tuples. -/
structure EqLaws (T : Type) {S : Type} [Scalar S] [IEEE S] [Comps T S] [BEq T] : Prop where
  /-- `==` compares all components numerically: no NaN, and the same extended real. -/
  numeric : ∀ a b : T, (a == b) = true ↔
    List.Forall₂ (fun x y : S => ¬ IsNaN x ∧ ¬ IsNaN y ∧ val x = val y) (Comps.comps a) (Comps.comps b)
  symm : ∀ a b : T, (a == b) = (b == a)
  trans : ∀ a b c : T, (a == b) = true → (b == c) = true → (a == c) = true
  refl_iff : ∀ a : T, (a == a) = true ↔ NoNaN a

theorem eqLaws_of {T : Type} [Comps T S] [BEq T]
    (h : ∀ a b : T, (a == b) = true ↔
      List.Forall₂ (fun x y : S => (x == y) = true) (Comps.comps a) (Comps.comps b)) : EqLaws T where
  numeric a b := by
    rw [h]
    constructor <;> intro h' <;> exact h'.imp fun x y hxy => by simpa only [beq_iff] using hxy
  symm a b := by
    rw [Bool.eq_iff_iff, h, h]
    constructor <;> intro h' <;> exact h'.flip.imp fun x y hxy => beq_symm hxy
  trans a b c := by
    rw [h, h, h]
    intro hab hbc
    generalize Comps.comps a = la at *
    generalize Comps.comps b = lb at *
    generalize Comps.comps c = lc at *
    induction hab generalizing lc with
    | nil => exact hbc
    | cons hx _ ih =>
      cases hbc with
      | cons hy hr => exact .cons (beq_trans hx hy) (ih _ hr)
  refl_iff a := by
    rw [h]; unfold NoNaN
    rw [List.forall₂_same]
    constructor
    · intro h' s hs; exact beq_self_iff.1 (h' s hs)
    · intro h' s hs; exact beq_self_iff.2 (h' s hs)

/-- **C58** for every type of the crate with a derived `==`. -/
theorem C58_vector2 : EqLaws (Vector2 S) := eqLaws_of fun a b => by
  rw [Vector2.beq_iff]; simp [Comps.comps]
theorem C58_vector3 : EqLaws (Vector3 S) := eqLaws_of fun a b => by
  rw [Vector3.beq_iff]; simp [Comps.comps]
theorem C58_point2 : EqLaws (Point2 S) := eqLaws_of fun a b => by
  rw [Point2.beq_iff]; simp [Comps.comps]
theorem C58_point3 : EqLaws (Point3 S) := eqLaws_of fun a b => by
  rw [Point3.beq_iff]; simp [Comps.comps]
theorem C58_ray2 : EqLaws (Ray2 S) := eqLaws_of fun a b => by
  rw [Ray2.beq_iff, Point2.beq_iff, Vector2.beq_iff]; simp [Comps.comps, and_assoc]
theorem C58_ray3 : EqLaws (Ray3 S) := eqLaws_of fun a b => by
  rw [Ray3.beq_iff, Point3.beq_iff, Vector3.beq_iff]; simp [Comps.comps, and_assoc]
theorem C58_boundingBox2 : EqLaws (BoundingBox2 S) := eqLaws_of fun a b => by
  rw [BoundingBox2.beq_iff, Point2.beq_iff, Point2.beq_iff]; simp [Comps.comps, and_assoc]
theorem C58_boundingBox3 : EqLaws (BoundingBox3 S) := eqLaws_of fun a b => by
  rw [BoundingBox3.beq_iff, Point3.beq_iff, Point3.beq_iff]; simp [Comps.comps, and_assoc]

theorem mat3_comps {a b : Matrix3x3 S} : (a == b) = true ↔
    List.Forall₂ (fun x y : S => (x == y) = true) (Comps.comps a) (Comps.comps b) := by
  rw [Matrix3x3.beq_iff]
  obtain ⟨⟨⟨a⟩, ha⟩⟩ := a
  obtain ⟨⟨⟨b⟩, hb⟩⟩ := b
  simp only [Comps.comps]
  rw [List.forall₂_iff_get]
  simp at ha hb
  simp [ha, hb]
theorem mat4_comps {a b : Matrix4x4 S} : (a == b) = true ↔
    List.Forall₂ (fun x y : S => (x == y) = true) (Comps.comps a) (Comps.comps b) := by
  rw [Matrix4x4.beq_iff]
  obtain ⟨⟨⟨a⟩, ha⟩⟩ := a
  obtain ⟨⟨⟨b⟩, hb⟩⟩ := b
  simp only [Comps.comps]
  rw [List.forall₂_iff_get]
  simp at ha hb
  simp [ha, hb]
theorem forall₂_append_iff {α : Type} {R : α → α → Prop} {a b c d : List α} (h : a.length = c.length) :
    List.Forall₂ R (a ++ b) (c ++ d) ↔ List.Forall₂ R a c ∧ List.Forall₂ R b d := by
  constructor
  · intro h'
    induction a generalizing c with
    | nil =>
      cases c with
      | nil => exact ⟨.nil, h'⟩
      | cons => simp at h
    | cons x xs ih =>
      cases c with
      | nil => simp at h
      | cons y ys =>
        simp only [List.cons_append, List.forall₂_cons] at h' ⊢
        have := ih (by simpa using h) h'.2
        exact ⟨⟨h'.1, this.1⟩, this.2⟩
  · rintro ⟨h1, h2⟩
    induction h1 with
    | nil => exact h2
    | cons hx _ ih => exact .cons hx (ih (by simpa using h))

theorem C58_matrix3x3 : EqLaws (Matrix3x3 S) := eqLaws_of fun _ _ => mat3_comps
theorem C58_matrix4x4 : EqLaws (Matrix4x4 S) := eqLaws_of fun _ _ => mat4_comps
theorem C58_transform2 : EqLaws (Transform2 S) := eqLaws_of fun a b => by
  rw [Transform2.beq_iff, mat3_comps, mat3_comps]
  exact (forall₂_append_iff (by simp [Comps.comps])).symm
theorem C58_transform3 : EqLaws (Transform3 S) := eqLaws_of fun a b => by
  rw [Transform3.beq_iff, mat4_comps, mat4_comps]
  exact (forall₂_append_iff (by simp [Comps.comps])).symm

/-- **C58**: `+0 == -0` although they are different data. -/
theorem C58_zeros : ((zero : S) == -zero) = true ∧ ¬ Same (zero : S) (-zero) := by
  refine ⟨beq_iff.2 ⟨not_nan_zero, by simp, by simp⟩, ?_⟩
  simp [Same, den_zero, den_neg, Val.neg]

/-- Numerically the same result: both NaN, or `==`. -/
def NumSame (a b : S) : Prop := (IsNaN a ∧ IsNaN b) ∨ (a == b) = true

theorem numSame_iff {a b : S} : NumSame a b ↔ num a = num b := num_eq_iff.symm

/-- **C58**: `==` arguments give numerically the same dot product, length, distance, and the same answers
to `is_inside`, `overlaps`, `is_shorter_than` and `is_closer_to`. -/
theorem C58_congruence2 (u u' v v' : Vector2 S) (p p' q q' : Point2 S) (b b' c c' : BoundingBox2 S)
    (hu : (u == u') = true) (hv : (v == v') = true) (hp : (p == p') = true) (hq : (q == q') = true)
    (hb : (b == b') = true) (hc : (c == c') = true) (r r' : Point2 S) (hr : (r == r') = true) :
    NumSame (Api.dot u v) (Api.dot u' v') ∧ NumSame (Api.length u) (Api.length u') ∧
    NumSame (Api.distance p q) (Api.distance p' q') ∧ b.isInside p = b'.isInside p' ∧
    b.overlaps c = b'.overlaps c' ∧
    RelativeLength.isShorterThan u v = RelativeLength.isShorterThan u' v' ∧
    RelativeDistance.isCloserTo p q r = RelativeDistance.isCloserTo p' q' r' := by
  rw [Vector2.beq_iff] at hu hv
  rw [Point2.beq_iff] at hp hq hr
  rw [BoundingBox2.beq_iff, Point2.beq_iff, Point2.beq_iff] at hb hc
  simp only [beq_iff_num] at hu hv hp hq hr hb hc
  obtain ⟨⟨ux, _⟩, ⟨uy, _⟩⟩ := hu
  obtain ⟨⟨vx, _⟩, ⟨vy, _⟩⟩ := hv
  obtain ⟨⟨px, _⟩, ⟨py, _⟩⟩ := hp
  obtain ⟨⟨qx, _⟩, ⟨qy, _⟩⟩ := hq
  obtain ⟨⟨rx, _⟩, ⟨ry, _⟩⟩ := hr
  obtain ⟨⟨⟨bx, _⟩, ⟨by', _⟩⟩, ⟨bX, _⟩, ⟨bY, _⟩⟩ := hb
  obtain ⟨⟨⟨cx, _⟩, ⟨cy, _⟩⟩, ⟨cX, _⟩, ⟨cY, _⟩⟩ := hc
  simp only [numSame_iff]
  have dot : ∀ {a a' b b' : Vector2 S}, num a.x = num a'.x → num a.y = num a'.y → num b.x = num b'.x →
      num b.y = num b'.y → num (Api.dot a b) = num (Api.dot a' b') := fun h1 h2 h3 h4 =>
    num_add_congr (num_mul_congr h1 h3) (num_mul_congr h2 h4)
  refine ⟨dot ux uy vx vy, num_sqrt_congr (dot ux uy ux uy), ?_, ?_, ?_, ?_, ?_⟩
  · exact num_sqrt_congr (dot (num_sub_congr qx px) (num_sub_congr qy py) (num_sub_congr qx px)
      (num_sub_congr qy py))
  · simp only [BoundingBox2.isInside, le_congr bx px, le_congr px bX, le_congr by' py, le_congr py bY]
  · simp only [BoundingBox2.overlaps, le_congr cx bX, le_congr bx cX, le_congr cy bY, le_congr by' cY]
  · exact lt_congr (dot ux uy ux uy) (dot vx vy vx vy)
  · exact lt_congr (dot (num_sub_congr qx px) (num_sub_congr qy py) (num_sub_congr qx px)
      (num_sub_congr qy py)) (dot (num_sub_congr rx px) (num_sub_congr ry py) (num_sub_congr rx px)
      (num_sub_congr ry py))
/-- **C58**: the same in 3D, and for the cross product. -/
theorem C58_congruence3 (u u' v v' : Vector3 S) (p p' q q' : Point3 S) (b b' c c' : BoundingBox3 S)
    (hu : (u == u') = true) (hv : (v == v') = true) (hp : (p == p') = true) (hq : (q == q') = true)
    (hb : (b == b') = true) (hc : (c == c') = true) (r r' : Point3 S) (hr : (r == r') = true) :
    NumSame (Api.dot u v) (Api.dot u' v') ∧ NumSame (Api.length u) (Api.length u') ∧
    NumSame (Api.distance p q) (Api.distance p' q') ∧ b.isInside p = b'.isInside p' ∧
    b.overlaps c = b'.overlaps c' ∧
    RelativeLength.isShorterThan u v = RelativeLength.isShorterThan u' v' ∧
    RelativeDistance.isCloserTo p q r = RelativeDistance.isCloserTo p' q' r' ∧
    (NumSame (Api.cross u v).x (Api.cross u' v').x ∧ NumSame (Api.cross u v).y (Api.cross u' v').y ∧
      NumSame (Api.cross u v).z (Api.cross u' v').z) := by
  rw [Vector3.beq_iff] at hu hv
  rw [Point3.beq_iff] at hp hq hr
  rw [BoundingBox3.beq_iff, Point3.beq_iff, Point3.beq_iff] at hb hc
  simp only [beq_iff_num] at hu hv hp hq hr hb hc
  obtain ⟨⟨ux, _⟩, ⟨uy, _⟩, ⟨uz, _⟩⟩ := hu
  obtain ⟨⟨vx, _⟩, ⟨vy, _⟩, ⟨vz, _⟩⟩ := hv
  obtain ⟨⟨px, _⟩, ⟨py, _⟩, ⟨pz, _⟩⟩ := hp
  obtain ⟨⟨qx, _⟩, ⟨qy, _⟩, ⟨qz, _⟩⟩ := hq
  obtain ⟨⟨rx, _⟩, ⟨ry, _⟩, ⟨rz, _⟩⟩ := hr
  obtain ⟨⟨⟨bx, _⟩, ⟨by', _⟩, ⟨bz, _⟩⟩, ⟨bX, _⟩, ⟨bY, _⟩, ⟨bZ, _⟩⟩ := hb
  obtain ⟨⟨⟨cx, _⟩, ⟨cy, _⟩, ⟨cz, _⟩⟩, ⟨cX, _⟩, ⟨cY, _⟩, ⟨cZ, _⟩⟩ := hc
  simp only [numSame_iff]
  have dot : ∀ {a a' b b' : Vector3 S}, num a.x = num a'.x → num a.y = num a'.y → num a.z = num a'.z →
      num b.x = num b'.x → num b.y = num b'.y → num b.z = num b'.z →
      num (Api.dot a b) = num (Api.dot a' b') := fun h1 h2 h3 h4 h5 h6 =>
    num_add_congr (num_add_congr (num_mul_congr h1 h4) (num_mul_congr h2 h5)) (num_mul_congr h3 h6)
  have dq := fun {a a' : Point3 S} (ax : num a.x = num a'.x) (ay : num a.y = num a'.y)
      (az : num a.z = num a'.z) =>
    dot (a := a - p) (a' := a' - p') (b := a - p) (b' := a' - p') (num_sub_congr ax px)
      (num_sub_congr ay py) (num_sub_congr az pz) (num_sub_congr ax px)
      (num_sub_congr ay py) (num_sub_congr az pz)
  refine ⟨dot ux uy uz vx vy vz, num_sqrt_congr (dot ux uy uz ux uy uz), num_sqrt_congr (dq qx qy qz),
    ?_, ?_, lt_congr (dot ux uy uz ux uy uz) (dot vx vy vz vx vy vz),
    lt_congr (dq qx qy qz) (dq rx ry rz), ?_, ?_, ?_⟩
  · simp only [BoundingBox3.isInside, le_congr bx px, le_congr px bX, le_congr by' py, le_congr py bY,
      le_congr bz pz, le_congr pz bZ]
  · simp only [BoundingBox3.overlaps, le_congr cx bX, le_congr bx cX, le_congr cy bY, le_congr by' cY,
      le_congr cz bZ, le_congr bz cZ]
  · exact num_sub_congr (num_mul_congr uy vz) (num_mul_congr uz vy)
  · exact num_sub_congr (num_mul_congr uz vx) (num_mul_congr ux vz)
  · exact num_sub_congr (num_mul_congr ux vy) (num_mul_congr uy vx)

/-- Division is not respected by `==`: `1 / (+0)` and `1 / (-0)` are different infinities although `+0 == -0`. -/
theorem C58_division_distinguishes_zeros :
    ((zero : S) == -zero) = true ∧ ((one / zero : S) == one / -zero) = false := by
  refine ⟨C58_zeros.1, ?_⟩
  have h1 : den ((one : S) / zero) = .inf false := by
    rw [den_div, den_one, den_zero, Rounding.div_fin _ (by simp) (by simp)]; simp
  have h2 : den ((one : S) / -zero) = .inf true := by
    rw [den_div, den_neg, den_one, den_zero, Rounding.div_fin _ (by simp) (by simp)]
    simp [Val.neg]
  rw [Bool.eq_false_iff]
  intro h
  have := (beq_iff.1 h).2.2
  simp [val, h1, h2] at this

/-- **C23** in floats: `ray.at(0) == origin` when the direction is finite and the origin NaN-free. -/
theorem C23_float_start2 (r : Ray2 S) (ho : NoNaN r.origin) (hd : AllFinite r.direction) :
    (r.at zero == r.origin) = true := by
  rw [Point2.noNaN] at ho
  rw [Vector2.allFinite] at hd
  rw [Point2.beq_iff]
  have key : ∀ a b : S, ¬ IsNaN a → IsFinite b → (a + b * zero == a) = true := fun a b ha hb =>
    beq_of_num' (by rw [num_add_congr rfl (num_mul_zero hb), num_add_zero]) ha
  exact ⟨key _ _ ho.1 hd.1, key _ _ ho.2 hd.2⟩
theorem C23_float_start3 (r : Ray3 S) (ho : NoNaN r.origin) (hd : AllFinite r.direction) :
    (r.at zero == r.origin) = true := by
  rw [Point3.noNaN] at ho
  rw [Vector3.allFinite] at hd
  rw [Point3.beq_iff]
  have key : ∀ a b : S, ¬ IsNaN a → IsFinite b → (a + b * zero == a) = true := fun a b ha hb =>
    beq_of_num' (by rw [num_add_congr rfl (num_mul_zero hb), num_add_zero]) ha
  exact ⟨key _ _ ho.1 hd.1, key _ _ ho.2.1 hd.2.1, key _ _ ho.2.2 hd.2.2⟩

example : ((Ray3.new (Point3.new (Ideal.of 1) (Ideal.of 2) (Ideal.of 3))
    (Vector3.new (Ideal.of 4) (Ideal.of 5) (Ideal.of 6))).at zero ==
    Point3.new (Ideal.of 1) (Ideal.of 2) (Ideal.of 3)) = true :=
  C23_float_start3 (Ray3.new _ _)
    (AllFinite.noNaN (Point3.allFinite.2 ⟨Ideal.finite_of _, Ideal.finite_of _, Ideal.finite_of _⟩))
    (Vector3.allFinite.2 ⟨Ideal.finite_of _, Ideal.finite_of _, Ideal.finite_of _⟩)
/-- A vector with a zero of each sign: `==` but different data. -/
example : (Vector2.new (zero : Ideal) one == Vector2.new (-zero) one) = true :=
  Vector2.beq_iff.2 ⟨C58_zeros.1, beq_self_iff.2 not_nan_one⟩

end VecMath

import Verif.Lemmas.Symm
import Verif.Lemmas.Proj
/-!
# Layer F: reflections and permutations of the axes are exact symmetries (C73)

(Generated by tools/gen/symm.py.)
-/

open Classical

namespace VecMath
open Scalar IEEE

variable {S : Type} [Scalar S] [IEEE S]

theorem same_flip_mul_flip (f : Bool) (a b : S) : Same (flip f a * flip f b) (a * b) := by
  cases f
  · rfl
  · show den (-a * -b) = _
    rw [den_mul, den_neg, den_neg, Rounding.neg_mul, Rounding.mul_neg, Val.neg_neg, den_mul]
theorem same_add_congr' {a b c d : S} (h : Same a b) (h' : Same c d) : Same (a + c) (b + d) := by
  unfold Same at *; rw [den_add, den_add, h, h']
theorem same_sqrt_congr {a b : S} (h : Same a b) : Same (Scalar.sqrt a) (Scalar.sqrt b) := by
  unfold Same at *; rw [den_sqrt, den_sqrt, h]
/-- Squares forget signs of numbers and of zeros. -/
theorem same_sq_of_num {a b : S} (h : num a = num b) : Same (a * a) (b * b) := by
  have key : ∀ v : Val, (IEEE.A S).mul v v = (IEEE.A S).mul v.canon v.canon := by
    intro v; rcases v with _ | s | _ | x <;> simp [Rounding.mul]
  unfold Same; rw [den_mul, den_mul, key, key (den b)]; unfold num at h; rw [h]
theorem same_sq_flip_sub (f : Bool) (a b : S) :
    Same ((flip f a - flip f b) * (flip f a - flip f b)) ((a - b) * (a - b)) := by
  cases f
  · rfl
  · refine Same.trans (same_sq_of_num (num_neg_sub a b)) ?_
    exact same_flip_mul_flip true (a - b) (a - b)
theorem num_flip_congr (f : Bool) {a b : S} (h : num a = num b) : num (flip f a) = num (flip f b) := by
  cases f
  · exact h
  · exact num_neg_congr h
theorem num_extent_mirror (f : Bool) (lo hi : S) : num (flipHi f lo hi - flipLo f lo hi) = num (hi - lo) := by
  cases f
  · rfl
  · show num (-lo - -hi) = _
    have h : ∀ x y : S, Same (x - y) (x + -y) := fun x y => by
      unfold Same; rw [den_sub, den_add, den_neg]; rfl
    rw [(h _ _).num, (h hi lo).num, (same_add_comm _ _).num]
    refine num_add_congr (Same.num ?_) rfl
    unfold Same; rw [den_neg, den_neg, Val.neg_neg]
theorem le_flip_lo (f : Bool) (p lo hi : S) :
    (flipLo f lo hi ≤? flip f p && flip f p ≤? flipHi f lo hi) = (lo ≤? p && p ≤? hi) := by
  cases f
  · rfl
  · show (-hi ≤? -p && -p ≤? -lo) = _
    rw [le_neg_neg, le_neg_neg, Bool.and_comm]
theorem overlaps_flip (f : Bool) (lo hi lo' hi' : S) :
    (flipLo f lo' hi' ≤? flipHi f lo hi && flipLo f lo hi ≤? flipHi f lo' hi') = (lo' ≤? hi && lo ≤? hi') := by
  cases f
  · rfl
  · show (-hi' ≤? -lo && -hi ≤? -lo') = _
    rw [le_neg_neg, le_neg_neg, Bool.and_comm]
/-- one axis of a union -/
theorem num_union_lo (f : Bool) (a b a' b' : S) :
    num (fmin (fmin (flipLo f a b) (flipLo f a' b')) (fmax (flipHi f a b) (flipHi f a' b'))) =
      num (flipLo f (fmin (fmin a a') (fmax b b')) (fmax (fmin a a') (fmax b b'))) := by
  cases f
  · rfl
  · show num (fmin (fmin (-b) (-b')) (fmax (-a) (-a'))) = num (-fmax (fmin a a') (fmax b b'))
    rw [num_min_congr (num_neg_min b b') (num_neg_max a a'), num_neg_min]
    exact num_neg_congr (num_max_comm _ _)
theorem num_union_hi (f : Bool) (a b a' b' : S) :
    num (fmax (fmin (flipLo f a b) (flipLo f a' b')) (fmax (flipHi f a b) (flipHi f a' b'))) =
      num (flipHi f (fmin (fmin a a') (fmax b b')) (fmax (fmin a a') (fmax b b'))) := by
  cases f
  · rfl
  · show num (fmax (fmin (-b) (-b')) (fmax (-a) (-a'))) = num (-fmin (fmin a a') (fmax b b'))
    rw [num_max_congr (num_neg_min b b') (num_neg_max a a'), num_neg_max]
    exact num_neg_congr (num_min_comm _ _)
/-- one axis of an intersection -/
theorem num_inter_lo (f : Bool) (a b a' b' : S) :
    num (fmin (fmax (flipLo f a b) (flipLo f a' b')) (fmin (flipHi f a b) (flipHi f a' b'))) =
      num (flipLo f (fmin (fmax a a') (fmin b b')) (fmax (fmax a a') (fmin b b'))) := by
  cases f
  · rfl
  · show num (fmin (fmax (-b) (-b')) (fmin (-a) (-a'))) = num (-fmax (fmax a a') (fmin b b'))
    rw [num_min_congr (num_neg_max b b') (num_neg_min a a'), num_neg_min]
    exact num_neg_congr (num_max_comm _ _)
theorem num_inter_hi (f : Bool) (a b a' b' : S) :
    num (fmax (fmax (flipLo f a b) (flipLo f a' b')) (fmin (flipHi f a b) (flipHi f a' b'))) =
      num (flipHi f (fmin (fmax a a') (fmin b b')) (fmax (fmax a a') (fmin b b'))) := by
  cases f
  · rfl
  · show num (fmax (fmax (-b) (-b')) (fmin (-a) (-a'))) = num (-fmin (fmax a a') (fmin b b'))
    rw [num_max_congr (num_neg_max b b') (num_neg_min a a'), num_neg_max]
    exact num_neg_congr (num_min_comm _ _)
theorem num_grow_lo (f : Bool) (a b p : S) :
    num (fmin (fmin (flipLo f a b) (flip f p)) (fmax (flipHi f a b) (flip f p))) =
      num (flipLo f (fmin (fmin a p) (fmax b p)) (fmax (fmin a p) (fmax b p))) := by
  cases f
  · rfl
  · exact num_union_lo true a b p p
theorem num_grow_hi (f : Bool) (a b p : S) :
    num (fmax (fmin (flipLo f a b) (flip f p)) (fmax (flipHi f a b) (flip f p))) =
      num (flipHi f (fmin (fmin a p) (fmax b p)) (fmax (fmin a p) (fmax b p))) := by
  cases f
  · rfl
  · exact num_union_hi true a b p p
theorem same_flip_div (f : Bool) (a b : S) : Same (flip f a / b) (flip f (a / b)) := by
  cases f
  · rfl
  · show den (-a / b) = den (-(a / b))
    rw [den_div, den_neg, den_neg, den_div, Rounding.neg_div]

/-! ## 2D -/

theorem Vector2.agreeAll {a b : Vector2 S} : AgreeAll a b ↔ num a.x = num b.x ∧ num a.y = num b.y := by
  simp [AgreeAll, Comps.comps, agree_iff]
theorem BoundingBox2.agreeAll {a b : BoundingBox2 S} : AgreeAll a b ↔
    num a.min.x = num b.min.x ∧ num a.min.y = num b.min.y ∧ num a.max.x = num b.max.x ∧ num a.max.y = num b.max.y := by
  simp [AgreeAll, Comps.comps, agree_iff]

/-- **C73** A ray hits a mirrored box exactly when the mirrored ray hits the box, and at the same parameters. -/
theorem C73_mirror_hit2 (fx fy : Bool) (b : BoundingBox2 S) (r : Ray2 S) :
    SameHit (Api.intersect (b.mirror fx fy) (r.mirror fx fy)) (Api.intersect b r) := by
  apply sameHit_of2
  · unfold startVal2
    rw [loVal_congr (num_near_mirror fx b.min.x b.max.x r.origin.x r.direction.x).symm, loVal_congr (num_near_mirror fy b.min.y b.max.y r.origin.y r.direction.y).symm]; rfl
  · unfold stopVal2
    rw [hiVal_congr (num_far_mirror fx b.min.x b.max.x r.origin.x r.direction.x).symm, hiVal_congr (num_far_mirror fy b.min.y b.max.y r.origin.y r.direction.y).symm]; rfl
/-- **C73** Renaming the axes of box and ray does not change the parameters of the hit. -/
theorem C73_permute_hit2 (dx dy : Dimension2) (h : dx ≠ dy) (b : BoundingBox2 S) (r : Ray2 S) :
    SameHit (Api.intersect (⟨b.min.permute dx dy, b.max.permute dx dy⟩ : BoundingBox2 S)
      (⟨r.origin.permute dx dy, r.direction.permute dx dy⟩ : Ray2 S)) (Api.intersect b r) := by
  apply sameHit_of2
  · unfold startVal2
    cases dx <;> cases dy <;> simp only [ne_eq, not_true_eq_false, reduceCtorEq, not_false_eq_true] at h <;>
      simp only [Point2.permute, Vector2.permute, Point2.index, Vector2.index, Point2.new, Vector2.new] <;>
      ac_rfl
  · unfold stopVal2
    cases dx <;> cases dy <;> simp only [ne_eq, not_true_eq_false, reduceCtorEq, not_false_eq_true] at h <;>
      simp only [Point2.permute, Vector2.permute, Point2.index, Vector2.index, Point2.new, Vector2.new] <;>
      ac_rfl
/-- **C73** Membership. -/
theorem C73_mirror_inside2 (fx fy : Bool) (b : BoundingBox2 S) (p : Point2 S) :
    (b.mirror fx fy).isInside (p.mirror fx fy) = b.isInside p := by
  have e : ∀ (b : BoundingBox2 S) (p : Point2 S), b.isInside p =
      ((b.min.x ≤? p.x && p.x ≤? b.max.x) && (b.min.y ≤? p.y && p.y ≤? b.max.y)) := fun b p => by
    show (b.min.x ≤? p.x && p.x ≤? b.max.x && b.min.y ≤? p.y && p.y ≤? b.max.y) = _
    simp only [Bool.and_assoc]
  rw [e, e, ← le_flip_lo fx p.x b.min.x b.max.x, ← le_flip_lo fy p.y b.min.y b.max.y]; rfl
theorem C73_permute_inside2 (dx dy : Dimension2) (h : dx ≠ dy) (b : BoundingBox2 S) (p : Point2 S) :
    (⟨b.min.permute dx dy, b.max.permute dx dy⟩ : BoundingBox2 S).isInside (p.permute dx dy) = b.isInside p := by
  unfold BoundingBox2.isInside
  cases dx <;> cases dy <;> simp only [ne_eq, not_true_eq_false, reduceCtorEq, not_false_eq_true] at h <;>
    simp only [Point2.permute, Point2.index, Point2.new] <;> ac_rfl
/-- **C73** Overlap. -/
theorem C73_mirror_overlaps2 (fx fy : Bool) (a b : BoundingBox2 S) :
    (a.mirror fx fy).overlaps (b.mirror fx fy) = a.overlaps b := by
  have e : ∀ (a b : BoundingBox2 S), a.overlaps b =
      ((b.min.x ≤? a.max.x && a.min.x ≤? b.max.x) && (b.min.y ≤? a.max.y && a.min.y ≤? b.max.y)) := fun a b => by
    show (b.min.x ≤? a.max.x && a.min.x ≤? b.max.x && b.min.y ≤? a.max.y && a.min.y ≤? b.max.y) = _
    simp only [Bool.and_assoc]
  rw [e, e, ← overlaps_flip fx a.min.x a.max.x b.min.x b.max.x, ← overlaps_flip fy a.min.y a.max.y b.min.y b.max.y]; rfl
theorem C73_permute_overlaps2 (dx dy : Dimension2) (h : dx ≠ dy) (a b : BoundingBox2 S) :
    (⟨a.min.permute dx dy, a.max.permute dx dy⟩ : BoundingBox2 S).overlaps
      (⟨b.min.permute dx dy, b.max.permute dx dy⟩ : BoundingBox2 S) = a.overlaps b := by
  unfold BoundingBox2.overlaps
  cases dx <;> cases dy <;> simp only [ne_eq, not_true_eq_false, reduceCtorEq, not_false_eq_true] at h <;>
    simp only [Point2.permute, Point2.index, Point2.new] <;> ac_rfl
/-- **C73** Union with a box. -/
theorem C73_mirror_union2 (fx fy : Bool) (a b : BoundingBox2 S) :
    AgreeAll (Api.union (a.mirror fx fy) (b.mirror fx fy) : BoundingBox2 S) ((Api.union a b : BoundingBox2 S).mirror fx fy) :=
  BoundingBox2.agreeAll.2 ⟨num_union_lo fx _ _ _ _, num_union_lo fy _ _ _ _, num_union_hi fx _ _ _ _, num_union_hi fy _ _ _ _⟩
/-- **C73** Union with a point. -/
theorem C73_mirror_grow2 (fx fy : Bool) (b : BoundingBox2 S) (p : Point2 S) :
    AgreeAll (Api.union (b.mirror fx fy) (p.mirror fx fy) : BoundingBox2 S) ((Api.union b p : BoundingBox2 S).mirror fx fy) :=
  BoundingBox2.agreeAll.2 ⟨num_grow_lo fx _ _ _, num_grow_lo fy _ _ _, num_grow_hi fx _ _ _, num_grow_hi fy _ _ _⟩
/-- **C73** Intersection of boxes: both empty, or mirror images of each other. -/
theorem C73_mirror_intersect2 (fx fy : Bool) (a b : BoundingBox2 S) :
    match (Api.intersect (a.mirror fx fy) (b.mirror fx fy) : Option (BoundingBox2 S)),
      (Api.intersect a b : Option (BoundingBox2 S)) with
    | none, none => True
    | some c, some d => AgreeAll c (d.mirror fx fy)
    | _, _ => False := by
  have h := C73_mirror_overlaps2 fx fy a b
  have e : ∀ a b : BoundingBox2 S, (Api.intersect a b : Option (BoundingBox2 S)) =
      if a.overlaps b then some (BoundingBox2.new (Api.max a.min b.min) (Api.min a.max b.max)) else none := fun _ _ => rfl
  rw [e, e, h]
  cases a.overlaps b
  · trivial
  · exact BoundingBox2.agreeAll.2 ⟨num_inter_lo fx _ _ _ _, num_inter_lo fy _ _ _ _, num_inter_hi fx _ _ _ _, num_inter_hi fy _ _ _ _⟩
/-- **C73** Extents. -/
theorem C73_mirror_diagonal2 (fx fy : Bool) (b : BoundingBox2 S) : AgreeAll (b.mirror fx fy).diagonal b.diagonal :=
  Vector2.agreeAll.2 ⟨num_extent_mirror fx _ _, num_extent_mirror fy _ _⟩
/-- **C73** Inner products, lengths and distances do not notice mirroring, not even in the last bit. -/
theorem C73_mirror_dot2 (fx fy : Bool) (u v : Vector2 S) : Same (Api.dot (u.mirror fx fy) (v.mirror fx fy)) (Api.dot u v) :=
  same_add_congr' (same_flip_mul_flip _ _ _) (same_flip_mul_flip _ _ _)
theorem C73_mirror_length2 (fx fy : Bool) (v : Vector2 S) : Same (Api.length (v.mirror fx fy)) (Api.length v) :=
  same_sqrt_congr (C73_mirror_dot2 fx fy v v)
theorem C73_mirror_distance2 (fx fy : Bool) (p q : Point2 S) :
    Same (Api.distance (p.mirror fx fy) (q.mirror fx fy)) (Api.distance p q) :=
  same_sqrt_congr (same_add_congr' (same_sq_flip_sub _ _ _) (same_sq_flip_sub _ _ _))
theorem C73_mirror_normalize2 (fx fy : Bool) (v : Vector2 S) :
    SameAll (v.mirror fx fy).normalize (v.normalize.mirror fx fy) := by
  have h := C73_mirror_length2 fx fy v
  have e : ∀ (f : Bool) (a : S), Same (flip f a / Api.length (v.mirror fx fy)) (flip f (a / Api.length v)) := fun f a => by
    refine Same.trans ?_ (same_flip_div f a _)
    unfold Same at *; rw [den_div, den_div, h]
  exact Vector2.sameAll.2 ⟨e fx _, e fy _⟩
/-- **C73** Area. -/
theorem C73_mirror_area (fx fy : Bool) (b : BoundingBox2 S) : Agree (b.mirror fx fy).area b.area := by
  rw [agree_iff]; exact num_mul_congr (num_extent_mirror fx _ _) (num_extent_mirror fy _ _)
/-- **C73** In the plane, exchanging the axes changes no inner product, length, distance or area, not even in the last bit. -/
theorem C73_swap_measures2 (u v : Vector2 S) (p q : Point2 S) (b : BoundingBox2 S) :
    Same (Api.dot (u.permute .Y .X) (v.permute .Y .X)) (Api.dot u v) ∧
    Same (Api.length (u.permute .Y .X)) (Api.length u) ∧
    Same (Api.distance (p.permute .Y .X) (q.permute .Y .X)) (Api.distance p q) ∧
    Same (⟨b.min.permute .Y .X, b.max.permute .Y .X⟩ : BoundingBox2 S).area b.area :=
  ⟨same_add_comm _ _, same_sqrt_congr (same_add_comm _ _), same_sqrt_congr (same_add_comm _ _), same_mul_comm _ _⟩
/-- **C73** The dimension of least and of greatest extent. -/
theorem C73_mirror_dimension2 (fx fy : Bool) (b : BoundingBox2 S) :
    (b.mirror fx fy).minDimension = b.minDimension ∧ (b.mirror fx fy).maxDimension = b.maxDimension := by
  obtain ⟨h1, h2⟩ := Vector2.agreeAll.1 (C73_mirror_diagonal2 fx fy b)
  unfold BoundingBox2.minDimension BoundingBox2.maxDimension
  simp only [le_congr h1 h2, lt_congr h1 h2, lt_congr h2 h1, le_congr h2 h1, and_self]

/-! ## 3D -/

theorem Vector3.agreeAll {a b : Vector3 S} : AgreeAll a b ↔ num a.x = num b.x ∧ num a.y = num b.y ∧ num a.z = num b.z := by
  simp [AgreeAll, Comps.comps, agree_iff]
theorem BoundingBox3.agreeAll {a b : BoundingBox3 S} : AgreeAll a b ↔
    num a.min.x = num b.min.x ∧ num a.min.y = num b.min.y ∧ num a.min.z = num b.min.z ∧ num a.max.x = num b.max.x ∧ num a.max.y = num b.max.y ∧ num a.max.z = num b.max.z := by
  simp [AgreeAll, Comps.comps, agree_iff]

/-- **C73** A ray hits a mirrored box exactly when the mirrored ray hits the box, and at the same parameters. -/
theorem C73_mirror_hit3 (fx fy fz : Bool) (b : BoundingBox3 S) (r : Ray3 S) :
    SameHit (Api.intersect (b.mirror fx fy fz) (r.mirror fx fy fz)) (Api.intersect b r) := by
  apply sameHit_of3
  · unfold startVal3
    rw [loVal_congr (num_near_mirror fx b.min.x b.max.x r.origin.x r.direction.x).symm, loVal_congr (num_near_mirror fy b.min.y b.max.y r.origin.y r.direction.y).symm, loVal_congr (num_near_mirror fz b.min.z b.max.z r.origin.z r.direction.z).symm]; rfl
  · unfold stopVal3
    rw [hiVal_congr (num_far_mirror fx b.min.x b.max.x r.origin.x r.direction.x).symm, hiVal_congr (num_far_mirror fy b.min.y b.max.y r.origin.y r.direction.y).symm, hiVal_congr (num_far_mirror fz b.min.z b.max.z r.origin.z r.direction.z).symm]; rfl
/-- **C73** Renaming the axes of box and ray does not change the parameters of the hit. -/
theorem C73_permute_hit3 (dx dy dz : Dimension3) (h : dx ≠ dy) (h' : dx ≠ dz) (h'' : dy ≠ dz) (b : BoundingBox3 S) (r : Ray3 S) :
    SameHit (Api.intersect (⟨b.min.permute dx dy dz, b.max.permute dx dy dz⟩ : BoundingBox3 S)
      (⟨r.origin.permute dx dy dz, r.direction.permute dx dy dz⟩ : Ray3 S)) (Api.intersect b r) := by
  apply sameHit_of3
  · unfold startVal3
    cases dx <;> cases dy <;> cases dz <;> simp only [ne_eq, not_true_eq_false, reduceCtorEq, not_false_eq_true] at h h' h'' <;>
      simp only [Point3.permute, Vector3.permute, Point3.index, Vector3.index, Point3.new, Vector3.new] <;>
      ac_rfl
  · unfold stopVal3
    cases dx <;> cases dy <;> cases dz <;> simp only [ne_eq, not_true_eq_false, reduceCtorEq, not_false_eq_true] at h h' h'' <;>
      simp only [Point3.permute, Vector3.permute, Point3.index, Vector3.index, Point3.new, Vector3.new] <;>
      ac_rfl
/-- **C73** Membership. -/
theorem C73_mirror_inside3 (fx fy fz : Bool) (b : BoundingBox3 S) (p : Point3 S) :
    (b.mirror fx fy fz).isInside (p.mirror fx fy fz) = b.isInside p := by
  have e : ∀ (b : BoundingBox3 S) (p : Point3 S), b.isInside p =
      ((b.min.x ≤? p.x && p.x ≤? b.max.x) && (b.min.y ≤? p.y && p.y ≤? b.max.y) && (b.min.z ≤? p.z && p.z ≤? b.max.z)) := fun b p => by
    show (b.min.x ≤? p.x && p.x ≤? b.max.x && b.min.y ≤? p.y && p.y ≤? b.max.y && b.min.z ≤? p.z && p.z ≤? b.max.z) = _
    simp only [Bool.and_assoc]
  rw [e, e, ← le_flip_lo fx p.x b.min.x b.max.x, ← le_flip_lo fy p.y b.min.y b.max.y, ← le_flip_lo fz p.z b.min.z b.max.z]; rfl
theorem C73_permute_inside3 (dx dy dz : Dimension3) (h : dx ≠ dy) (h' : dx ≠ dz) (h'' : dy ≠ dz) (b : BoundingBox3 S) (p : Point3 S) :
    (⟨b.min.permute dx dy dz, b.max.permute dx dy dz⟩ : BoundingBox3 S).isInside (p.permute dx dy dz) = b.isInside p := by
  unfold BoundingBox3.isInside
  cases dx <;> cases dy <;> cases dz <;> simp only [ne_eq, not_true_eq_false, reduceCtorEq, not_false_eq_true] at h h' h'' <;>
    simp only [Point3.permute, Point3.index, Point3.new] <;> ac_rfl
/-- **C73** Overlap. -/
theorem C73_mirror_overlaps3 (fx fy fz : Bool) (a b : BoundingBox3 S) :
    (a.mirror fx fy fz).overlaps (b.mirror fx fy fz) = a.overlaps b := by
  have e : ∀ (a b : BoundingBox3 S), a.overlaps b =
      ((b.min.x ≤? a.max.x && a.min.x ≤? b.max.x) && (b.min.y ≤? a.max.y && a.min.y ≤? b.max.y) && (b.min.z ≤? a.max.z && a.min.z ≤? b.max.z)) := fun a b => by
    show (b.min.x ≤? a.max.x && a.min.x ≤? b.max.x && b.min.y ≤? a.max.y && a.min.y ≤? b.max.y && b.min.z ≤? a.max.z && a.min.z ≤? b.max.z) = _
    simp only [Bool.and_assoc]
  rw [e, e, ← overlaps_flip fx a.min.x a.max.x b.min.x b.max.x, ← overlaps_flip fy a.min.y a.max.y b.min.y b.max.y, ← overlaps_flip fz a.min.z a.max.z b.min.z b.max.z]; rfl
theorem C73_permute_overlaps3 (dx dy dz : Dimension3) (h : dx ≠ dy) (h' : dx ≠ dz) (h'' : dy ≠ dz) (a b : BoundingBox3 S) :
    (⟨a.min.permute dx dy dz, a.max.permute dx dy dz⟩ : BoundingBox3 S).overlaps
      (⟨b.min.permute dx dy dz, b.max.permute dx dy dz⟩ : BoundingBox3 S) = a.overlaps b := by
  unfold BoundingBox3.overlaps
  cases dx <;> cases dy <;> cases dz <;> simp only [ne_eq, not_true_eq_false, reduceCtorEq, not_false_eq_true] at h h' h'' <;>
    simp only [Point3.permute, Point3.index, Point3.new] <;> ac_rfl
/-- **C73** Union with a box. -/
theorem C73_mirror_union3 (fx fy fz : Bool) (a b : BoundingBox3 S) :
    AgreeAll (Api.union (a.mirror fx fy fz) (b.mirror fx fy fz) : BoundingBox3 S) ((Api.union a b : BoundingBox3 S).mirror fx fy fz) :=
  BoundingBox3.agreeAll.2 ⟨num_union_lo fx _ _ _ _, num_union_lo fy _ _ _ _, num_union_lo fz _ _ _ _, num_union_hi fx _ _ _ _, num_union_hi fy _ _ _ _, num_union_hi fz _ _ _ _⟩
/-- **C73** Union with a point. -/
theorem C73_mirror_grow3 (fx fy fz : Bool) (b : BoundingBox3 S) (p : Point3 S) :
    AgreeAll (Api.union (b.mirror fx fy fz) (p.mirror fx fy fz) : BoundingBox3 S) ((Api.union b p : BoundingBox3 S).mirror fx fy fz) :=
  BoundingBox3.agreeAll.2 ⟨num_grow_lo fx _ _ _, num_grow_lo fy _ _ _, num_grow_lo fz _ _ _, num_grow_hi fx _ _ _, num_grow_hi fy _ _ _, num_grow_hi fz _ _ _⟩
/-- **C73** Intersection of boxes: both empty, or mirror images of each other. -/
theorem C73_mirror_intersect3 (fx fy fz : Bool) (a b : BoundingBox3 S) :
    match (Api.intersect (a.mirror fx fy fz) (b.mirror fx fy fz) : Option (BoundingBox3 S)),
      (Api.intersect a b : Option (BoundingBox3 S)) with
    | none, none => True
    | some c, some d => AgreeAll c (d.mirror fx fy fz)
    | _, _ => False := by
  have h := C73_mirror_overlaps3 fx fy fz a b
  have e : ∀ a b : BoundingBox3 S, (Api.intersect a b : Option (BoundingBox3 S)) =
      if a.overlaps b then some (BoundingBox3.new (Api.max a.min b.min) (Api.min a.max b.max)) else none := fun _ _ => rfl
  rw [e, e, h]
  cases a.overlaps b
  · trivial
  · exact BoundingBox3.agreeAll.2 ⟨num_inter_lo fx _ _ _ _, num_inter_lo fy _ _ _ _, num_inter_lo fz _ _ _ _, num_inter_hi fx _ _ _ _, num_inter_hi fy _ _ _ _, num_inter_hi fz _ _ _ _⟩
/-- **C73** Extents. -/
theorem C73_mirror_diagonal3 (fx fy fz : Bool) (b : BoundingBox3 S) : AgreeAll (b.mirror fx fy fz).diagonal b.diagonal :=
  Vector3.agreeAll.2 ⟨num_extent_mirror fx _ _, num_extent_mirror fy _ _, num_extent_mirror fz _ _⟩
/-- **C73** Inner products, lengths and distances do not notice mirroring, not even in the last bit. -/
theorem C73_mirror_dot3 (fx fy fz : Bool) (u v : Vector3 S) : Same (Api.dot (u.mirror fx fy fz) (v.mirror fx fy fz)) (Api.dot u v) :=
  same_add_congr' (same_add_congr' (same_flip_mul_flip _ _ _) (same_flip_mul_flip _ _ _)) (same_flip_mul_flip _ _ _)
theorem C73_mirror_length3 (fx fy fz : Bool) (v : Vector3 S) : Same (Api.length (v.mirror fx fy fz)) (Api.length v) :=
  same_sqrt_congr (C73_mirror_dot3 fx fy fz v v)
theorem C73_mirror_distance3 (fx fy fz : Bool) (p q : Point3 S) :
    Same (Api.distance (p.mirror fx fy fz) (q.mirror fx fy fz)) (Api.distance p q) :=
  same_sqrt_congr (same_add_congr' (same_add_congr' (same_sq_flip_sub _ _ _) (same_sq_flip_sub _ _ _)) (same_sq_flip_sub _ _ _))
theorem C73_mirror_normalize3 (fx fy fz : Bool) (v : Vector3 S) :
    SameAll (v.mirror fx fy fz).normalize (v.normalize.mirror fx fy fz) := by
  have h := C73_mirror_length3 fx fy fz v
  have e : ∀ (f : Bool) (a : S), Same (flip f a / Api.length (v.mirror fx fy fz)) (flip f (a / Api.length v)) := fun f a => by
    refine Same.trans ?_ (same_flip_div f a _)
    unfold Same at *; rw [den_div, den_div, h]
  exact Vector3.sameAll.2 ⟨e fx _, e fy _, e fz _⟩
/-- **C73** Volume and surface area. -/
theorem C73_mirror_volume (fx fy fz : Bool) (b : BoundingBox3 S) : Agree (b.mirror fx fy fz).volume b.volume ∧
    Agree (b.mirror fx fy fz).surfaceArea b.surfaceArea := by
  obtain ⟨h1, h2, h3⟩ := Vector3.agreeAll.1 (C73_mirror_diagonal3 fx fy fz b)
  rw [agree_iff, agree_iff]
  exact ⟨num_mul_congr (num_mul_congr h1 h2) h3,
    num_mul_congr rfl (num_add_congr (num_add_congr (num_mul_congr h1 h2) (num_mul_congr h1 h3)) (num_mul_congr h2 h3))⟩
/-- **C73** The cross product is an axial vector: a mirrored pair has the mirrored cross product, reversed when an odd
number of axes is flipped. -/
theorem C73_mirror_cross (fx fy fz : Bool) (u v : Vector3 S) :
    AgreeAll (Api.cross (u.mirror fx fy fz) (v.mirror fx fy fz))
      ((Api.cross u v : Vector3 S).mirror (fy ^^ fz) (fx ^^ fz) (fx ^^ fy)) := by
  have key : ∀ (f g : Bool) (a b c d : S),
      num (flip f a * flip g b - flip g c * flip f d) = num (flip (f ^^ g) (a * b - c * d)) := by
    have e : ∀ (f g : Bool) (a b : S), Same (flip f a * flip g b) (flip (f ^^ g) (a * b)) := by
      intro f g a b
      unfold Same
      cases f <;> cases g <;> simp [flip, den_mul, den_neg, Rounding.neg_mul, Rounding.mul_neg]
    intro f g a b c d
    rw [num_sub_congr (e f g a b).num (e g f c d).num, Bool.xor_comm g f]
    cases (f ^^ g)
    · rfl
    · exact num_neg_sub _ _
  refine Vector3.agreeAll.2 ⟨key fy fz _ _ _ _, ?_, key fx fy _ _ _ _⟩
  have := key fz fx u.z v.x u.x v.z
  rwa [Bool.xor_comm fz fx] at this
/-- **C73** In space, exchanging x and y changes no inner product, length, distance or volume in the last bit. (Other
exchanges regroup the rounded sums.) -/
theorem C73_swap_measures3 (u v : Vector3 S) (p q : Point3 S) (b : BoundingBox3 S) :
    Same (Api.dot (u.permute .Y .X .Z) (v.permute .Y .X .Z)) (Api.dot u v) ∧
    Same (Api.length (u.permute .Y .X .Z)) (Api.length u) ∧
    Same (Api.distance (p.permute .Y .X .Z) (q.permute .Y .X .Z)) (Api.distance p q) ∧
    Same (⟨b.min.permute .Y .X .Z, b.max.permute .Y .X .Z⟩ : BoundingBox3 S).volume b.volume := by
  have k : ∀ {a b : S} (c : S), Same a b → Same (a * c) (b * c) := fun c h => by
    unfold Same at *; rw [den_mul, den_mul, h]
  exact ⟨same_add_congr' (same_add_comm _ _) (Same.refl _), same_sqrt_congr (same_add_congr' (same_add_comm _ _) (Same.refl _)),
    same_sqrt_congr (same_add_congr' (same_add_comm _ _) (Same.refl _)), k _ (same_mul_comm _ _)⟩
/-- **C73** The dimension of least and of greatest extent. -/
theorem C73_mirror_dimension3 (fx fy fz : Bool) (b : BoundingBox3 S) :
    (b.mirror fx fy fz).minDimension = b.minDimension ∧ (b.mirror fx fy fz).maxDimension = b.maxDimension := by
  obtain ⟨h1, h2, h3⟩ := Vector3.agreeAll.1 (C73_mirror_diagonal3 fx fy fz b)
  unfold BoundingBox3.minDimension BoundingBox3.maxDimension
  simp only [le_congr h1 h2, lt_congr h2 h1, le_congr h1 h3, lt_congr h3 h1, le_congr h2 h3, lt_congr h3 h2, and_self]

end VecMath

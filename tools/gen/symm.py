H='''import Verif.Lemmas.Symm
import Verif.Lemmas.Proj
/-!
# Layer F: reflections and permutations of the axes are exact symmetries (C73)

(Generated by tools/gen/symm.py.)
-/

open Classical

namespace VecMath
open Scalar IEEE

variable {S : Type} [Scalar S] [IEEE S]

theorem same_flip_mul_flip (f : Bool) (a b : S) : Same (flip f a * flip f b) (a * b) := by
  cases f
  · rfl
  · show den (-a * -b) = _
    rw [den_mul, den_neg, den_neg, Rounding.neg_mul, Rounding.mul_neg, Val.neg_neg, den_mul]
theorem same_add_congr' {a b c d : S} (h : Same a b) (h' : Same c d) : Same (a + c) (b + d) := by
  unfold Same at *; rw [den_add, den_add, h, h']
theorem same_sqrt_congr {a b : S} (h : Same a b) : Same (Scalar.sqrt a) (Scalar.sqrt b) := by
  unfold Same at *; rw [den_sqrt, den_sqrt, h]
/-- Squares forget signs of numbers and of zeros. -/
theorem same_sq_of_num {a b : S} (h : num a = num b) : Same (a * a) (b * b) := by
  have key : ∀ v : Val, (IEEE.A S).mul v v = (IEEE.A S).mul v.canon v.canon := by
    intro v; rcases v with _ | s | _ | x <;> simp [Rounding.mul]
  unfold Same; rw [den_mul, den_mul, key, key (den b)]; unfold num at h; rw [h]
theorem same_sq_flip_sub (f : Bool) (a b : S) :
    Same ((flip f a - flip f b) * (flip f a - flip f b)) ((a - b) * (a - b)) := by
  cases f
  · rfl
  · refine Same.trans (same_sq_of_num (num_neg_sub a b)) ?_
    exact same_flip_mul_flip true (a - b) (a - b)
theorem num_flip_congr (f : Bool) {a b : S} (h : num a = num b) : num (flip f a) = num (flip f b) := by
  cases f
  · exact h
  · exact num_neg_congr h
theorem num_extent_mirror (f : Bool) (lo hi : S) : num (flipHi f lo hi - flipLo f lo hi) = num (hi - lo) := by
  cases f
  · rfl
  · show num (-lo - -hi) = _
    have h : ∀ x y : S, Same (x - y) (x + -y) := fun x y => by
      unfold Same; rw [den_sub, den_add, den_neg]; rfl
    rw [(h _ _).num, (h hi lo).num, (same_add_comm _ _).num]
    refine num_add_congr (Same.num ?_) rfl
    unfold Same; rw [den_neg, den_neg, Val.neg_neg]
theorem le_flip_lo (f : Bool) (p lo hi : S) :
    (flipLo f lo hi ≤? flip f p && flip f p ≤? flipHi f lo hi) = (lo ≤? p && p ≤? hi) := by
  cases f
  · rfl
  · show (-hi ≤? -p && -p ≤? -lo) = _
    rw [le_neg_neg, le_neg_neg, Bool.and_comm]
theorem overlaps_flip (f : Bool) (lo hi lo' hi' : S) :
    (flipLo f lo' hi' ≤? flipHi f lo hi && flipLo f lo hi ≤? flipHi f lo' hi') = (lo' ≤? hi && lo ≤? hi') := by
  cases f
  · rfl
  · show (-hi' ≤? -lo && -hi ≤? -lo') = _
    rw [le_neg_neg, le_neg_neg, Bool.and_comm]
/-- one axis of a union -/
theorem num_union_lo (f : Bool) (a b a' b' : S) :
    num (fmin (fmin (flipLo f a b) (flipLo f a' b')) (fmax (flipHi f a b) (flipHi f a' b'))) =
      num (flipLo f (fmin (fmin a a') (fmax b b')) (fmax (fmin a a') (fmax b b'))) := by
  cases f
  · rfl
  · show num (fmin (fmin (-b) (-b')) (fmax (-a) (-a'))) = num (-fmax (fmin a a') (fmax b b'))
    rw [num_min_congr (num_neg_min b b') (num_neg_max a a'), num_neg_min]
    exact num_neg_congr (num_max_comm _ _)
theorem num_union_hi (f : Bool) (a b a' b' : S) :
    num (fmax (fmin (flipLo f a b) (flipLo f a' b')) (fmax (flipHi f a b) (flipHi f a' b'))) =
      num (flipHi f (fmin (fmin a a') (fmax b b')) (fmax (fmin a a') (fmax b b'))) := by
  cases f
  · rfl
  · show num (fmax (fmin (-b) (-b')) (fmax (-a) (-a'))) = num (-fmin (fmin a a') (fmax b b'))
    rw [num_max_congr (num_neg_min b b') (num_neg_max a a'), num_neg_max]
    exact num_neg_congr (num_min_comm _ _)
/-- one axis of an intersection -/
theorem num_inter_lo (f : Bool) (a b a' b' : S) :
    num (fmin (fmax (flipLo f a b) (flipLo f a' b')) (fmin (flipHi f a b) (flipHi f a' b'))) =
      num (flipLo f (fmin (fmax a a') (fmin b b')) (fmax (fmax a a') (fmin b b'))) := by
  cases f
  · rfl
  · show num (fmin (fmax (-b) (-b')) (fmin (-a) (-a'))) = num (-fmax (fmax a a') (fmin b b'))
    rw [num_min_congr (num_neg_max b b') (num_neg_min a a'), num_neg_min]
    exact num_neg_congr (num_max_comm _ _)
theorem num_inter_hi (f : Bool) (a b a' b' : S) :
    num (fmax (fmax (flipLo f a b) (flipLo f a' b')) (fmin (flipHi f a b) (flipHi f a' b'))) =
      num (flipHi f (fmin (fmax a a') (fmin b b')) (fmax (fmax a a') (fmin b b'))) := by
  cases f
  · rfl
  · show num (fmax (fmax (-b) (-b')) (fmin (-a) (-a'))) = num (-fmin (fmax a a') (fmin b b'))
    rw [num_max_congr (num_neg_max b b') (num_neg_min a a'), num_neg_max]
    exact num_neg_congr (num_min_comm _ _)
theorem num_grow_lo (f : Bool) (a b p : S) :
    num (fmin (fmin (flipLo f a b) (flip f p)) (fmax (flipHi f a b) (flip f p))) =
      num (flipLo f (fmin (fmin a p) (fmax b p)) (fmax (fmin a p) (fmax b p))) := by
  cases f
  · rfl
  · exact num_union_lo true a b p p
theorem num_grow_hi (f : Bool) (a b p : S) :
    num (fmax (fmin (flipLo f a b) (flip f p)) (fmax (flipHi f a b) (flip f p))) =
      num (flipHi f (fmin (fmin a p) (fmax b p)) (fmax (fmin a p) (fmax b p))) := by
  cases f
  · rfl
  · exact num_union_hi true a b p p
theorem same_flip_div (f : Bool) (a b : S) : Same (flip f a / b) (flip f (a / b)) := by
  cases f
  · rfl
  · show den (-a / b) = den (-(a / b))
    rw [den_div, den_neg, den_neg, den_div, Rounding.neg_div]

'''
def gen(D):
    ax='xyz'[:D]; F=' '.join('f'+a for a in ax)
    N=len(ax)
    dims=['X','Y','Z'][:D]
    A=lambda fmt,sep=', ': sep.join(fmt.replace('@',a) for a in ax)
    perm_args=' '.join('d'+a for a in ax)
    hyp='(h : dx ≠ dy)' if D==2 else '(h : dx ≠ dy) (h\' : dx ≠ dz) (h\'\' : dy ≠ dz)'
    cases='cases dx <;> cases dy' if D==2 else 'cases dx <;> cases dy <;> cases dz'
    hh='h' if D==2 else "h h' h''"
    out=f'''/-! ## {D}D -/

theorem Vector{D}.agreeAll {{a b : Vector{D} S}} : AgreeAll a b ↔ {A("num a.@ = num b.@"," ∧ ")} := by
  simp [AgreeAll, Comps.comps, agree_iff]
theorem BoundingBox{D}.agreeAll {{a b : BoundingBox{D} S}} : AgreeAll a b ↔
    {A("num a.min.@ = num b.min.@"," ∧ ")} ∧ {A("num a.max.@ = num b.max.@"," ∧ ")} := by
  simp [AgreeAll, Comps.comps, agree_iff]

/-- **C73** A ray hits a mirrored box exactly when the mirrored ray hits the box, and at the same parameters. -/
theorem C73_mirror_hit{D} ({F} : Bool) (b : BoundingBox{D} S) (r : Ray{D} S) :
    SameHit (Api.intersect (b.mirror {F}) (r.mirror {F})) (Api.intersect b r) := by
  apply sameHit_of{D}
  · unfold startVal{D}
    rw [{A("loVal_congr (num_near_mirror f@ b.min.@ b.max.@ r.origin.@ r.direction.@).symm")}]; rfl
  · unfold stopVal{D}
    rw [{A("hiVal_congr (num_far_mirror f@ b.min.@ b.max.@ r.origin.@ r.direction.@).symm")}]; rfl
/-- **C73** Renaming the axes of box and ray does not change the parameters of the hit. -/
theorem C73_permute_hit{D} ({perm_args} : Dimension{D}) {hyp} (b : BoundingBox{D} S) (r : Ray{D} S) :
    SameHit (Api.intersect (⟨b.min.permute {perm_args}, b.max.permute {perm_args}⟩ : BoundingBox{D} S)
      (⟨r.origin.permute {perm_args}, r.direction.permute {perm_args}⟩ : Ray{D} S)) (Api.intersect b r) := by
  apply sameHit_of{D}
  · unfold startVal{D}
    {cases} <;> simp only [ne_eq, not_true_eq_false, reduceCtorEq, not_false_eq_true] at {hh} <;>
      simp only [Point{D}.permute, Vector{D}.permute, Point{D}.index, Vector{D}.index, Point{D}.new, Vector{D}.new] <;>
      ac_rfl
  · unfold stopVal{D}
    {cases} <;> simp only [ne_eq, not_true_eq_false, reduceCtorEq, not_false_eq_true] at {hh} <;>
      simp only [Point{D}.permute, Vector{D}.permute, Point{D}.index, Vector{D}.index, Point{D}.new, Vector{D}.new] <;>
      ac_rfl
/-- **C73** Membership. -/
theorem C73_mirror_inside{D} ({F} : Bool) (b : BoundingBox{D} S) (p : Point{D} S) :
    (b.mirror {F}).isInside (p.mirror {F}) = b.isInside p := by
  have e : ∀ (b : BoundingBox{D} S) (p : Point{D} S), b.isInside p =
      ({A("(b.min.@ ≤? p.@ && p.@ ≤? b.max.@)"," && ")}) := fun b p => by
    show ({A("b.min.@ ≤? p.@ && p.@ ≤? b.max.@"," && ")}) = _
    simp only [Bool.and_assoc]
  rw [e, e, {A("← le_flip_lo f@ p.@ b.min.@ b.max.@")}]; rfl
theorem C73_permute_inside{D} ({perm_args} : Dimension{D}) {hyp} (b : BoundingBox{D} S) (p : Point{D} S) :
    (⟨b.min.permute {perm_args}, b.max.permute {perm_args}⟩ : BoundingBox{D} S).isInside (p.permute {perm_args}) = b.isInside p := by
  unfold BoundingBox{D}.isInside
  {cases} <;> simp only [ne_eq, not_true_eq_false, reduceCtorEq, not_false_eq_true] at {hh} <;>
    simp only [Point{D}.permute, Point{D}.index, Point{D}.new] <;> ac_rfl
/-- **C73** Overlap. -/
theorem C73_mirror_overlaps{D} ({F} : Bool) (a b : BoundingBox{D} S) :
    (a.mirror {F}).overlaps (b.mirror {F}) = a.overlaps b := by
  have e : ∀ (a b : BoundingBox{D} S), a.overlaps b =
      ({A("(b.min.@ ≤? a.max.@ && a.min.@ ≤? b.max.@)"," && ")}) := fun a b => by
    show ({A("b.min.@ ≤? a.max.@ && a.min.@ ≤? b.max.@"," && ")}) = _
    simp only [Bool.and_assoc]
  rw [e, e, {A("← overlaps_flip f@ a.min.@ a.max.@ b.min.@ b.max.@")}]; rfl
theorem C73_permute_overlaps{D} ({perm_args} : Dimension{D}) {hyp} (a b : BoundingBox{D} S) :
    (⟨a.min.permute {perm_args}, a.max.permute {perm_args}⟩ : BoundingBox{D} S).overlaps
      (⟨b.min.permute {perm_args}, b.max.permute {perm_args}⟩ : BoundingBox{D} S) = a.overlaps b := by
  unfold BoundingBox{D}.overlaps
  {cases} <;> simp only [ne_eq, not_true_eq_false, reduceCtorEq, not_false_eq_true] at {hh} <;>
    simp only [Point{D}.permute, Point{D}.index, Point{D}.new] <;> ac_rfl
/-- **C73** Union with a box. -/
theorem C73_mirror_union{D} ({F} : Bool) (a b : BoundingBox{D} S) :
    AgreeAll (Api.union (a.mirror {F}) (b.mirror {F}) : BoundingBox{D} S) ((Api.union a b : BoundingBox{D} S).mirror {F}) :=
  BoundingBox{D}.agreeAll.2 ⟨{A("num_union_lo f@ _ _ _ _")}, {A("num_union_hi f@ _ _ _ _")}⟩
/-- **C73** Union with a point. -/
theorem C73_mirror_grow{D} ({F} : Bool) (b : BoundingBox{D} S) (p : Point{D} S) :
    AgreeAll (Api.union (b.mirror {F}) (p.mirror {F}) : BoundingBox{D} S) ((Api.union b p : BoundingBox{D} S).mirror {F}) :=
  BoundingBox{D}.agreeAll.2 ⟨{A("num_grow_lo f@ _ _ _")}, {A("num_grow_hi f@ _ _ _")}⟩
/-- **C73** Intersection of boxes: both empty, or mirror images of each other. -/
theorem C73_mirror_intersect{D} ({F} : Bool) (a b : BoundingBox{D} S) :
    match (Api.intersect (a.mirror {F}) (b.mirror {F}) : Option (BoundingBox{D} S)),
      (Api.intersect a b : Option (BoundingBox{D} S)) with
    | none, none => True
    | some c, some d => AgreeAll c (d.mirror {F})
    | _, _ => False := by
  have h := C73_mirror_overlaps{D} {F} a b
  have e : ∀ a b : BoundingBox{D} S, (Api.intersect a b : Option (BoundingBox{D} S)) =
      if a.overlaps b then some (BoundingBox{D}.new (Api.max a.min b.min) (Api.min a.max b.max)) else none := fun _ _ => rfl
  rw [e, e, h]
  cases a.overlaps b
  · trivial
  · exact BoundingBox{D}.agreeAll.2 ⟨{A("num_inter_lo f@ _ _ _ _")}, {A("num_inter_hi f@ _ _ _ _")}⟩
/-- **C73** Extents. -/
theorem C73_mirror_diagonal{D} ({F} : Bool) (b : BoundingBox{D} S) : AgreeAll (b.mirror {F}).diagonal b.diagonal :=
  Vector{D}.agreeAll.2 ⟨{A("num_extent_mirror f@ _ _")}⟩
/-- **C73** Inner products, lengths and distances do not notice mirroring, not even in the last bit. -/
theorem C73_mirror_dot{D} ({F} : Bool) (u v : Vector{D} S) : Same (Api.dot (u.mirror {F}) (v.mirror {F})) (Api.dot u v) :=
  {"same_add_congr' (same_flip_mul_flip _ _ _) (same_flip_mul_flip _ _ _)" if D==2 else "same_add_congr' (same_add_congr' (same_flip_mul_flip _ _ _) (same_flip_mul_flip _ _ _)) (same_flip_mul_flip _ _ _)"}
theorem C73_mirror_length{D} ({F} : Bool) (v : Vector{D} S) : Same (Api.length (v.mirror {F})) (Api.length v) :=
  same_sqrt_congr (C73_mirror_dot{D} {F} v v)
theorem C73_mirror_distance{D} ({F} : Bool) (p q : Point{D} S) :
    Same (Api.distance (p.mirror {F}) (q.mirror {F})) (Api.distance p q) :=
  same_sqrt_congr ({"same_add_congr' (same_sq_flip_sub _ _ _) (same_sq_flip_sub _ _ _)" if D==2 else "same_add_congr' (same_add_congr' (same_sq_flip_sub _ _ _) (same_sq_flip_sub _ _ _)) (same_sq_flip_sub _ _ _)"})
theorem C73_mirror_normalize{D} ({F} : Bool) (v : Vector{D} S) :
    SameAll (v.mirror {F}).normalize (v.normalize.mirror {F}) := by
  have h := C73_mirror_length{D} {F} v
  have e : ∀ (f : Bool) (a : S), Same (flip f a / Api.length (v.mirror {F})) (flip f (a / Api.length v)) := fun f a => by
    refine Same.trans ?_ (same_flip_div f a _)
    unfold Same at *; rw [den_div, den_div, h]
  exact Vector{D}.sameAll.2 ⟨{A("e f@ _")}⟩
'''
    if D==2:
        out+='''/-- **C73** Area. -/
theorem C73_mirror_area (fx fy : Bool) (b : BoundingBox2 S) : Agree (b.mirror fx fy).area b.area := by
  rw [agree_iff]; exact num_mul_congr (num_extent_mirror fx _ _) (num_extent_mirror fy _ _)
/-- **C73** In the plane, exchanging the axes changes no inner product, length, distance or area, not even in the last bit. -/
theorem C73_swap_measures2 (u v : Vector2 S) (p q : Point2 S) (b : BoundingBox2 S) :
    Same (Api.dot (u.permute .Y .X) (v.permute .Y .X)) (Api.dot u v) ∧
    Same (Api.length (u.permute .Y .X)) (Api.length u) ∧
    Same (Api.distance (p.permute .Y .X) (q.permute .Y .X)) (Api.distance p q) ∧
    Same (⟨b.min.permute .Y .X, b.max.permute .Y .X⟩ : BoundingBox2 S).area b.area :=
  ⟨same_add_comm _ _, same_sqrt_congr (same_add_comm _ _), same_sqrt_congr (same_add_comm _ _), same_mul_comm _ _⟩
/-- **C73** The dimension of least and of greatest extent. -/
theorem C73_mirror_dimension2 (fx fy : Bool) (b : BoundingBox2 S) :
    (b.mirror fx fy).minDimension = b.minDimension ∧ (b.mirror fx fy).maxDimension = b.maxDimension := by
  obtain ⟨h1, h2⟩ := Vector2.agreeAll.1 (C73_mirror_diagonal2 fx fy b)
  unfold BoundingBox2.minDimension BoundingBox2.maxDimension
  simp only [le_congr h1 h2, lt_congr h1 h2, lt_congr h2 h1, le_congr h2 h1, and_self]

'''
    else:
        out+='''/-- **C73** Volume and surface area. -/
theorem C73_mirror_volume (fx fy fz : Bool) (b : BoundingBox3 S) : Agree (b.mirror fx fy fz).volume b.volume ∧
    Agree (b.mirror fx fy fz).surfaceArea b.surfaceArea := by
  obtain ⟨h1, h2, h3⟩ := Vector3.agreeAll.1 (C73_mirror_diagonal3 fx fy fz b)
  rw [agree_iff, agree_iff]
  exact ⟨num_mul_congr (num_mul_congr h1 h2) h3,
    num_mul_congr rfl (num_add_congr (num_add_congr (num_mul_congr h1 h2) (num_mul_congr h1 h3)) (num_mul_congr h2 h3))⟩
/-- **C73** The cross product is an axial vector: a mirrored pair has the mirrored cross product, reversed when an odd
number of axes is flipped. -/
theorem C73_mirror_cross (fx fy fz : Bool) (u v : Vector3 S) :
    AgreeAll (Api.cross (u.mirror fx fy fz) (v.mirror fx fy fz))
      ((Api.cross u v : Vector3 S).mirror (fy ^^ fz) (fx ^^ fz) (fx ^^ fy)) := by
  have key : ∀ (f g : Bool) (a b c d : S),
      num (flip f a * flip g b - flip g c * flip f d) = num (flip (f ^^ g) (a * b - c * d)) := by
    have e : ∀ (f g : Bool) (a b : S), Same (flip f a * flip g b) (flip (f ^^ g) (a * b)) := by
      intro f g a b
      unfold Same
      cases f <;> cases g <;> simp [flip, den_mul, den_neg, Rounding.neg_mul, Rounding.mul_neg]
    intro f g a b c d
    rw [num_sub_congr (e f g a b).num (e g f c d).num, Bool.xor_comm g f]
    cases (f ^^ g)
    · rfl
    · exact num_neg_sub _ _
  refine Vector3.agreeAll.2 ⟨key fy fz _ _ _ _, ?_, key fx fy _ _ _ _⟩
  have := key fz fx u.z v.x u.x v.z
  rwa [Bool.xor_comm fz fx] at this
/-- **C73** In space, exchanging x and y changes no inner product, length, distance or volume in the last bit. (Other
exchanges regroup the rounded sums.) -/
theorem C73_swap_measures3 (u v : Vector3 S) (p q : Point3 S) (b : BoundingBox3 S) :
    Same (Api.dot (u.permute .Y .X .Z) (v.permute .Y .X .Z)) (Api.dot u v) ∧
    Same (Api.length (u.permute .Y .X .Z)) (Api.length u) ∧
    Same (Api.distance (p.permute .Y .X .Z) (q.permute .Y .X .Z)) (Api.distance p q) ∧
    Same (⟨b.min.permute .Y .X .Z, b.max.permute .Y .X .Z⟩ : BoundingBox3 S).volume b.volume := by
  have k : ∀ {a b : S} (c : S), Same a b → Same (a * c) (b * c) := fun c h => by
    unfold Same at *; rw [den_mul, den_mul, h]
  exact ⟨same_add_congr' (same_add_comm _ _) (Same.refl _), same_sqrt_congr (same_add_congr' (same_add_comm _ _) (Same.refl _)),
    same_sqrt_congr (same_add_congr' (same_add_comm _ _) (Same.refl _)), k _ (same_mul_comm _ _)⟩
/-- **C73** The dimension of least and of greatest extent. -/
theorem C73_mirror_dimension3 (fx fy fz : Bool) (b : BoundingBox3 S) :
    (b.mirror fx fy fz).minDimension = b.minDimension ∧ (b.mirror fx fy fz).maxDimension = b.maxDimension := by
  obtain ⟨h1, h2, h3⟩ := Vector3.agreeAll.1 (C73_mirror_diagonal3 fx fy fz b)
  unfold BoundingBox3.minDimension BoundingBox3.maxDimension
  simp only [le_congr h1 h2, lt_congr h2 h1, le_congr h1 h3, lt_congr h3 h1, le_congr h2 h3, lt_congr h3 h2, and_self]

'''
    return out
open('/verif/lean/Verif/Props/FloatSymmetry.lean','w').write(H+gen(2)+gen(3)+'end VecMath\n')

import Verif.Props.FloatFirstHit
import Verif.Lemmas.Symm
import Verif.Lemmas.Octree
/-!
# C103: a hierarchy can lose a flat box whose plane contains the ray

Why C70 and C103 except rays in the plane of a face: a box without extent along an axis is hit by a ray running in it,
but a larger box around it that begins in the same plane is not (C37).
-/

open Classical

namespace VecMath
set_option linter.unusedSectionVars false
open Scalar IEEE

section
variable {S : Type} [Scalar S] [IEEE S] [Binary S]
theorem isNaN_zero_over_zero {a d : S} (ha : IsFinite a) (h : real a = 0) (hd : IsFinite d) (h0 : real d = 0) : IsNaN (a / d) := by
  unfold IsNaN
  rw [den_div, Rounding.div_fin _ ha hd, if_pos (show (den d).real = 0 from h0), if_pos (show (den a).real = 0 from h)]
theorem sub_zero_fin {a : S} (ha : IsFinite a) : IsFinite (a - zero) ∧ real (a - zero) = real a := by
  have h : den (a - zero) = den a := same_sub_zero a
  unfold IsFinite real
  rw [h]
  exact ⟨ha, rfl⟩
/-- A slab that begins in the plane of the ray, and ends behind it: reported as entered at infinity. -/
theorem near_face {lo hi : S} (fl : IsFinite lo) (l0 : real lo = 0) (fh : IsFinite hi) (h0 : 0 < real hi) :
    loVal (near lo hi zero zero) = ⊤ := by
  have n1 : IsNaN ((lo - zero) / zero) := isNaN_zero_over_zero (sub_zero_fin fl).1 (by rw [(sub_zero_fin fl).2, l0]) finite_zero real_zero
  have d2 := den_div_zero (sub_zero_fin fh).1 finite_zero (by rw [(sub_zero_fin fh).2]; exact h0.ne') real_zero
  rw [(sub_zero_fin fh).2, decide_eq_false (not_lt.2 h0.le), den_zero] at d2
  have h2 : den (near lo hi zero zero) = .inf false := by
    have : Same (near lo hi zero zero) ((hi - zero) / zero) := min_nan_left n1
    rw [show den _ = _ from this, d2]; simp
  unfold loVal IsNaN val
  rw [h2]
  simp
/-- A slab of no extent in the plane of the ray: ignored. -/
theorem flat_face {lo hi : S} (fl : IsFinite lo) (l0 : real lo = 0) (fh : IsFinite hi) (h0 : real hi = 0) :
    loVal (near lo hi zero zero) = ⊥ ∧ hiVal (far lo hi zero zero) = ⊤ := by
  have n1 : IsNaN ((lo - zero) / zero) := isNaN_zero_over_zero (sub_zero_fin fl).1 (by rw [(sub_zero_fin fl).2, l0]) finite_zero real_zero
  have n2 : IsNaN ((hi - zero) / zero) := isNaN_zero_over_zero (sub_zero_fin fh).1 (by rw [(sub_zero_fin fh).2, h0]) finite_zero real_zero
  unfold loVal hiVal near far
  rw [if_pos (isNaN_min.2 ⟨n1, n2⟩), if_pos (isNaN_max.2 ⟨n1, n2⟩)]
  exact ⟨rfl, rfl⟩
/-- A slab crossed at unit speed from 0. -/
theorem unit_slab {lo hi : S} (fl : IsFinite lo) (fh : IsFinite hi) (h : real lo ≤ real hi) :
    loVal (near lo hi zero one) = (real lo : EReal) ∧ hiVal (far lo hi zero one) = (real hi : EReal) := by
  have e : ∀ x : S, IsFinite x → IsFinite ((x - zero) / one) ∧ real ((x - zero) / one) = real x := fun x hx => by
    have h : den ((x - zero) / one) = den x := (same_div_one _).trans (same_sub_zero _)
    unfold IsFinite real
    rw [h]
    exact ⟨hx, rfl⟩
  have m := finite_fmin (e lo fl).1 (e hi fh).1
  have M := finite_fmax (e lo fl).1 (e hi fh).1
  unfold loVal hiVal near far
  rw [if_neg m.not_nan, if_neg M.not_nan, m.val, M.val, (fmin_real (e lo fl).1 (e hi fh).1).2, (fmax_real (e lo fl).1 (e hi fh).1).2,
    (e lo fl).2, (e hi fh).2, min_eq_left h, max_eq_right h]
  exact ⟨rfl, rfl⟩
/-- Two finite boxes and a finite ray such that the ray hits the first box, but the search of the hierarchy made of the two
reports nothing. -/
theorem C103_flat_lost2 : ∃ (a b : BoundingBox2 S) (r : Ray2 S), AllFinite a ∧ AllFinite b ∧ AllFinite r ∧
    LeAll a.min a.max ∧ LeAll b.min b.max ∧
    (∃ i : Range S, Api.intersect a r = some i ∧ (i.start == zero) = true ∧ (i.stop == one) = true) ∧
    (Tree.node (.leaf a) (.leaf b)).search Api.union (fun c => (Api.intersect c r : Option (Range S)).isSome) = [] ∧
    ∀ swap, ((Tree.node (.leaf a) (.leaf b)).map fun c => (c, c)).firstHit Api.union (enter2 r) swap (enter2 r) none = none := by
  have rm : ∀ {a b : S}, IsFinite a → IsFinite b → real (fmin a b) = min (real a) (real b) := fun ha hb => (fmin_real ha hb).2
  have rM : ∀ {a b : S}, IsFinite a → IsFinite b → real (fmax a b) = max (real a) (real b) := fun ha hb => (fmax_real ha hb).2
  have f0 : IsFinite (zero : S) := finite_zero
  have f1 : IsFinite (one : S) := finite_one
  have le01 : (zero ≤? (one : S)) = true := le_of_vals not_nan_zero not_nan_one (by simp)
  have le00 : (zero ≤? (zero : S)) = true := le_self not_nan_zero
  let a : BoundingBox2 S := ⟨⟨zero, zero⟩, ⟨zero, one⟩⟩
  let b : BoundingBox2 S := ⟨⟨zero, zero⟩, ⟨one, one⟩⟩
  let r : Ray2 S := ⟨⟨zero, zero⟩, ⟨zero, one⟩⟩
  have miss : (Api.intersect (Api.union a b : BoundingBox2 S) r : Option (Range S)) = none := by
    refine (hit_iff2 _ _).2 ?_
    have e1 : loVal (near (Api.union a b : BoundingBox2 S).min.x (Api.union a b : BoundingBox2 S).max.x zero zero) = ⊤ := by
      refine near_face ?_ ?_ ?_ ?_ <;>
        simp [a, b, Api.union, BoxUnion.union, BoundingBox2.new, Api.min, Api.max, MinMax.min, MinMax.max, Point2.new, rm, rM, finite_fmin, finite_fmax, f0, f1]
    have e2 : hiVal (far (Api.union a b : BoundingBox2 S).min.y (Api.union a b : BoundingBox2 S).max.y zero one) < ⊤ := by
      rw [(unit_slab ?_ ?_ ?_).2]
      · exact EReal.coe_lt_top _
      all_goals simp [a, b, Api.union, BoxUnion.union, BoundingBox2.new, Api.min, Api.max, MinMax.min, MinMax.max, Point2.new, rm, rM, finite_fmin, finite_fmax, f0, f1]
    have s1 : startVal2 (Api.union a b) r = ⊤ := by
      unfold startVal2
      rw [show loVal (near _ _ r.origin.x r.direction.x) = ⊤ from e1]; simp
    rw [s1, top_le_iff]
    exact (lt_of_le_of_lt (min_le_right _ _) e2).ne
  refine ⟨a, b, r, ?_, ?_, ?_, ?_, ?_, ?_, ?_, ?_⟩
  · simp [a, BoundingBox2.allFinite, Point2.allFinite]
  · simp [b, BoundingBox2.allFinite, Point2.allFinite]
  · simp [r, Ray2.allFinite, Point2.allFinite, Vector2.allFinite]
  · exact Point2.leAll.2 ⟨le00, le01⟩
  · exact Point2.leAll.2 ⟨le01, le01⟩
  · have ex := flat_face (S := S) f0 real_zero f0 real_zero
    have ey := unit_slab (S := S) f0 f1 (by simp)
    have s1 : startVal2 a r = 0 := by
      unfold startVal2
      rw [show loVal (near a.min.x a.max.x r.origin.x r.direction.x) = ⊥ from ex.1, show loVal (near a.min.y a.max.y r.origin.y r.direction.y) = _ from ey.1]
      simp
    have s2 : stopVal2 a r = 1 := by
      unfold stopVal2
      rw [show hiVal (far a.min.x a.max.x r.origin.x r.direction.x) = ⊤ from ex.2, show hiVal (far a.min.y a.max.y r.origin.y r.direction.y) = _ from ey.2]
      simp
    obtain ⟨i, hi, n1, n2, v1, v2⟩ := (hit_iff2 a r).1 (by rw [s1, s2]; simp)
    exact ⟨i, hi, beq_iff.2 ⟨n1, not_nan_zero, by rw [v1, s1, val_zero]⟩, beq_iff.2 ⟨n2, not_nan_one, by rw [v2, s2, val_one]⟩⟩
  · simp [Tree.search, Tree.bound, miss]
  · intro swap
    simp [Tree.map, Tree.firstHit, Tree.bound, enter2, miss, skipBox]
/-- The same in 3D. -/
theorem C103_flat_lost3 : ∃ (a b : BoundingBox3 S) (r : Ray3 S), AllFinite a ∧ AllFinite b ∧ AllFinite r ∧
    LeAll a.min a.max ∧ LeAll b.min b.max ∧
    (∃ i : Range S, Api.intersect a r = some i ∧ (i.start == zero) = true ∧ (i.stop == one) = true) ∧
    (Tree.node (.leaf a) (.leaf b)).search Api.union (fun c => (Api.intersect c r : Option (Range S)).isSome) = [] ∧
    ∀ swap, ((Tree.node (.leaf a) (.leaf b)).map fun c => (c, c)).firstHit Api.union (enter3 r) swap (enter3 r) none = none := by
  have rm : ∀ {a b : S}, IsFinite a → IsFinite b → real (fmin a b) = min (real a) (real b) := fun ha hb => (fmin_real ha hb).2
  have rM : ∀ {a b : S}, IsFinite a → IsFinite b → real (fmax a b) = max (real a) (real b) := fun ha hb => (fmax_real ha hb).2
  have f0 : IsFinite (zero : S) := finite_zero
  have f1 : IsFinite (one : S) := finite_one
  have le01 : (zero ≤? (one : S)) = true := le_of_vals not_nan_zero not_nan_one (by simp)
  have le00 : (zero ≤? (zero : S)) = true := le_self not_nan_zero
  let a : BoundingBox3 S := ⟨⟨zero, zero, zero⟩, ⟨zero, one, one⟩⟩
  let b : BoundingBox3 S := ⟨⟨zero, zero, zero⟩, ⟨one, one, one⟩⟩
  let r : Ray3 S := ⟨⟨zero, zero, zero⟩, ⟨zero, one, one⟩⟩
  have miss : (Api.intersect (Api.union a b : BoundingBox3 S) r : Option (Range S)) = none := by
    refine (hit_iff3 _ _).2 ?_
    have e1 : loVal (near (Api.union a b : BoundingBox3 S).min.x (Api.union a b : BoundingBox3 S).max.x zero zero) = ⊤ := by
      refine near_face ?_ ?_ ?_ ?_ <;>
        simp [a, b, Api.union, BoxUnion.union, BoundingBox3.new, Api.min, Api.max, MinMax.min, MinMax.max, Point3.new, rm, rM, finite_fmin, finite_fmax, f0, f1]
    have e2 : hiVal (far (Api.union a b : BoundingBox3 S).min.z (Api.union a b : BoundingBox3 S).max.z zero one) < ⊤ := by
      rw [(unit_slab ?_ ?_ ?_).2]
      · exact EReal.coe_lt_top _
      all_goals simp [a, b, Api.union, BoxUnion.union, BoundingBox3.new, Api.min, Api.max, MinMax.min, MinMax.max, Point3.new, rm, rM, finite_fmin, finite_fmax, f0, f1]
    have s1 : startVal3 (Api.union a b) r = ⊤ := by
      unfold startVal3
      rw [show loVal (near _ _ r.origin.x r.direction.x) = ⊤ from e1]; simp
    rw [s1, top_le_iff]
    exact (lt_of_le_of_lt (min_le_right _ _) e2).ne
  refine ⟨a, b, r, ?_, ?_, ?_, ?_, ?_, ?_, ?_, ?_⟩
  · simp [a, BoundingBox3.allFinite, Point3.allFinite]
  · simp [b, BoundingBox3.allFinite, Point3.allFinite]
  · simp [r, Ray3.allFinite, Point3.allFinite, Vector3.allFinite]
  · exact Point3.leAll.2 ⟨le00, le01, le01⟩
  · exact Point3.leAll.2 ⟨le01, le01, le01⟩
  · have ex := flat_face (S := S) f0 real_zero f0 real_zero
    have ey := unit_slab (S := S) f0 f1 (by simp)
    have s1 : startVal3 a r = 0 := by
      unfold startVal3
      rw [show loVal (near a.min.x a.max.x r.origin.x r.direction.x) = ⊥ from ex.1, show loVal (near a.min.y a.max.y r.origin.y r.direction.y) = _ from ey.1]
      simp
    have s2 : stopVal3 a r = 1 := by
      unfold stopVal3
      rw [show hiVal (far a.min.x a.max.x r.origin.x r.direction.x) = ⊤ from ex.2, show hiVal (far a.min.y a.max.y r.origin.y r.direction.y) = _ from ey.2]
      simp
    obtain ⟨i, hi, n1, n2, v1, v2⟩ := (hit_iff3 a r).1 (by rw [s1, s2]; simp)
    exact ⟨i, hi, beq_iff.2 ⟨n1, not_nan_zero, by rw [v1, s1, val_zero]⟩, beq_iff.2 ⟨n2, not_nan_one, by rw [v2, s2, val_one]⟩⟩
  · simp [Tree.search, Tree.bound, miss]
  · intro swap
    simp [Tree.map, Tree.firstHit, Tree.bound, enter3, miss, skipBox]
end

end VecMath

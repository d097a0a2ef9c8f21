import Verif.Props.FloatFlatInv
import Verif.Props.FloatLimits
import Verif.Props.FloatExamples8
/-! # C117: where plane and space part, and examples -/

open Classical

namespace VecMath
open Scalar IEEE Relator

section
variable {S : Type} [Scalar S] [IEEE S]
local notation "Z" => SameNumber (S := S) (T := S)

/-- **C117**: but a box with exactly one face in the plane is missed by every ray in the plane, unless the ray stays in the section for ever. -/
theorem C117_face {a : BoundingBox2 S} {b : BoundingBox3 S} {r : Ray2 S} {s : Ray3 S} (hb : SectionB Eq a b) (hr : FlatR Eq r s)
    (hz : (Vanishes b.min.z ∧ 0 < val b.max.z) ∨ (val b.min.z < 0 ∧ Vanishes b.max.z)) {i : Range S}
    (hi : Api.intersect a r = some i) (hf : IsFinite i.stop) : Api.intersect b s = (none : Option (Range S)) := by
  have key : loVal (near b.min.z b.max.z s.origin.z s.direction.z) = ⊤ ∨ hiVal (far b.min.z b.max.z s.origin.z s.direction.z) = ⊥ := by
    have nl := (le_iff.1 hb.1.2.2).1
    have nh := (le_iff.1 hb.2.2.2).2.1
    have ho := hr.1.2.2
    have hd := hr.2.2.2
    have sl : Z b.min.z (b.min.z - s.origin.z) := sub_z (sameNumber_iff.2 rfl) ho
    have sh : Z b.max.z (b.max.z - s.origin.z) := sub_z (sameNumber_iff.2 rfl) ho
    have nl' : ¬ IsNaN (b.min.z - s.origin.z) := fun c => nl ((number_nan sl).2 c)
    have nh' : ¬ IsNaN (b.max.z - s.origin.z) := fun c => nh ((number_nan sh).2 c)
    unfold near far
    rcases hz with ⟨h1, h2⟩ | ⟨h1, h2⟩
    · have q1 := quot_zero_nan hd (sub_zero_zero h1 ho)
      rw [number_val sh] at h2
      have w := val_inf (quot_zero_inf hd nh' h2.ne')
      have m1 := min_nan_left (b := (b.max.z - s.origin.z) / s.direction.z) q1
      have m2 := max_nan_left (b := (b.max.z - s.origin.z) / s.direction.z) q1
      rw [loVal_congr m1.num, hiVal_congr m2.num]
      unfold loVal hiVal
      rw [if_neg w.1, if_neg w.1, w.2]
      cases (den (b.max.z - s.origin.z)).neg? ^^ (den s.direction.z).neg? <;> simp
    · have q1 := quot_zero_nan hd (sub_zero_zero h2 ho)
      rw [number_val sl] at h1
      have w := val_inf (quot_zero_inf hd nl' h1.ne)
      have m1 := min_nan_right (a := (b.min.z - s.origin.z) / s.direction.z) q1
      have m2 := max_nan_right (a := (b.min.z - s.origin.z) / s.direction.z) q1
      rw [loVal_congr m1.num, hiVal_congr m2.num]
      unfold loVal hiVal
      rw [if_neg w.1, if_neg w.1, w.2]
      cases (den (b.min.z - s.origin.z)).neg? ^^ (den s.direction.z).neg? <;> simp
  have e2 : stopVal3 b s = min (stopVal2 a r) (hiVal (far b.min.z b.max.z s.origin.z s.direction.z)) := by
    unfold stopVal3 stopVal2
    rw [hb.1.1, hb.1.2.1, hb.2.1, hb.2.2.1, hr.1.1, hr.1.2.1, hr.2.1, hr.2.2.1]
  have g : stopVal2 a r < ⊤ := by
    by_cases h : startVal2 a r ≤ stopVal2 a r
    · obtain ⟨j, hj, -, -, -, v⟩ := (hit_iff2 a r).1 h
      have e : some j = some i := hj.symm.trans hi
      cases e
      rw [← v, hf.val]
      exact EReal.coe_lt_top _
    · have e := ((hit_iff2 a r).2 h).symm.trans hi
      cases e
  refine (hit_iff3 b s).2 fun h => ?_
  rcases key with k | k
  · have : (⊤ : EReal) ≤ startVal3 b s := by unfold startVal3; rw [k]; exact le_max_right _ _
    have := (this.trans h).trans (e2.le.trans (min_le_left _ _))
    exact absurd g (not_lt.2 this)
  · have h0 : (0 : EReal) ≤ startVal3 b s := by
      unfold startVal3; exact le_max_of_le_left (le_max_of_le_left (le_max_left _ _))
    have : stopVal3 b s ≤ ⊥ := by rw [e2, k]; exact min_le_right _ _
    have := (h0.trans h).trans this
    simp at this

/-- The plane, scaled by `t`, with the weight `T`. -/
def weighted (t T : S) : Matrix3x3 S := .new #v[t, zero, zero, zero, t, zero, zero, zero, T]
/-- The same in space. -/
def weighted3 (t T : S) : Matrix4x4 S := .new #v[t, zero, zero, zero, zero, t, zero, zero, zero, zero, one, zero, zero, zero, zero, T]
theorem flat_weighted (t T : S) : FlatM Z (weighted t T) (weighted3 t T) := by
  have z : Vanishes (zero : S) := vanishes_zero
  have zz : Z zero zero := Kept.zero
  exact ⟨⟨⟨same_self _, zz, zz⟩, ⟨zz, same_self _, zz⟩, zz, zz, same_self _⟩, ⟨z, z, z⟩, ⟨z, z, z⟩, Kept.one⟩
/-- **C117**: for other matrices than affine ones the two inversions round differently, and can differ completely: here the plane
refuses an invertible matrix, and space inverts its copy, but into one that does not leave `z` alone. -/
theorem C117_weighted {t T : S} (ft : IsFinite t) (fT : IsFinite T) (tt : num (t * t) = num (zero : S)) (tT : num (t * T) = num (one : S))
    (h0 : (t == zero) = false) :
    (weighted t T).inverse = .error .mk ∧ ∃ n, (weighted3 t T).inverse = .ok n ∧ (n.m[10] == zero) = true := by
  have tt' : nmul (IEEE.A S) (num t) (num t) = .fin 0 := by rw [← IEEE.num_mul, tt, IEEE.num_zero]
  have tT' : nmul (IEEE.A S) (num t) (num T) = .fin 1 := by rw [← IEEE.num_mul, tT, IEEE.num_one]
  have d1 : num (weighted t T).det = num (zero : S) := by
    show num (t * t * T + zero * zero * zero + zero * zero * zero - zero * t * zero - zero * zero * T - t * zero * zero : S) = _
    neg_simp [ft, fT, tt', tT']
  have c0 : num ((weighted3 t T).cofactor 0 0) = num (one : S) := by
    show num (one * (t * one * T + zero * zero * zero + zero * zero * zero - t * zero * zero - zero * zero * T - zero * one * zero) : S) = _
    neg_simp [ft, fT, tt', tT']
  have c1 : num ((weighted3 t T).cofactor 0 1) = num (zero : S) := by
    show num (-one * (zero * one * T + zero * zero * zero + zero * zero * zero - zero * zero * zero - zero * zero * T - zero * one * zero) : S) = _
    neg_simp [ft, fT, tt', tT']
  have c2 : num ((weighted3 t T).cofactor 0 2) = num (zero : S) := by
    show num (one * (zero * zero * T + t * zero * zero + zero * zero * zero - zero * zero * zero - t * zero * T - zero * zero * zero) : S) = _
    neg_simp [ft, fT, tt', tT']
  have c3 : num ((weighted3 t T).cofactor 0 3) = num (zero : S) := by
    show num (-one * (zero * zero * zero + t * one * zero + zero * zero * zero - zero * one * zero - t * zero * zero - zero * zero * zero) : S) = _
    neg_simp [ft, fT, tt', tT']
  have c10 : num ((weighted3 t T).cofactor 2 2) = num (zero : S) := by
    show num (one * (t * t * T + zero * zero * zero + zero * zero * zero - t * zero * zero - zero * zero * T - zero * t * zero) : S) = _
    neg_simp [ft, fT, tt', tT']
  have d : num ((weighted3 t T).detOf (weighted3 t T).adjugate) = num t := by
    show num (t * (weighted3 t T).cofactor 0 0 + zero * (weighted3 t T).cofactor 0 1
      + zero * (weighted3 t T).cofactor 0 2 + zero * (weighted3 t T).cofactor 0 3) = _
    rw [IEEE.num_add, IEEE.num_add, IEEE.num_add, IEEE.num_mul, IEEE.num_mul, IEEE.num_mul, IEEE.num_mul, c0, c1, c2, c3]
    neg_simp [ft]
  have hz : ((weighted3 t T).detOf (weighted3 t T).adjugate == zero) = false := by rw [beq_congr d rfl]; exact h0
  have hz1 : ((weighted t T).det == zero) = true := by
    rw [beq_congr d1 rfl]; exact beq_of_num' rfl finite_zero.not_nan
  constructor
  · unfold Matrix3x3.inverse
    simp only [bne, hz1, Bool.not_true, Bool.false_eq_true, if_false]
  · unfold Matrix4x4.inverse
    simp only [bne, hz, Bool.not_false, if_true]
    refine ⟨_, rfl, ?_⟩
    rw [Matrix4x4.divs]
    exact quot_zero c10 d ft h0
end

section
/-- **C117**: such numbers exist in single precision: `2^-100` and `2^100`. -/
theorem C117_weighted_f32 : ∃ (a : Matrix3x3 F32) (b : Matrix4x4 F32), FlatM SameNumber a b ∧ AllFinite a ∧ AllFinite b ∧
    a.toReal.det = 2 ^ (-100 : ℤ) ∧ a.inverse = .error .mk ∧ ∃ n, b.inverse = .ok n ∧ (n.m[10] == zero) = true := by
  let t : F32 := Fl.pow2 (-100) (by decide) (by decide)
  let T : F32 := Fl.pow2 100 (by decide) (by decide)
  have ft : IsFinite t := trivial
  have fT : IsFinite T := trivial
  have rt : real t = 2 ^ (-100 : ℤ) := rfl
  have rT : real T = 2 ^ (100 : ℤ) := rfl
  have tt : num (t * t) = num (zero : F32) := by
    have k := mul_tiny ft ft (by
      rw [rt, ← zpow_add₀ (by norm_num), abs_of_pos (by positivity)]
      exact zpow_lt_zpow_right₀ (by norm_num) (by decide))
    exact num_of_real k.1 finite_zero (by rw [k.2, real_zero])
  have tT : num (t * T) = num (one : F32) := by
    have e : num (t * T) = num (one * one : F32) := by
      unfold num
      rw [den_mul, den_mul, Rounding.mul_fin _ ft fT, Rounding.mul_fin _ finite_one finite_one]
      have : (den t).real * (den T).real = (den (one : F32)).real * (den (one : F32)).real := by
        show real t * real T = real (one : F32) * real (one : F32)
        rw [rt, rT, real_one, ← zpow_add₀ (by norm_num)]; norm_num
      have n1 : (den t).neg? = false := by
        have : (den t).neg? = decide ((2 : ℝ) ^ (-100 : ℤ) < 0) := rfl
        rw [this, decide_eq_false]; exact not_lt.2 (by positivity)
      have n2 : (den T).neg? = false := by
        have : (den T).neg? = decide ((2 : ℝ) ^ (100 : ℤ) < 0) := rfl
        rw [this, decide_eq_false]; exact not_lt.2 (by positivity)
      rw [this, n1, n2]
      simp
    exact e.trans (IEEE.num_mul_one _)
  have h0 : (t == zero) = false := by
    rw [Bool.eq_false_iff]
    intro h
    rw [IEEE.beq_iff, ft.val, val_zero, rt] at h
    have := h.2.2
    norm_cast at this
    exact absurd this (by positivity)
  have k := C117_weighted ft fT tt tT h0
  refine ⟨weighted t T, weighted3 t T, flat_weighted t T, ?_, ?_, ?_, k.1, k.2⟩
  · rw [Matrix3x3.allFinite, forall_lt_9]
    exact ⟨ft, finite_zero, finite_zero, finite_zero, ft, finite_zero, finite_zero, finite_zero, fT⟩
  · rw [Matrix4x4.allFinite, forall_lt_16]
    exact ⟨ft, finite_zero, finite_zero, finite_zero, finite_zero, ft, finite_zero, finite_zero, finite_zero, finite_zero, finite_one, finite_zero, finite_zero, finite_zero, finite_zero, fT⟩
  · rw [Matrix.det_fin_three]
    show real t * real t * real T - real t * real (zero : F32) * real (zero : F32) - real (zero : F32) * real (zero : F32) * real T
      + real (zero : F32) * real (zero : F32) * real (zero : F32) + real (zero : F32) * real (zero : F32) * real (zero : F32)
      - real (zero : F32) * real t * real (zero : F32) = _
    rw [real_zero, rt, rT, mul_assoc, ← zpow_add₀ (by norm_num : (2 : ℝ) ≠ 0)]
    norm_num
end

/-! ### The hypotheses are met -/
section
variable {S : Type} [Scalar S] [IEEE S]
local notation "Z" => SameNumber (S := S) (T := S)

theorem val_num {a b : S} (h : num a = num b) : val a = val b := number_val (sameNumber_iff.2 h)
/-- A ray from the center of a square along the `x` axis leaves it after 1. -/
theorem square_hit : ∃ i : Range S, Api.intersect (⟨⟨-one, -one⟩, ⟨one, one⟩⟩ : BoundingBox2 S) (⟨⟨zero, zero⟩, ⟨one, zero⟩⟩ : Ray2 S) = some i ∧
    val i.start = 0 ∧ val i.stop = 1 := by
  have v1 : val (-one : S) = -1 := by rw [(finite_neg.2 finite_one).val, IEEE.real_neg, real_one]; simp
  have fr : loVal (near (-one) one zero (zero : S)) = ⊥ ∧ hiVal (far (-one) one zero (zero : S)) = ⊤ :=
    slab_free vanishes_zero vanishes_zero ⟨⟨le_iff.2 ⟨(finite_neg.2 finite_one).not_nan, finite_zero.not_nan, by rw [v1, val_zero]; norm_num⟩,
      le_iff.2 ⟨finite_zero.not_nan, finite_one.not_nan, by rw [val_one, val_zero]; norm_num⟩⟩, .inl ⟨by rw [v1]; norm_num, by rw [val_one]; norm_num⟩⟩
  have x1 : num ((-one - zero) / (one : S)) = num (-one : S) := (IEEE.num_div_one _).trans (n_sub0 rfl)
  have x2 : num ((one - zero) / (one : S)) = num (one : S) := (IEEE.num_div_one _).trans (n_sub0 rfl)
  have n1 : ¬ IsNaN ((-one - zero) / (one : S)) := fun c => (finite_neg.2 finite_one).not_nan ((number_nan (sameNumber_iff.2 x1)).1 c)
  have n2 : ¬ IsNaN ((one - zero) / (one : S)) := fun c => finite_one.not_nan ((number_nan (sameNumber_iff.2 x2)).1 c)
  have e11 : (-1 : EReal) ≤ 1 := by
    have : ((-1 : ℝ) : EReal) ≤ ((1 : ℝ) : EReal) := EReal.coe_le_coe_iff.2 (by norm_num)
    simpa using this
  have lo : loVal (near (-one) one zero (one : S)) = -1 := by
    unfold loVal near
    rw [if_neg fun c => n1 (isNaN_min.1 c).1, val_min n1 n2, val_num x1, val_num x2, v1, val_one]
    first | exact min_eq_left e11 | exact max_eq_right e11
  have hi : hiVal (far (-one) one zero (one : S)) = 1 := by
    unfold hiVal far
    rw [if_neg fun c => n1 (isNaN_max.1 c).1, val_max n1 n2, val_num x1, val_num x2, v1, val_one]
    first | exact min_eq_left e11 | exact max_eq_right e11
  have s0 : startVal2 (⟨⟨-one, -one⟩, ⟨one, one⟩⟩ : BoundingBox2 S) (⟨⟨zero, zero⟩, ⟨one, zero⟩⟩ : Ray2 S) = 0 := by
    unfold startVal2; rw [lo, fr.1]; norm_num
  have s1 : stopVal2 (⟨⟨-one, -one⟩, ⟨one, one⟩⟩ : BoundingBox2 S) (⟨⟨zero, zero⟩, ⟨one, zero⟩⟩ : Ray2 S) = 1 := by
    unfold stopVal2; rw [hi, fr.2]; norm_num
  obtain ⟨i, h, -, -, e1, e2⟩ := (hit_iff2 (⟨⟨-one, -one⟩, ⟨one, one⟩⟩ : BoundingBox2 S) (⟨⟨zero, zero⟩, ⟨one, zero⟩⟩ : Ray2 S)).1 (by rw [s0, s1]; norm_num)
  exact ⟨i, h, by rw [e1, s0], by rw [e2, s1]⟩
/-- **C117**: so a square is hit from its center, the cube of which it is the section is hit, and the half of the cube above the plane is not. -/
theorem C117_half_cube :
    ((Api.intersect (⟨⟨-one, -one⟩, ⟨one, one⟩⟩ : BoundingBox2 S) (⟨⟨zero, zero⟩, ⟨one, zero⟩⟩ : Ray2 S) : Option (Range S))).isSome = true ∧
    ((Api.intersect (⟨⟨-one, -one, -one⟩, ⟨one, one, one⟩⟩ : BoundingBox3 S) (⟨⟨zero, zero, zero⟩, ⟨one, zero, zero⟩⟩ : Ray3 S) : Option (Range S))).isSome = true ∧
    ((Api.intersect (⟨⟨-one, -one, zero⟩, ⟨one, one, one⟩⟩ : BoundingBox3 S) (⟨⟨zero, zero, zero⟩, ⟨one, zero, zero⟩⟩ : Ray3 S) : Option (Range S))) = none := by
  obtain ⟨i, hi, -, h1⟩ := square_hit (S := S)
  have v1 : val (-one : S) = -1 := by rw [(finite_neg.2 finite_one).val, IEEE.real_neg, real_one]; simp
  have l0 : ((-one : S) ≤? zero) = true := le_iff.2 ⟨(finite_neg.2 finite_one).not_nan, finite_zero.not_nan, by rw [v1, val_zero]; norm_num⟩
  have l1 : ((zero : S) ≤? one) = true := le_iff.2 ⟨finite_zero.not_nan, finite_one.not_nan, by rw [val_one, val_zero]; norm_num⟩
  have l2 : ((zero : S) ≤? zero) = true := le_iff.2 ⟨finite_zero.not_nan, finite_zero.not_nan, le_rfl⟩
  have k := C117_ray_box (a := (⟨⟨-one, -one⟩, ⟨one, one⟩⟩ : BoundingBox2 S)) (b := ⟨⟨-one, -one, -one⟩, ⟨one, one, one⟩⟩)
    (r := ⟨⟨zero, zero⟩, ⟨one, zero⟩⟩) (s := ⟨⟨zero, zero, zero⟩, ⟨one, zero, zero⟩⟩) ⟨⟨rfl, rfl, l0⟩, rfl, rfl, l1⟩
    ⟨⟨rfl, rfl, vanishes_zero⟩, rfl, rfl, vanishes_zero⟩ (.inl ⟨by rw [v1]; norm_num, by rw [val_one]; norm_num⟩)
  have hf : IsFinite i.stop := by
    by_contra c
    unfold IsFinite at c
    unfold IEEE.val at h1
    revert c h1
    rcases den i.stop with _ | (_ | _) | _ | y <;> simp
    all_goals first | exact EReal.top_ne_coe 1 | exact EReal.bot_ne_coe 1 | exact zero_ne_one | done
  refine ⟨by rw [hi]; rfl, ?_, C117_face (a := (⟨⟨-one, -one⟩, ⟨one, one⟩⟩ : BoundingBox2 S)) (r := ⟨⟨zero, zero⟩, ⟨one, zero⟩⟩)
    ⟨⟨rfl, rfl, l2⟩, rfl, rfl, l1⟩ ⟨⟨rfl, rfl, vanishes_zero⟩, rfl, rfl, vanishes_zero⟩ (.inl ⟨vanishes_zero, by rw [val_one]; norm_num⟩) hi hf⟩
  rw [hi] at k
  generalize (Api.intersect (⟨⟨-one, -one, -one⟩, ⟨one, one, one⟩⟩ : BoundingBox3 S) (⟨⟨zero, zero, zero⟩, ⟨one, zero, zero⟩⟩ : Ray3 S) : Option (Range S)) = o at k
  cases k
  rfl

/-- Translations satisfy the hypotheses of `C117_inverse`. -/
example (v : Vector2 S) (hv : AllFinite v) :
    Outcome (FlatM Z) (Matrix3x3.translate v).inverse (Matrix4x4.translate ⟨v.x, v.y, zero⟩ : Matrix4x4 S).inverse := by
  rw [Vector2.allFinite] at hv
  have z : Vanishes (zero : S) := vanishes_zero
  have zz : Z zero zero := Kept.zero
  have o : Z one one := Kept.one
  have f : AllFinite (Matrix3x3.translate v) := by
    rw [Matrix3x3.allFinite, forall_lt_9]
    exact ⟨finite_one, finite_zero, hv.1, finite_zero, finite_one, hv.2, finite_zero, finite_zero, finite_one⟩
  have e : num (Matrix3x3.translate v).linDet = num (one : S) := by
    show num (one * one - zero * zero : S) = _
    neg_simp []
  refine C117_inverse ⟨⟨⟨o, zz, same_self _⟩, ⟨zz, o, same_self _⟩, zz, zz, o⟩, ⟨z, z, z⟩, ⟨z, z, z⟩, o⟩ z z o f ?_ (finite_of_num e finite_one)
  have m1 : ∀ {a : S}, IsFinite a → IsFinite (a * one) := fun {a} h => finite_of_num (IEEE.num_mul_one a) h
  have m0 : ∀ {a : S}, IsFinite a → IsFinite (a * zero) := fun {a} h => finite_of_num (nz_mul h rfl) finite_zero
  have m1' : ∀ {a : S}, IsFinite a → IsFinite (one * a) := fun {a} h => finite_of_num (IEEE.num_one_mul a) h
  have m0' : ∀ {a : S}, IsFinite a → IsFinite (zero * a) := fun {a} h => finite_of_num ((same_mul_comm _ _).num.trans (nz_mul h rfl)) finite_zero
  rw [Matrix3x3.allFinite] at f
  have c : ∀ (i : ℕ) (hi : i < 9), i % 3 ≠ 2 → (Matrix3x3.translate v).m[i] = one ∨ (Matrix3x3.translate v).m[i] = zero := by
    intro i hi h
    interval_cases i <;> first | omega | exact .inl rfl | exact .inr rfl
  intro i j hi hj h
  rcases h with h | h
  · rcases c i hi h with e | e <;> rw [e]
    · exact m1' (f j hj)
    · exact m0' (f j hj)
  · rcases c j hj h with e | e <;> rw [e]
    · exact m1 (f i hi)
    · exact m0 (f i hi)
/-- A chain: rotate, then move. -/
example (angle x y : S) (h : AllFinite (Transform3.rotateZ angle)) (h' : AllFinite (Transform3.translate (⟨x, y, zero⟩ : Vector3 S)))
    (p : Point2 S) (hp : AllFinite p) (ht : (((Transform2.rotate angle).andThen (.translate ⟨x, y⟩)).Weighs p)) :
    FlatP Z (Transform.transform ((Transform2.rotate angle).andThen (.translate ⟨x, y⟩)) p)
      (Transform.transform ((Transform3.rotateZ angle).andThen (.translate ⟨x, y, zero⟩)) (⟨p.x, p.y, zero⟩ : Point3 S)) := by
  have t := C117_transforms (S := S)
  refine C117_transform_point (t.2.2.2.2.2 _ _ _ _ (t.2.2.1 angle) (t.2.1 ⟨same_self _, same_self _, vanishes_zero⟩) h h')
    ⟨same_self _, same_self _, vanishes_zero⟩ ?_ ht
  rw [Point2.allFinite] at hp
  rw [Point3.allFinite]
  exact ⟨hp.1, hp.2, finite_zero⟩
end

end VecMath

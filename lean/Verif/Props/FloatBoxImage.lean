import Verif.Spec.BoxImage
import Verif.Props.FloatErrorMat
import Verif.Props.FloatBoxTr
import Verif.Props.FloatNaN
/-!
# Layer F: how far a transformed box is from the exact one in rounded arithmetic (C77)
-/

open Classical

namespace VecMath
open Scalar IEEE

section
variable {n : ℕ} {A : Matrix (Fin (n + 1)) (Fin (n + 1)) ℝ} {lo hi x : Fin n → ℝ}

/-- The image of a point of a box lies between the images of the two corners if the row has one sign. -/
theorem image_between (hA : OneSigned A) (hx : InBox lo hi x) (i : Fin n) :
    min (image A lo i) (image A hi i) ≤ image A x i ∧ image A x i ≤ max (image A lo i) (image A hi i) := by
  unfold image
  rcases hA i with h | h
  · constructor
    · refine (min_le_left _ _).trans (add_le_add_left (Finset.sum_le_sum fun j _ => ?_) _)
      exact mul_le_mul_of_nonneg_left (hx j).1 (h j)
    · refine le_trans (add_le_add_left (Finset.sum_le_sum fun j _ => ?_) _) (le_max_right _ _)
      exact mul_le_mul_of_nonneg_left (hx j).2 (h j)
  · constructor
    · refine (min_le_right _ _).trans (add_le_add_left (Finset.sum_le_sum fun j _ => ?_) _)
      exact mul_le_mul_of_nonpos_left (hx j).2 (h j)
    · refine le_trans (add_le_add_left (Finset.sum_le_sum fun j _ => ?_) _) (le_max_left _ _)
      exact mul_le_mul_of_nonpos_left (hx j).1 (h j)
theorem abs_le_of_inBox (hx : InBox lo hi x) (j : Fin n) : |x j| ≤ |lo j| + (hi j - lo j) := by
  have h1 := (hx j).1
  have h2 := (hx j).2
  have h3 := abs_add_le (lo j) (x j - lo j)
  rw [add_sub_cancel, abs_of_nonneg (sub_nonneg.2 h1)] at h3
  linarith
end

theorem abs_min_sub {a b x y e : ℝ} (h1 : |a - x| ≤ e) (h2 : |b - y| ≤ e) : |min a b - min x y| ≤ e ∧ |max a b - max x y| ≤ e := by
  rw [abs_le] at h1 h2
  refine ⟨abs_le.2 ⟨?_, ?_⟩, abs_le.2 ⟨?_, ?_⟩⟩
  · rcases min_cases a b with h | h <;> rcases min_cases x y with h' | h' <;> linarith [h.1, h.2, h'.1, h'.2]
  · rcases min_cases a b with h | h <;> rcases min_cases x y with h' | h' <;> linarith [h.1, h.2, h'.1, h'.2]
  · rcases max_cases a b with h | h <;> rcases max_cases x y with h' | h' <;> linarith [h.1, h.2, h'.1, h'.2]
  · rcases max_cases a b with h | h <;> rcases max_cases x y with h' | h' <;> linarith [h.1, h.2, h'.1, h'.2]

section
variable {S : Type} [Scalar S] [IEEE S]

theorem finite_minmax {a b : S} (ha : IsFinite a) (hb : IsFinite b) :
    (IsFinite (fmin a b) ∧ real (fmin a b) = min (real a) (real b)) ∧ IsFinite (fmax a b) ∧ real (fmax a b) = max (real a) (real b) := by
  have key : ∀ {c : S} {r : ℝ}, ¬ IsNaN c → val c = (r : EReal) → IsFinite c ∧ real c = r := by
    intro c r hc h
    have f : IsFinite c := finite_iff.2 ⟨hc, by rw [h]; exact EReal.coe_ne_top _, by rw [h]; exact EReal.coe_ne_bot _⟩
    rw [f.val, EReal.coe_eq_coe_iff] at h
    exact ⟨f, h⟩
  refine ⟨key ?_ ?_, key ?_ ?_⟩
  · rw [isNaN_min]; exact fun h => ha.not_nan h.1
  · rw [val_min ha.not_nan hb.not_nan, ha.val, hb.val]; exact (EReal.coe_strictMono.monotone.map_min).symm
  · rw [isNaN_max]; exact fun h => ha.not_nan h.1
  · rw [val_max ha.not_nan hb.not_nan, ha.val, hb.val]; exact (EReal.coe_strictMono.monotone.map_max).symm
theorem finite_of_beq {a b : S} (h : (a == b) = true) (hb : IsFinite b) : IsFinite a ∧ real a = real b := by
  obtain ⟨na, -, e⟩ := beq_iff.1 h
  rw [hb.val] at e
  have f : IsFinite a := finite_iff.2 ⟨na, by rw [e]; exact EReal.coe_ne_top _, by rw [e]; exact EReal.coe_ne_bot _⟩
  rw [f.val, EReal.coe_eq_coe_iff] at e
  exact ⟨f, e⟩

variable [Binary S]
/-- One coordinate of the far corner: the rounded sum of two approximations. -/
theorem far_corner {o d : S} {X Y a b g t : ℝ} {k : ℕ} (h : IsFinite (o + d)) (hX : |X| ≤ a) (hY : |Y| ≤ b)
    (ho : |real o - X| ≤ ((1 + uro S) ^ k - 1) * a + g) (hd : |real d - Y| ≤ ((1 + uro S) ^ k - 1) * b + t) :
    |real (o + d) - (X + Y)| ≤ ((1 + uro S) ^ (k + 1) - 1) * (a + b) + (1 + uro S) * (g + t) := by
  have hu := uro_pos (S := S)
  have e := err_add h
  have e1 : |real o + real d - (X + Y)| ≤ ((1 + uro S) ^ k - 1) * (a + b) + (g + t) := by
    have : real o + real d - (X + Y) = (real o - X) + (real d - Y) := by ring
    rw [this]; refine (abs_add_le _ _).trans ?_; linarith
  have e2 : |real o + real d| ≤ a + b + (((1 + uro S) ^ k - 1) * (a + b) + (g + t)) := by
    have h1 := abs_add_le (X + Y) (real o + real d - (X + Y))
    rw [add_sub_cancel] at h1
    have h2 := abs_add_le X Y
    linarith
  have e3 : real (o + d) - (X + Y) = (real (o + d) - (real o + real d)) + (real o + real d - (X + Y)) := by ring
  rw [e3]
  refine (abs_add_le _ _).trans ?_
  have e4 := mul_le_mul_of_nonneg_left e2 hu.le
  have e5 : ((1 + uro S) ^ (k + 1) - 1) * (a + b) + (1 + uro S) * (g + t) =
      uro S * (a + b + (((1 + uro S) ^ k - 1) * (a + b) + (g + t))) + (((1 + uro S) ^ k - 1) * (a + b) + (g + t)) := by
    rw [pow_succ]; ring
  rw [e5]
  linarith

/-- The diagonal is rounded once, then transformed. -/
theorem diag_image {n k : ℕ} {c δ Δ : Fin n → ℝ} {r t : ℝ} (hΔ : ∀ j, 0 ≤ Δ j) (hδ : ∀ j, |δ j - Δ j| ≤ uro S * Δ j)
    (h : |r - ∑ j, c j * δ j| ≤ ((1 + uro S) ^ k - 1) * ∑ j, |c j * δ j| + t) :
    |r - ∑ j, c j * Δ j| ≤ ((1 + uro S) ^ (k + 1) - 1) * ∑ j, |c j| * Δ j + t := by
  have hu := uro_pos (S := S)
  have gk : 0 ≤ (1 + uro S) ^ k - 1 := by
    have := one_le_pow₀ (n := k) (show (1 : ℝ) ≤ 1 + uro S by linarith); linarith
  have h1 : ∑ j, |c j * δ j| ≤ (1 + uro S) * ∑ j, |c j| * Δ j := by
    rw [Finset.mul_sum]
    refine Finset.sum_le_sum fun j _ => ?_
    rw [abs_mul]
    have : |δ j| ≤ (1 + uro S) * Δ j := by
      have h3 := abs_add_le (Δ j) (δ j - Δ j)
      rw [add_sub_cancel, abs_of_nonneg (hΔ j)] at h3
      have := hδ j; linarith
    calc |c j| * |δ j| ≤ |c j| * ((1 + uro S) * Δ j) := mul_le_mul_of_nonneg_left this (abs_nonneg _)
      _ = _ := by ring
  have h2 : |∑ j, c j * δ j - ∑ j, c j * Δ j| ≤ uro S * ∑ j, |c j| * Δ j := by
    rw [← Finset.sum_sub_distrib, Finset.mul_sum]
    refine (Finset.abs_sum_le_sum_abs _ _).trans (Finset.sum_le_sum fun j _ => ?_)
    rw [← mul_sub, abs_mul]
    calc |c j| * |δ j - Δ j| ≤ |c j| * (uro S * Δ j) := mul_le_mul_of_nonneg_left (hδ j) (abs_nonneg _)
      _ = _ := by ring
  have h3 := abs_add_le (r - ∑ j, c j * δ j) (∑ j, c j * δ j - ∑ j, c j * Δ j)
  rw [sub_add_sub_cancel] at h3
  have h4 := mul_le_mul_of_nonneg_left h1 gk
  rw [pow_succ]
  nlinarith
end

variable {S : Type} [Scalar S] [IEEE S] [Binary S]


/-! ### 2D -/

/-- **C77** (2D): the corners of a transformed box are within `boxSlack2` of the exact images of the corners, ordered. -/
theorem C77_corners2 (t : Transform2 S) (b : BoundingBox2 S) (ht : AllFinite t.forward) (hb : AllFinite b)
    (haff : t.forward.toReal 2 = ![0, 0, 1]) (wb : LeAll b.min b.max)
    (ho : AllFinite (Transform.transform t b.min : Point2 S))
    (hod : AllFinite ((Transform.transform t b.min : Point2 S) + (Transform.transform t b.diagonal : Vector2 S))) :
    AllFinite (Transform.transform t b : BoundingBox2 S) ∧ ∀ i,
    |(Transform.transform t b : BoundingBox2 S).min.toReal i -
        min (image t.forward.toReal b.min.toReal i) (image t.forward.toReal b.max.toReal i)| ≤
      boxSlack2 S t.forward.toReal b.min.toReal b.max.toReal i ∧
    |(Transform.transform t b : BoundingBox2 S).max.toReal i -
        max (image t.forward.toReal b.min.toReal i) (image t.forward.toReal b.max.toReal i)| ≤
      boxSlack2 S t.forward.toReal b.min.toReal b.max.toReal i := by
  have hb' := hb
  rw [BoundingBox2.allFinite] at hb'
  obtain ⟨hmin, hmax⟩ := hb'
  have hsum := hod
  rw [Point2.allFinite] at hsum
  have ho' := ho
  rw [Point2.allFinite] at ho'
  have hd : AllFinite (Transform.transform t b.diagonal : Vector2 S) := by
    rw [Vector2.allFinite]
    exact ⟨(finite_of_add hsum.1).2, (finite_of_add hsum.2).2⟩
  have eP := C63_point2 t b.min ht hmin haff ho
  have eV := C63_vector2 t b.diagonal hd
  have hdv := hd
  rw [Vector2.allFinite] at hd
  have fdiag : IsFinite b.diagonal.x ∧ IsFinite b.diagonal.y := ⟨(finite_of_mul (finite_of_add hd.1).1).2, (finite_of_mul (finite_of_add hd.1).2).2⟩
  have wb' := wb
  rw [Point2.leAll] at wb'
  rw [Point2.allFinite] at hmin hmax
  have hle : ∀ j, b.min.toReal j ≤ b.max.toReal j := by
    have key : ∀ {x y : S}, IsFinite x → IsFinite y → ((x ≤? y) = true) → real x ≤ real y := fun hx hy h => by
      have := (le_iff.1 h).2.2
      rwa [hx.val, hy.val, EReal.coe_le_coe_iff] at this
    intro j
    fin_cases j
    · exact key hmin.1 hmax.1 wb'.1
    · exact key hmin.2 hmax.2 wb'.2
  have hΔ : ∀ j, 0 ≤ b.max.toReal j - b.min.toReal j := fun j => sub_nonneg.2 (hle j)
  have hδ : ∀ j, |b.diagonal.toReal j - (b.max.toReal j - b.min.toReal j)| ≤ uro S * (b.max.toReal j - b.min.toReal j) := by
    intro j
    have e : |b.diagonal.toReal j - (b.max.toReal j - b.min.toReal j)| ≤ uro S * |b.max.toReal j - b.min.toReal j| := by
      fin_cases j
      · exact err_sub fdiag.1
      · exact err_sub fdiag.2
    rwa [abs_of_nonneg (hΔ j)] at e
  have near : ∀ i, |(Transform.transform t b.min : Point2 S).toReal i - image t.forward.toReal b.min.toReal i| ≤
        boxSlack2 S t.forward.toReal b.min.toReal b.max.toReal i ∧
      |((Transform.transform t b.min : Point2 S) + (Transform.transform t b.diagonal : Vector2 S)).toReal i -
        image t.forward.toReal b.max.toReal i| ≤ boxSlack2 S t.forward.toReal b.min.toReal b.max.toReal i := by
    have hu := uro_pos (S := S)
    have ht0 := tiny_pos (S := S)
    intro i
    have h1 := eP i
    have h2 := diag_image hΔ hδ (eV i)
    set a := ∑ j : Fin 2, |t.forward.toReal i.castSucc j.castSucc * b.min.toReal j| + |t.forward.toReal i.castSucc 2| with ha
    set c := ∑ j : Fin 2, |t.forward.toReal i.castSucc j.castSucc| * (b.max.toReal j - b.min.toReal j) with hc
    have c0 : 0 ≤ c := Finset.sum_nonneg fun j _ => mul_nonneg (abs_nonneg _) (hΔ j)
    have a0 : 0 ≤ a := _root_.add_nonneg (Finset.sum_nonneg fun j _ => abs_nonneg _) (abs_nonneg _)
    have hac : boxScale t.forward.toReal b.min.toReal b.max.toReal i = a + c := by
      rw [ha, hc]
      unfold boxScale
      simp only [mul_add, Finset.sum_add_distrib, abs_mul]
      simp only [Fin.last]
      ring_nf
      rfl
    have hX : |image t.forward.toReal b.min.toReal i| ≤ a :=
      (abs_add_le _ _).trans (add_le_add_left (Finset.abs_sum_le_sum_abs _ _) _)
    have hY : |∑ j : Fin 2, t.forward.toReal i.castSucc j.castSucc * (b.max.toReal j - b.min.toReal j)| ≤ c := by
      refine (Finset.abs_sum_le_sum_abs _ _).trans (le_of_eq (Finset.sum_congr rfl fun j _ => ?_))
      rw [abs_mul, abs_of_nonneg (hΔ j)]
    have hXY : image t.forward.toReal b.max.toReal i = image t.forward.toReal b.min.toReal i +
        ∑ j : Fin 2, t.forward.toReal i.castSucc j.castSucc * (b.max.toReal j - b.min.toReal j) := by
      unfold image; simp only [mul_sub, Finset.sum_sub_distrib]; ring
    have fin_i : ∀ i : Fin 2, |((Transform.transform t b.min : Point2 S) + (Transform.transform t b.diagonal : Vector2 S)).toReal i -
        (image t.forward.toReal b.min.toReal i + ∑ j : Fin 2, t.forward.toReal i.castSucc j.castSucc * (b.max.toReal j - b.min.toReal j))| ≤
        ((1 + uro S) ^ (3 + 1) - 1) * ((∑ j : Fin 2, |t.forward.toReal i.castSucc j.castSucc * b.min.toReal j| + |t.forward.toReal i.castSucc 2|) + ∑ j : Fin 2, |t.forward.toReal i.castSucc j.castSucc| * (b.max.toReal j - b.min.toReal j)) + (1 + uro S) * ((1 + uro S) ^ 2 * (2 * tiny S) + (1 + uro S) * (2 * tiny S)) := by
      have bX : ∀ i : Fin 2, |image t.forward.toReal b.min.toReal i| ≤ ∑ j : Fin 2, |t.forward.toReal i.castSucc j.castSucc * b.min.toReal j| + |t.forward.toReal i.castSucc 2| := fun i =>
        (abs_add_le _ _).trans (add_le_add_left (Finset.abs_sum_le_sum_abs _ _) _)
      have bY : ∀ i : Fin 2, |∑ j : Fin 2, t.forward.toReal i.castSucc j.castSucc * (b.max.toReal j - b.min.toReal j)| ≤ ∑ j : Fin 2, |t.forward.toReal i.castSucc j.castSucc| * (b.max.toReal j - b.min.toReal j) := fun i => by
        refine (Finset.abs_sum_le_sum_abs _ _).trans (le_of_eq (Finset.sum_congr rfl fun j _ => ?_))
        rw [abs_mul, abs_of_nonneg (hΔ j)]
      intro i
      fin_cases i
      · exact far_corner (k := 3) hsum.1 (bX 0) (bY 0) (eP 0) (diag_image hΔ hδ (eV 0))
      · exact far_corner (k := 3) hsum.2 (bX 1) (bY 1) (eP 1) (diag_image hΔ hδ (eV 1))
    have h3 := fin_i i
    rw [← hXY, ← ha, ← hc] at h3
    unfold boxSlack2
    rw [hac]
    have p1 : (1 : ℝ) ≤ 1 + uro S := by linarith
    have m1 : (1 + uro S) ^ 3 ≤ (1 + uro S) ^ 4 := pow_le_pow_right₀ p1 (by norm_num)
    have g0 : 1 ≤ (1 + uro S) ^ 4 := one_le_pow₀ p1
    have z1 : (1 + uro S) * ((1 + uro S) ^ 2 * (2 * tiny S) + (1 + uro S) * (2 * tiny S)) ≤ 4 * (1 + uro S) ^ 3 * tiny S := by
      have : (1 + uro S) ^ 1 ≤ (1 + uro S) ^ 2 := pow_le_pow_right₀ p1 (by norm_num)
      have e : (1 + uro S) * ((1 + uro S) ^ 2 * (2 * tiny S) + (1 + uro S) * (2 * tiny S)) = (1 + uro S) * 2 * tiny S * ((1 + uro S) ^ 2 + (1 + uro S) ^ 1) := by ring
      have e' : 4 * (1 + uro S) ^ 3 * tiny S = (1 + uro S) * 2 * tiny S * ((1 + uro S) ^ 2 + (1 + uro S) ^ 2) := by ring
      rw [e, e']
      exact mul_le_mul_of_nonneg_left (by linarith) (by positivity)
    have z2 : (1 + uro S) ^ 2 * (2 * tiny S) ≤ (1 + uro S) * ((1 + uro S) ^ 2 * (2 * tiny S) + (1 + uro S) * (2 * tiny S)) := by
      have : (1 + uro S) ^ 2 * (2 * tiny S) * 1 ≤ (1 + uro S) ^ 2 * (2 * tiny S) * (1 + uro S) := mul_le_mul_of_nonneg_left p1 (by positivity)
      have : 0 ≤ (1 + uro S) * ((1 + uro S) * (2 * tiny S)) := by positivity
      linarith
    constructor
    · refine le_trans h1 ?_
      have q1 : ((1 + uro S) ^ 3 - 1) * a ≤ ((1 + uro S) ^ 4 - 1) * a := mul_le_mul_of_nonneg_right (by linarith) a0
      have q2 : 0 ≤ ((1 + uro S) ^ 4 - 1) * c := mul_nonneg (by linarith) c0
      rw [mul_add]
      linarith
    · refine le_trans h3 ?_
      have : (3 : ℕ) + 1 = 4 := rfl
      rw [this]
      linarith
  have hbeq := C56_float_span2 t b (Point2.noNaN.2 ⟨ho'.1.not_nan, ho'.2.not_nan⟩) (Point2.noNaN.2 ⟨hsum.1.not_nan, hsum.2.not_nan⟩)
  rw [BoundingBox2.beq_iff, Point2.beq_iff, Point2.beq_iff] at hbeq
  obtain ⟨⟨lx, ly⟩, ⟨rx, ry⟩⟩ := hbeq
  obtain ⟨⟨fn0, en0⟩, fx0, ex0⟩ := finite_minmax ho'.1 hsum.1
  obtain ⟨gn0, dn0⟩ := finite_of_beq lx fn0
  obtain ⟨gx0, dx0⟩ := finite_of_beq rx fx0
  obtain ⟨⟨fn1, en1⟩, fx1, ex1⟩ := finite_minmax ho'.2 hsum.2
  obtain ⟨gn1, dn1⟩ := finite_of_beq ly fn1
  obtain ⟨gx1, dx1⟩ := finite_of_beq ry fx1
  refine ⟨BoundingBox2.allFinite.2 ⟨Point2.allFinite.2 ⟨gn0, gn1⟩, Point2.allFinite.2 ⟨gx0, gx1⟩⟩, fun i => ?_⟩
  have hi := abs_min_sub (near i).1 (near i).2
  have e1 : (Transform.transform t b : BoundingBox2 S).min.toReal i = min ((Transform.transform t b.min : Point2 S).toReal i)
      (((Transform.transform t b.min : Point2 S) + (Transform.transform t b.diagonal : Vector2 S)).toReal i) := by
    fin_cases i
    · exact dn0.trans en0
    · exact dn1.trans en1
  have e2 : (Transform.transform t b : BoundingBox2 S).max.toReal i = max ((Transform.transform t b.min : Point2 S).toReal i)
      (((Transform.transform t b.min : Point2 S) + (Transform.transform t b.diagonal : Vector2 S)).toReal i) := by
    fin_cases i
    · exact dx0.trans ex0
    · exact dx1.trans ex1
  rw [e1, e2]
  exact hi

/-- **C77** (2D): if no row of the linear part has mixed signs, the exact image of every real point of the box lies in the
transformed box enlarged by `boxSlack2`. -/
theorem C77_contains2 (t : Transform2 S) (b : BoundingBox2 S) (ht : AllFinite t.forward) (hb : AllFinite b)
    (haff : t.forward.toReal 2 = ![0, 0, 1]) (wb : LeAll b.min b.max)
    (ho : AllFinite (Transform.transform t b.min : Point2 S))
    (hod : AllFinite ((Transform.transform t b.min : Point2 S) + (Transform.transform t b.diagonal : Vector2 S)))
    (hsign : OneSigned t.forward.toReal) (x : Fin 2 → ℝ) (hx : InBox b.min.toReal b.max.toReal x) (i : Fin 2) :
    (Transform.transform t b : BoundingBox2 S).min.toReal i - boxSlack2 S t.forward.toReal b.min.toReal b.max.toReal i ≤
      image t.forward.toReal x i ∧
    image t.forward.toReal x i ≤
      (Transform.transform t b : BoundingBox2 S).max.toReal i + boxSlack2 S t.forward.toReal b.min.toReal b.max.toReal i := by
  obtain ⟨-, h⟩ := C77_corners2 t b ht hb haff wb ho hod
  obtain ⟨h1, h2⟩ := image_between hsign hx i
  have h3 := abs_le.1 (h i).1
  have h4 := abs_le.1 (h i).2
  constructor <;> linarith

/-- **C77** (2D): and the computed image of every point of the box lies in the transformed box enlarged by twice that. -/
theorem C77_contains_computed2 (t : Transform2 S) (b : BoundingBox2 S) (ht : AllFinite t.forward) (hb : AllFinite b)
    (haff : t.forward.toReal 2 = ![0, 0, 1]) (wb : LeAll b.min b.max)
    (ho : AllFinite (Transform.transform t b.min : Point2 S))
    (hod : AllFinite ((Transform.transform t b.min : Point2 S) + (Transform.transform t b.diagonal : Vector2 S)))
    (hsign : OneSigned t.forward.toReal) (p : Point2 S) (hp : AllFinite p) (hin : b.isInside p = true)
    (htp : AllFinite (Transform.transform t p : Point2 S)) (i : Fin 2) :
    (Transform.transform t b : BoundingBox2 S).min.toReal i - 2 * boxSlack2 S t.forward.toReal b.min.toReal b.max.toReal i ≤
      (Transform.transform t p : Point2 S).toReal i ∧
    (Transform.transform t p : Point2 S).toReal i ≤
      (Transform.transform t b : BoundingBox2 S).max.toReal i + 2 * boxSlack2 S t.forward.toReal b.min.toReal b.max.toReal i := by
  have hu := uro_pos (S := S)
  have ht0 := tiny_pos (S := S)
  have p1 : (1 : ℝ) ≤ 1 + uro S := by linarith
  have hx : InBox b.min.toReal b.max.toReal p.toReal := by
    have hb' := hb
    rw [BoundingBox2.allFinite, Point2.allFinite, Point2.allFinite] at hb'
    rw [isInside2_iff] at hin
    have hp' := hp
    rw [Point2.allFinite] at hp'
    have key : ∀ {x y : S}, IsFinite x → IsFinite y → ((x ≤? y) = true) → real x ≤ real y := fun hx hy h => by
      have := (le_iff.1 h).2.2
      rwa [hx.val, hy.val, EReal.coe_le_coe_iff] at this
    intro j
    fin_cases j
    · exact ⟨key hb'.1.1 hp'.1 hin.1.1, key hp'.1 hb'.2.1 hin.1.2⟩
    · exact ⟨key hb'.1.2 hp'.2 hin.2.1, key hp'.2 hb'.2.2 hin.2.2⟩
  obtain ⟨h1, h2⟩ := C77_contains2 t b ht hb haff wb ho hod hsign _ hx i
  have h3 := C63_point2 t p ht hp haff htp i
  have g : 0 ≤ (1 + uro S) ^ 3 - 1 := by have := one_le_pow₀ (n := 3) p1; linarith
  have m1 : (1 + uro S) ^ 3 ≤ (1 + uro S) ^ 4 := pow_le_pow_right₀ p1 (by norm_num)
  have hs : ∑ j : Fin 2, |t.forward.toReal i.castSucc j.castSucc * p.toReal j| + |t.forward.toReal i.castSucc 2| ≤
      boxScale t.forward.toReal b.min.toReal b.max.toReal i := by
    refine add_le_add_left (Finset.sum_le_sum fun j _ => ?_) _
    rw [abs_mul]
    exact mul_le_mul_of_nonneg_left (abs_le_of_inBox hx j) (abs_nonneg _)
  have s0 : 0 ≤ boxScale t.forward.toReal b.min.toReal b.max.toReal i :=
    le_trans (_root_.add_nonneg (Finset.sum_nonneg fun j _ => abs_nonneg _) (abs_nonneg _)) hs
  have h4 : |(Transform.transform t p : Point2 S).toReal i - image t.forward.toReal p.toReal i| ≤
      boxSlack2 S t.forward.toReal b.min.toReal b.max.toReal i := by
    refine le_trans h3 ?_
    unfold boxSlack2
    refine add_le_add (mul_le_mul (by linarith) hs (_root_.add_nonneg (Finset.sum_nonneg fun j _ => abs_nonneg _) (abs_nonneg _)) (by linarith)) ?_
    have : (1 + uro S) ^ 2 ≤ (1 + uro S) ^ 3 := pow_le_pow_right₀ p1 (by norm_num)
    have q := mul_le_mul_of_nonneg_right this (show 0 ≤ 2 * tiny S by positivity)
    have q' : 0 ≤ (1 + uro S) ^ 3 * (2 * tiny S) := by positivity
    calc (1 + uro S) ^ 2 * (2 * tiny S) ≤ (1 + uro S) ^ 3 * (2 * tiny S) + (1 + uro S) ^ 3 * (2 * tiny S) := by linarith
      _ = 4 * (1 + uro S) ^ 3 * tiny S := by ring
  have h5 := abs_le.1 h4
  constructor <;> linarith

/-! ### 3D -/

/-- **C77** (3D): the corners of a transformed box are within `boxSlack3` of the exact images of the corners, ordered. -/
theorem C77_corners3 (t : Transform3 S) (b : BoundingBox3 S) (ht : AllFinite t.forward) (hb : AllFinite b)
    (haff : t.forward.toReal 3 = ![0, 0, 0, 1]) (wb : LeAll b.min b.max)
    (ho : AllFinite (Transform.transform t b.min : Point3 S))
    (hod : AllFinite ((Transform.transform t b.min : Point3 S) + (Transform.transform t b.diagonal : Vector3 S))) :
    AllFinite (Transform.transform t b : BoundingBox3 S) ∧ ∀ i,
    |(Transform.transform t b : BoundingBox3 S).min.toReal i -
        min (image t.forward.toReal b.min.toReal i) (image t.forward.toReal b.max.toReal i)| ≤
      boxSlack3 S t.forward.toReal b.min.toReal b.max.toReal i ∧
    |(Transform.transform t b : BoundingBox3 S).max.toReal i -
        max (image t.forward.toReal b.min.toReal i) (image t.forward.toReal b.max.toReal i)| ≤
      boxSlack3 S t.forward.toReal b.min.toReal b.max.toReal i := by
  have hb' := hb
  rw [BoundingBox3.allFinite] at hb'
  obtain ⟨hmin, hmax⟩ := hb'
  have hsum := hod
  rw [Point3.allFinite] at hsum
  have ho' := ho
  rw [Point3.allFinite] at ho'
  have hd : AllFinite (Transform.transform t b.diagonal : Vector3 S) := by
    rw [Vector3.allFinite]
    exact ⟨(finite_of_add hsum.1).2, (finite_of_add hsum.2.1).2, (finite_of_add hsum.2.2).2⟩
  have eP := C63_point3 t b.min ht hmin haff ho
  have eV := C63_vector3 t b.diagonal hd
  have hdv := hd
  rw [Vector3.allFinite] at hd
  have fdiag : IsFinite b.diagonal.x ∧ IsFinite b.diagonal.y ∧ IsFinite b.diagonal.z := ⟨(finite_of_mul (finite_of_add (finite_of_add hd.1).1).1).2, (finite_of_mul (finite_of_add (finite_of_add hd.1).1).2).2, (finite_of_mul (finite_of_add hd.1).2).2⟩
  have wb' := wb
  rw [Point3.leAll] at wb'
  rw [Point3.allFinite] at hmin hmax
  have hle : ∀ j, b.min.toReal j ≤ b.max.toReal j := by
    have key : ∀ {x y : S}, IsFinite x → IsFinite y → ((x ≤? y) = true) → real x ≤ real y := fun hx hy h => by
      have := (le_iff.1 h).2.2
      rwa [hx.val, hy.val, EReal.coe_le_coe_iff] at this
    intro j
    fin_cases j
    · exact key hmin.1 hmax.1 wb'.1
    · exact key hmin.2.1 hmax.2.1 wb'.2.1
    · exact key hmin.2.2 hmax.2.2 wb'.2.2
  have hΔ : ∀ j, 0 ≤ b.max.toReal j - b.min.toReal j := fun j => sub_nonneg.2 (hle j)
  have hδ : ∀ j, |b.diagonal.toReal j - (b.max.toReal j - b.min.toReal j)| ≤ uro S * (b.max.toReal j - b.min.toReal j) := by
    intro j
    have e : |b.diagonal.toReal j - (b.max.toReal j - b.min.toReal j)| ≤ uro S * |b.max.toReal j - b.min.toReal j| := by
      fin_cases j
      · exact err_sub fdiag.1
      · exact err_sub fdiag.2.1
      · exact err_sub fdiag.2.2
    rwa [abs_of_nonneg (hΔ j)] at e
  have near : ∀ i, |(Transform.transform t b.min : Point3 S).toReal i - image t.forward.toReal b.min.toReal i| ≤
        boxSlack3 S t.forward.toReal b.min.toReal b.max.toReal i ∧
      |((Transform.transform t b.min : Point3 S) + (Transform.transform t b.diagonal : Vector3 S)).toReal i -
        image t.forward.toReal b.max.toReal i| ≤ boxSlack3 S t.forward.toReal b.min.toReal b.max.toReal i := by
    have hu := uro_pos (S := S)
    have ht0 := tiny_pos (S := S)
    intro i
    have h1 := eP i
    have h2 := diag_image hΔ hδ (eV i)
    set a := ∑ j : Fin 3, |t.forward.toReal i.castSucc j.castSucc * b.min.toReal j| + |t.forward.toReal i.castSucc 3| with ha
    set c := ∑ j : Fin 3, |t.forward.toReal i.castSucc j.castSucc| * (b.max.toReal j - b.min.toReal j) with hc
    have c0 : 0 ≤ c := Finset.sum_nonneg fun j _ => mul_nonneg (abs_nonneg _) (hΔ j)
    have a0 : 0 ≤ a := _root_.add_nonneg (Finset.sum_nonneg fun j _ => abs_nonneg _) (abs_nonneg _)
    have hac : boxScale t.forward.toReal b.min.toReal b.max.toReal i = a + c := by
      rw [ha, hc]
      unfold boxScale
      simp only [mul_add, Finset.sum_add_distrib, abs_mul]
      simp only [Fin.last]
      ring_nf
      rfl
    have hX : |image t.forward.toReal b.min.toReal i| ≤ a :=
      (abs_add_le _ _).trans (add_le_add_left (Finset.abs_sum_le_sum_abs _ _) _)
    have hY : |∑ j : Fin 3, t.forward.toReal i.castSucc j.castSucc * (b.max.toReal j - b.min.toReal j)| ≤ c := by
      refine (Finset.abs_sum_le_sum_abs _ _).trans (le_of_eq (Finset.sum_congr rfl fun j _ => ?_))
      rw [abs_mul, abs_of_nonneg (hΔ j)]
    have hXY : image t.forward.toReal b.max.toReal i = image t.forward.toReal b.min.toReal i +
        ∑ j : Fin 3, t.forward.toReal i.castSucc j.castSucc * (b.max.toReal j - b.min.toReal j) := by
      unfold image; simp only [mul_sub, Finset.sum_sub_distrib]; ring
    have fin_i : ∀ i : Fin 3, |((Transform.transform t b.min : Point3 S) + (Transform.transform t b.diagonal : Vector3 S)).toReal i -
        (image t.forward.toReal b.min.toReal i + ∑ j : Fin 3, t.forward.toReal i.castSucc j.castSucc * (b.max.toReal j - b.min.toReal j))| ≤
        ((1 + uro S) ^ (4 + 1) - 1) * ((∑ j : Fin 3, |t.forward.toReal i.castSucc j.castSucc * b.min.toReal j| + |t.forward.toReal i.castSucc 3|) + ∑ j : Fin 3, |t.forward.toReal i.castSucc j.castSucc| * (b.max.toReal j - b.min.toReal j)) + (1 + uro S) * ((1 + uro S) ^ 3 * (3 * tiny S) + (1 + uro S) ^ 2 * (3 * tiny S)) := by
      have bX : ∀ i : Fin 3, |image t.forward.toReal b.min.toReal i| ≤ ∑ j : Fin 3, |t.forward.toReal i.castSucc j.castSucc * b.min.toReal j| + |t.forward.toReal i.castSucc 3| := fun i =>
        (abs_add_le _ _).trans (add_le_add_left (Finset.abs_sum_le_sum_abs _ _) _)
      have bY : ∀ i : Fin 3, |∑ j : Fin 3, t.forward.toReal i.castSucc j.castSucc * (b.max.toReal j - b.min.toReal j)| ≤ ∑ j : Fin 3, |t.forward.toReal i.castSucc j.castSucc| * (b.max.toReal j - b.min.toReal j) := fun i => by
        refine (Finset.abs_sum_le_sum_abs _ _).trans (le_of_eq (Finset.sum_congr rfl fun j _ => ?_))
        rw [abs_mul, abs_of_nonneg (hΔ j)]
      intro i
      fin_cases i
      · exact far_corner (k := 4) hsum.1 (bX 0) (bY 0) (eP 0) (diag_image hΔ hδ (eV 0))
      · exact far_corner (k := 4) hsum.2.1 (bX 1) (bY 1) (eP 1) (diag_image hΔ hδ (eV 1))
      · exact far_corner (k := 4) hsum.2.2 (bX 2) (bY 2) (eP 2) (diag_image hΔ hδ (eV 2))
    have h3 := fin_i i
    rw [← hXY, ← ha, ← hc] at h3
    unfold boxSlack3
    rw [hac]
    have p1 : (1 : ℝ) ≤ 1 + uro S := by linarith
    have m1 : (1 + uro S) ^ 4 ≤ (1 + uro S) ^ 5 := pow_le_pow_right₀ p1 (by norm_num)
    have g0 : 1 ≤ (1 + uro S) ^ 5 := one_le_pow₀ p1
    have z1 : (1 + uro S) * ((1 + uro S) ^ 3 * (3 * tiny S) + (1 + uro S) ^ 2 * (3 * tiny S)) ≤ 6 * (1 + uro S) ^ 4 * tiny S := by
      have : (1 + uro S) ^ 2 ≤ (1 + uro S) ^ 3 := pow_le_pow_right₀ p1 (by norm_num)
      have e : (1 + uro S) * ((1 + uro S) ^ 3 * (3 * tiny S) + (1 + uro S) ^ 2 * (3 * tiny S)) = (1 + uro S) * 3 * tiny S * ((1 + uro S) ^ 3 + (1 + uro S) ^ 2) := by ring
      have e' : 6 * (1 + uro S) ^ 4 * tiny S = (1 + uro S) * 3 * tiny S * ((1 + uro S) ^ 3 + (1 + uro S) ^ 3) := by ring
      rw [e, e']
      exact mul_le_mul_of_nonneg_left (by linarith) (by positivity)
    have z2 : (1 + uro S) ^ 3 * (3 * tiny S) ≤ (1 + uro S) * ((1 + uro S) ^ 3 * (3 * tiny S) + (1 + uro S) ^ 2 * (3 * tiny S)) := by
      have : (1 + uro S) ^ 3 * (3 * tiny S) * 1 ≤ (1 + uro S) ^ 3 * (3 * tiny S) * (1 + uro S) := mul_le_mul_of_nonneg_left p1 (by positivity)
      have : 0 ≤ (1 + uro S) * ((1 + uro S) ^ 2 * (3 * tiny S)) := by positivity
      linarith
    constructor
    · refine le_trans h1 ?_
      have q1 : ((1 + uro S) ^ 4 - 1) * a ≤ ((1 + uro S) ^ 5 - 1) * a := mul_le_mul_of_nonneg_right (by linarith) a0
      have q2 : 0 ≤ ((1 + uro S) ^ 5 - 1) * c := mul_nonneg (by linarith) c0
      rw [mul_add]
      linarith
    · refine le_trans h3 ?_
      have : (4 : ℕ) + 1 = 5 := rfl
      rw [this]
      linarith
  have hbeq := C56_float_span3 t b (Point3.noNaN.2 ⟨ho'.1.not_nan, ho'.2.1.not_nan, ho'.2.2.not_nan⟩) (Point3.noNaN.2 ⟨hsum.1.not_nan, hsum.2.1.not_nan, hsum.2.2.not_nan⟩)
  rw [BoundingBox3.beq_iff, Point3.beq_iff, Point3.beq_iff] at hbeq
  obtain ⟨⟨lx, ly, lz⟩, ⟨rx, ry, rz⟩⟩ := hbeq
  obtain ⟨⟨fn0, en0⟩, fx0, ex0⟩ := finite_minmax ho'.1 hsum.1
  obtain ⟨gn0, dn0⟩ := finite_of_beq lx fn0
  obtain ⟨gx0, dx0⟩ := finite_of_beq rx fx0
  obtain ⟨⟨fn1, en1⟩, fx1, ex1⟩ := finite_minmax ho'.2.1 hsum.2.1
  obtain ⟨gn1, dn1⟩ := finite_of_beq ly fn1
  obtain ⟨gx1, dx1⟩ := finite_of_beq ry fx1
  obtain ⟨⟨fn2, en2⟩, fx2, ex2⟩ := finite_minmax ho'.2.2 hsum.2.2
  obtain ⟨gn2, dn2⟩ := finite_of_beq lz fn2
  obtain ⟨gx2, dx2⟩ := finite_of_beq rz fx2
  refine ⟨BoundingBox3.allFinite.2 ⟨Point3.allFinite.2 ⟨gn0, gn1, gn2⟩, Point3.allFinite.2 ⟨gx0, gx1, gx2⟩⟩, fun i => ?_⟩
  have hi := abs_min_sub (near i).1 (near i).2
  have e1 : (Transform.transform t b : BoundingBox3 S).min.toReal i = min ((Transform.transform t b.min : Point3 S).toReal i)
      (((Transform.transform t b.min : Point3 S) + (Transform.transform t b.diagonal : Vector3 S)).toReal i) := by
    fin_cases i
    · exact dn0.trans en0
    · exact dn1.trans en1
    · exact dn2.trans en2
  have e2 : (Transform.transform t b : BoundingBox3 S).max.toReal i = max ((Transform.transform t b.min : Point3 S).toReal i)
      (((Transform.transform t b.min : Point3 S) + (Transform.transform t b.diagonal : Vector3 S)).toReal i) := by
    fin_cases i
    · exact dx0.trans ex0
    · exact dx1.trans ex1
    · exact dx2.trans ex2
  rw [e1, e2]
  exact hi

/-- **C77** (3D): if no row of the linear part has mixed signs, the exact image of every real point of the box lies in the
transformed box enlarged by `boxSlack3`. -/
theorem C77_contains3 (t : Transform3 S) (b : BoundingBox3 S) (ht : AllFinite t.forward) (hb : AllFinite b)
    (haff : t.forward.toReal 3 = ![0, 0, 0, 1]) (wb : LeAll b.min b.max)
    (ho : AllFinite (Transform.transform t b.min : Point3 S))
    (hod : AllFinite ((Transform.transform t b.min : Point3 S) + (Transform.transform t b.diagonal : Vector3 S)))
    (hsign : OneSigned t.forward.toReal) (x : Fin 3 → ℝ) (hx : InBox b.min.toReal b.max.toReal x) (i : Fin 3) :
    (Transform.transform t b : BoundingBox3 S).min.toReal i - boxSlack3 S t.forward.toReal b.min.toReal b.max.toReal i ≤
      image t.forward.toReal x i ∧
    image t.forward.toReal x i ≤
      (Transform.transform t b : BoundingBox3 S).max.toReal i + boxSlack3 S t.forward.toReal b.min.toReal b.max.toReal i := by
  obtain ⟨-, h⟩ := C77_corners3 t b ht hb haff wb ho hod
  obtain ⟨h1, h2⟩ := image_between hsign hx i
  have h3 := abs_le.1 (h i).1
  have h4 := abs_le.1 (h i).2
  constructor <;> linarith

/-- **C77** (3D): and the computed image of every point of the box lies in the transformed box enlarged by twice that. -/
theorem C77_contains_computed3 (t : Transform3 S) (b : BoundingBox3 S) (ht : AllFinite t.forward) (hb : AllFinite b)
    (haff : t.forward.toReal 3 = ![0, 0, 0, 1]) (wb : LeAll b.min b.max)
    (ho : AllFinite (Transform.transform t b.min : Point3 S))
    (hod : AllFinite ((Transform.transform t b.min : Point3 S) + (Transform.transform t b.diagonal : Vector3 S)))
    (hsign : OneSigned t.forward.toReal) (p : Point3 S) (hp : AllFinite p) (hin : b.isInside p = true)
    (htp : AllFinite (Transform.transform t p : Point3 S)) (i : Fin 3) :
    (Transform.transform t b : BoundingBox3 S).min.toReal i - 2 * boxSlack3 S t.forward.toReal b.min.toReal b.max.toReal i ≤
      (Transform.transform t p : Point3 S).toReal i ∧
    (Transform.transform t p : Point3 S).toReal i ≤
      (Transform.transform t b : BoundingBox3 S).max.toReal i + 2 * boxSlack3 S t.forward.toReal b.min.toReal b.max.toReal i := by
  have hu := uro_pos (S := S)
  have ht0 := tiny_pos (S := S)
  have p1 : (1 : ℝ) ≤ 1 + uro S := by linarith
  have hx : InBox b.min.toReal b.max.toReal p.toReal := by
    have hb' := hb
    rw [BoundingBox3.allFinite, Point3.allFinite, Point3.allFinite] at hb'
    rw [isInside3_iff] at hin
    have hp' := hp
    rw [Point3.allFinite] at hp'
    have key : ∀ {x y : S}, IsFinite x → IsFinite y → ((x ≤? y) = true) → real x ≤ real y := fun hx hy h => by
      have := (le_iff.1 h).2.2
      rwa [hx.val, hy.val, EReal.coe_le_coe_iff] at this
    intro j
    fin_cases j
    · exact ⟨key hb'.1.1 hp'.1 hin.1.1, key hp'.1 hb'.2.1 hin.1.2⟩
    · exact ⟨key hb'.1.2.1 hp'.2.1 hin.2.1.1, key hp'.2.1 hb'.2.2.1 hin.2.1.2⟩
    · exact ⟨key hb'.1.2.2 hp'.2.2 hin.2.2.1, key hp'.2.2 hb'.2.2.2 hin.2.2.2⟩
  obtain ⟨h1, h2⟩ := C77_contains3 t b ht hb haff wb ho hod hsign _ hx i
  have h3 := C63_point3 t p ht hp haff htp i
  have g : 0 ≤ (1 + uro S) ^ 4 - 1 := by have := one_le_pow₀ (n := 4) p1; linarith
  have m1 : (1 + uro S) ^ 4 ≤ (1 + uro S) ^ 5 := pow_le_pow_right₀ p1 (by norm_num)
  have hs : ∑ j : Fin 3, |t.forward.toReal i.castSucc j.castSucc * p.toReal j| + |t.forward.toReal i.castSucc 3| ≤
      boxScale t.forward.toReal b.min.toReal b.max.toReal i := by
    refine add_le_add_left (Finset.sum_le_sum fun j _ => ?_) _
    rw [abs_mul]
    exact mul_le_mul_of_nonneg_left (abs_le_of_inBox hx j) (abs_nonneg _)
  have s0 : 0 ≤ boxScale t.forward.toReal b.min.toReal b.max.toReal i :=
    le_trans (_root_.add_nonneg (Finset.sum_nonneg fun j _ => abs_nonneg _) (abs_nonneg _)) hs
  have h4 : |(Transform.transform t p : Point3 S).toReal i - image t.forward.toReal p.toReal i| ≤
      boxSlack3 S t.forward.toReal b.min.toReal b.max.toReal i := by
    refine le_trans h3 ?_
    unfold boxSlack3
    refine add_le_add (mul_le_mul (by linarith) hs (_root_.add_nonneg (Finset.sum_nonneg fun j _ => abs_nonneg _) (abs_nonneg _)) (by linarith)) ?_
    have : (1 + uro S) ^ 3 ≤ (1 + uro S) ^ 4 := pow_le_pow_right₀ p1 (by norm_num)
    have q := mul_le_mul_of_nonneg_right this (show 0 ≤ 3 * tiny S by positivity)
    have q' : 0 ≤ (1 + uro S) ^ 4 * (3 * tiny S) := by positivity
    calc (1 + uro S) ^ 3 * (3 * tiny S) ≤ (1 + uro S) ^ 4 * (3 * tiny S) + (1 + uro S) ^ 4 * (3 * tiny S) := by linarith
      _ = 6 * (1 + uro S) ^ 4 * tiny S := by ring
  have h5 := abs_le.1 h4
  constructor <;> linarith

end VecMath

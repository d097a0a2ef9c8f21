import Verif.Props.RealArea
import Verif.Props.FloatPath
/-! # C124: areas of polygons in floating point -/

open Classical

namespace VecMath
open Scalar IEEE

section
variable {S : Type} [Scalar S] [IEEE S] [Binary S]
/-- `y` is a computed value of `x`, a number of magnitude at most `m`: it is off by `k` roundings of that magnitude and by `s`. -/
structure Off (S : Type) [Scalar S] [IEEE S] [Binary S] (k : ℕ) (s y x m : ℝ) : Prop where
  mag : |x| ≤ m
  err : |y - x| ≤ ((1 + uro S) ^ k - 1) * m + s
theorem Off.sub {a b : S} (h : IsFinite (a - b)) : Off S 1 0 (real (a - b)) (real a - real b) |real a - real b| :=
  ⟨le_rfl, by have := err_sub h; linarith⟩
theorem Off.neg {k : ℕ} {s y x m : ℝ} (h : Off S k s y x m) : Off S k s (-y) (-x) m :=
  ⟨by rw [abs_neg]; exact h.mag, by rw [← abs_neg, show -(-y - -x) = y - x by ring]; exact h.err⟩
theorem pow_uro_le {k l : ℕ} (h : k ≤ l) : (1 + uro S) ^ k ≤ (1 + uro S) ^ l :=
  pow_le_pow_right₀ (by linarith [uro_pos (S := S)]) h
theorem one_le_pow_uro (k : ℕ) : 1 ≤ (1 + uro S) ^ k := one_le_pow₀ (by linarith [uro_pos (S := S)])
theorem Off.mono {k l : ℕ} {s t y x m : ℝ} (h : Off S k s y x m) (hk : k ≤ l) (hs : s ≤ t) : Off S l t y x m := by
  refine ⟨h.mag, h.err.trans ?_⟩
  have m0 : 0 ≤ m := (abs_nonneg x).trans h.mag
  have := mul_le_mul_of_nonneg_right (pow_uro_le (S := S) hk) m0
  linarith
theorem Off.mul {a b : S} {x y m n : ℝ} (h : IsFinite (a * b)) (ha : Off S 1 0 (real a) x m) (hb : Off S 1 0 (real b) y n) :
    Off S 3 (tiny S) (real (a * b)) (x * y) (m * n) := by
  have u0 := uro_pos (S := S)
  have m0 : 0 ≤ m := (abs_nonneg x).trans ha.mag
  have n0 : 0 ≤ n := (abs_nonneg y).trans hb.mag
  have ea := ha.err
  have eb := hb.err
  rw [pow_one, add_zero, add_sub_cancel_left] at ea eb
  have la : |real a| ≤ (1 + uro S) * m := by
    have := abs_sub_abs_le_abs_sub (real a) x
    linarith [ha.mag]
  have e1 : |real a * real b - x * y| ≤ ((1 + uro S) ^ 2 - 1) * (m * n) := by
    have t := abs_add_le (real a * (real b - y)) ((real a - x) * y)
    rw [show real a * (real b - y) + (real a - x) * y = real a * real b - x * y by ring, abs_mul, abs_mul] at t
    have p := mul_le_mul la eb (abs_nonneg _) (by positivity)
    have q := mul_le_mul ea hb.mag (abs_nonneg _) (by positivity)
    nlinarith
  have mxy : |x * y| ≤ m * n := by rw [abs_mul]; exact mul_le_mul ha.mag hb.mag (abs_nonneg _) m0
  refine ⟨mxy, ?_⟩
  have r := err_mul h
  have l : |real a * real b| ≤ (1 + uro S) ^ 2 * (m * n) := by
    have := abs_sub_abs_le_abs_sub (real a * real b) (x * y)
    linarith
  have t := abs_add_le (real (a * b) - real a * real b) (real a * real b - x * y)
  rw [sub_add_sub_cancel] at t
  have := mul_le_mul_of_nonneg_left l u0.le
  nlinarith
theorem Off.add {k : ℕ} {a b : S} {s t x y m n : ℝ} (h : IsFinite (a + b)) (ha : Off S k s (real a) x m) (hb : Off S k t (real b) y n) :
    Off S (k + 1) ((1 + uro S) * (s + t)) (real (a + b)) (x + y) (m + n) := by
  have u0 := uro_pos (S := S)
  refine ⟨(abs_add_le _ _).trans (add_le_add ha.mag hb.mag), ?_⟩
  have e := err_add_of h ha.err hb.err
  have := mul_le_mul_of_nonneg_left ((abs_add_le x y).trans (add_le_add ha.mag hb.mag)) u0.le
  rw [pow_succ]
  nlinarith
theorem Off.sub' {k : ℕ} {a b : S} {s t x y m n : ℝ} (h : IsFinite (a - b)) (ha : Off S k s (real a) x m) (hb : Off S k t (real b) y n) :
    Off S (k + 1) ((1 + uro S) * (s + t)) (real (a - b)) (x - y) (m + n) := by
  have u0 := uro_pos (S := S)
  have tri : |x - y| ≤ |x| + |y| := by have := abs_add_le x (-y); rwa [abs_neg, ← sub_eq_add_neg] at this
  refine ⟨tri.trans (add_le_add ha.mag hb.mag), ?_⟩
  have e := err_sub_of h ha.err hb.err
  have := mul_le_mul_of_nonneg_left (tri.trans (add_le_add ha.mag hb.mag)) u0.le
  rw [pow_succ]
  nlinarith
/-- The rounding error of a sum of terms of any sign. -/
theorem Off.fold {P : Type} {k : ℕ} {t : ℝ} (ht : 0 ≤ t) (d : P → P → S) (e m : P → P → ℝ)
    (hd : ∀ p q, IsFinite (d p q) → Off S k t (real (d p q)) (e p q) (m p q)) (ps : List P) (x : S) (j : ℕ) (hj : k ≤ j) (s r M : ℝ) (hs : 0 ≤ s)
    (hx : Off S j s (real x) r M) (hf : IsFinite ((legs d ps).foldl (· + ·) x)) :
    Off S (j + (ps.length - 1)) ((1 + uro S) ^ (ps.length - 1) * (s + (ps.length - 1 : ℕ) * t)) (real ((legs d ps).foldl (· + ·) x))
      (r + (legs e ps).sum) (M + (legs m ps).sum) := by
  induction ps generalizing x j s r M with
  | nil => simpa using hx
  | cons p ps ih =>
    cases ps with
    | nil => simpa using hx
    | cons q ps =>
      rw [legs_cons, List.foldl_cons] at hf ⊢
      rw [legs_cons, legs_cons, List.sum_cons, List.sum_cons]
      have f1 : IsFinite (x + d p q) := finite_of_fold _ _ hf
      have w := Off.add f1 hx ((hd p q (finite_of_add f1).2).mono hj le_rfl)
      have u0 := uro_pos (S := S)
      have := ih (x + d p q) (j + 1) (by omega) _ _ _ (by positivity) w hf
      rw [← add_assoc, ← add_assoc]
      refine this.mono (by simp only [List.length_cons]; omega) ?_
      simp only [List.length_cons, Nat.add_sub_cancel]
      rw [pow_succ, mul_assoc]
      refine mul_le_mul_of_nonneg_left ?_ (by positivity)
      push_cast
      nlinarith [mul_nonneg (mul_nonneg u0.le (Nat.cast_nonneg ps.length : (0:ℝ) ≤ _)) ht]
/-- Adding up multiples of a power of two, of any sign, with room for the sum. -/
theorem grid_fold {P : Type} {f : ℤ} {N T : ℕ} (hF : Fits S f T) (d : P → P → S) (e : P → P → ℝ) (ps : List P)
    (hd : ∀ p ∈ ps, ∀ q ∈ ps, Exactly (d p q) (e p q) ∧ OnGrid f N (e p q)) (x : S) (r : ℝ) (K : ℕ) (hx : Exactly x r) (gx : OnGrid f K r)
    (hT : K + (ps.length - 1) * N ≤ T) : Exactly ((legs d ps).foldl (· + ·) x) (r + (legs e ps).sum) := by
  induction ps generalizing x r K with
  | nil => simpa using hx
  | cons p ps ih =>
    cases ps with
    | nil => simpa using hx
    | cons q ps =>
      rw [legs_cons, List.foldl_cons, legs_cons, List.sum_cons, ← add_assoc]
      obtain ⟨a, g⟩ := hd p (by simp) q (by simp)
      simp only [List.length_cons, Nat.add_sub_cancel] at hT ih
      have g' := gx.add g
      have c : Exactly (x + d p q) (r + e p q) := by
        have := (correct_add hx.1 a.1)
        rw [hx.2, a.2] at this
        exact this.grid g' (hF.mono (by nlinarith))
      exact ih (fun p' hp q' hq => hd p' (by simp [hp]) q' (by simp [hq])) _ _ _ c g' (by nlinarith)
theorem Exactly.diff {e : ℤ} {M : ℕ} (hF : Fits S e (2 * M)) {a b : S} {x y : ℝ} (ha : Exactly a x) (gx : OnGrid e M x) (hb : Exactly b y) (gy : OnGrid e M y) :
    Exactly (a - b) (x - y) ∧ OnGrid e (2 * M) (x - y) := by
  have g := (gx.sub gy).mono (show M + M ≤ 2 * M by omega)
  have := correct_sub ha.1 hb.1
  rw [ha.2, hb.2] at this
  exact ⟨this.grid g hF, g⟩
theorem Exactly.prod {e f : ℤ} {M N : ℕ} (hF : Fits S (e + f) (M * N)) {a b : S} {x y : ℝ} (ha : Exactly a x) (gx : OnGrid e M x) (hb : Exactly b y) (gy : OnGrid f N y) :
    Exactly (a * b) (x * y) ∧ OnGrid (e + f) (M * N) (x * y) := by
  have g := gx.mul gy
  have := correct_mul ha.1 hb.1
  rw [ha.2, hb.2] at this
  exact ⟨this.grid g hF, g⟩
theorem Exactly.minus {a : S} {x : ℝ} (ha : Exactly a x) : Exactly (-a) (-x) := ⟨finite_neg.2 ha.1, by rw [IEEE.real_neg, ha.2]⟩
end

section
variable {S : Type} [Scalar S] [IEEE S]
/-- Sums that start from numbers that are equal stay equal. -/
theorem num_fold (ds : List S) {x y : S} (h : num x = num y) : num (ds.foldl (· + ·) x) = num (ds.foldl (· + ·) y) := by
  induction ds generalizing x y with
  | nil => exact h
  | cons d ds ih => exact ih (num_add_congr h rfl)
/-- A term that is zero may be left out. -/
theorem num_skip (as bs : List S) (t x : S) (h : (t == zero) = true) :
    num ((as ++ t :: bs).foldl (· + ·) x) = num ((as ++ bs).foldl (· + ·) x) := by
  rw [List.foldl_append, List.foldl_append, List.foldl_cons]
  refine num_fold bs ?_
  rw [num_add_congr rfl (num_of_beq h), num_add_zero]
end

/-! ## Dimension 2 -/
section
variable {S : Type} [Scalar S] [IEEE S] [Binary S]
theorem Vector2.turned_dot (u v : Vector2 S) : (Api.dot u.turned v : S) = -u.y * v.x + u.x * v.y := rfl
/-- The products and the rounding errors of one triangle. -/
theorem Point2.off_triangle (o a b : Point2 S) (h : IsFinite (Api.dot (Vector2.turned (a - o : Vector2 S)) (b - o : Vector2 S) : S)) :
    Off S 4 ((1 + uro S) * (2 * tiny S)) (real (Api.dot (Vector2.turned (a - o : Vector2 S)) (b - o : Vector2 S) : S))
      (perp (a.toReal - o.toReal) (b.toReal - o.toReal)) (absTerm 0 1 o.toReal a.toReal b.toReal) := by
  rw [Vector2.turned_dot] at h ⊢
  obtain ⟨h1, h2⟩ := finite_of_add h
  obtain ⟨a1, a2⟩ := finite_of_mul h1
  obtain ⟨a3, a4⟩ := finite_of_mul h2
  rw [finite_neg] at a1
  have m1 := Off.mul h1 (by have := (Off.sub a1).neg; rwa [← IEEE.real_neg] at this) (Off.sub a2)
  have m2 := Off.mul h2 (Off.sub a3) (Off.sub a4)
  have := Off.add h m1 m2
  have e1 : perp (a.toReal - o.toReal) (b.toReal - o.toReal)
      = -(real a.y - real o.y) * (real b.x - real o.x) + (real a.x - real o.x) * (real b.y - real o.y) := by
    simp [perp, Point2.toReal]; ring
  have e2 : absTerm 0 1 o.toReal a.toReal b.toReal
      = |real a.y - real o.y| * |real b.x - real o.x| + |real a.x - real o.x| * |real b.y - real o.y| := by
    simp [absTerm, Point2.toReal]; ring
  rw [e1, e2, two_mul]
  exact this
/-- **C124**: the computed area of a way with n vertices seen from `o`, if it is finite, is off from the exact one by at most n + 3 roundings of the
magnitudes of the products, plus the underflow of the products. -/
theorem C124_error2 (o : Point2 S) (ps : List (Point2 S)) (h : IsFinite (o.areaFrom ps)) :
    |real (o.areaFrom ps) - exactArea2 o.toReal (ps.map Point2.toReal)| ≤
      ((1 + uro S) ^ (4 + (ps.length - 1)) - 1) * absArea 0 1 o.toReal (ps.map Point2.toReal)
        + (1 + uro S) ^ ps.length * ((ps.length - 1 : ℕ) * (2 * tiny S)) := by
  have u0 := uro_pos (S := S)
  have t0 := tiny_pos (S := S)
  have z : Off S 4 0 (real (zero : S)) 0 0 := ⟨by simp, by rw [real_zero]; simp⟩
  have := (Off.fold (by positivity) _ _ _ (Point2.off_triangle o) ps zero 4 le_rfl 0 0 0 le_rfl z h).err
  rw [zero_add, zero_add, zero_add] at this
  rw [exactArea2, absArea, legs_map, legs_map]
  refine this.trans (add_le_add le_rfl ?_)
  rcases ps with _ | ⟨p, ps⟩
  · simp
  · simp only [List.length_cons, Nat.add_sub_cancel]
    rw [pow_succ]
    exact le_of_eq (by ring)
/-- **C124**: with the coordinates on a grid (integers, for example) that leaves room for the doubled area of the polygon, the computed area is exact. -/
theorem C124_exact2 {e : ℤ} {M : ℕ} (hF : Fits S e (2 * M)) (o : Point2 S) (ps : List (Point2 S)) (hF' : Fits S (e + e) (8 * M ^ 2 * ps.length))
    (h : ∀ p ∈ o :: ps, AllFinite p ∧ ∀ i, OnGrid e M (p.toReal i)) : Exactly (o.polygon ps) (exactArea2 o.toReal (ps.map Point2.toReal)) := by
  rcases ps with _ | ⟨p0, ps⟩
  · exact ⟨finite_zero, by rw [Point2.polygon, Point2.areaFrom]; exact real_zero⟩
  have hd : ∀ p ∈ p0 :: ps, ∀ q ∈ p0 :: ps, Exactly (Api.dot (Vector2.turned (p - o : Vector2 S)) (q - o : Vector2 S) : S)
      (perp (p.toReal - o.toReal) (q.toReal - o.toReal)) ∧ OnGrid (e + e) (8 * M ^ 2) (perp (p.toReal - o.toReal) (q.toReal - o.toReal)) := by
    intro p hp q hq
    obtain ⟨fp, gp⟩ := h p (List.mem_cons_of_mem _ hp)
    obtain ⟨fq, gq⟩ := h q (List.mem_cons_of_mem _ hq)
    obtain ⟨fo, go⟩ := h o (by simp)
    rw [Point2.allFinite] at fp fq fo
    have hT : 8 * M ^ 2 ≤ 8 * M ^ 2 * (p0 :: ps).length := Nat.le_mul_of_pos_right _ (by simp)
    have hM : Fits S (e + e) ((2 * M) * (2 * M)) := hF'.mono (by nlinarith)
    obtain ⟨x1, y1⟩ := Exactly.diff hF ⟨fp.1, rfl⟩ (gp 0) ⟨fo.1, rfl⟩ (go 0)
    obtain ⟨x2, y2⟩ := Exactly.diff hF ⟨fp.2, rfl⟩ (gp 1) ⟨fo.2, rfl⟩ (go 1)
    obtain ⟨x3, y3⟩ := Exactly.diff hF ⟨fq.1, rfl⟩ (gq 0) ⟨fo.1, rfl⟩ (go 0)
    obtain ⟨x4, y4⟩ := Exactly.diff hF ⟨fq.2, rfl⟩ (gq 1) ⟨fo.2, rfl⟩ (go 1)
    obtain ⟨x5, y5⟩ := Exactly.prod hM x2.minus y2.neg x3 y3
    obtain ⟨x6, y6⟩ := Exactly.prod hM x1 y1 x4 y4
    have g := (y5.add y6).mono (show 2 * M * (2 * M) + 2 * M * (2 * M) ≤ 8 * M ^ 2 by nlinarith)
    have c := correct_add x5.1 x6.1
    rw [x5.2, x6.2] at c
    have ee : perp (p.toReal - o.toReal) (q.toReal - o.toReal)
        = -(real p.y - real o.y) * (real q.x - real o.x) + (real p.x - real o.x) * (real q.y - real o.y) := by
      simp [perp, Point2.toReal]; ring
    rw [ee]
    exact ⟨c.grid g (hF'.mono hT), g⟩
  have := grid_fold hF' _ (fun p q : Point2 S => perp (p.toReal - o.toReal) (q.toReal - o.toReal)) (p0 :: ps) hd zero 0 0
    ⟨finite_zero, real_zero⟩ OnGrid.zero (by
      rw [zero_add, mul_comm]; exact Nat.mul_le_mul_left _ (Nat.sub_le _ _))
  rw [zero_add] at this
  rw [exactArea2, legs_map]
  exact this
/-- **C124**: on such a grid it does not matter at which vertex the polygon begins, and backwards the area is the negative. -/
theorem C124_grid2 {e : ℤ} {M : ℕ} (hF : Fits S e (2 * M)) (p q : Point2 S) (ps : List (Point2 S)) (hF' : Fits S (e + e) (8 * M ^ 2 * (ps.length + 1)))
    (h : ∀ r ∈ p :: q :: ps, AllFinite r ∧ ∀ i, OnGrid e M (r.toReal i)) :
    (q.polygon (ps ++ [p]) == p.polygon (q :: ps)) = true ∧ (p.polygon (q :: ps).reverse == -(p.polygon (q :: ps))) = true := by
  have a := C124_exact2 hF p (q :: ps) hF' h
  have b := C124_exact2 hF q (ps ++ [p]) (by simpa using hF') (fun r hr => h r (by
    simp only [List.mem_cons, List.mem_append, List.not_mem_nil, or_false] at hr ⊢; tauto))
  have c := C124_exact2 hF p (q :: ps).reverse (by simpa using hF') (fun r hr => h r (by
    simp only [List.mem_cons, List.mem_reverse] at hr ⊢; tauto))
  refine ⟨(obeq_real b.1 a.1).2 ?_, (obeq_real c.1 a.minus.1).2 ?_⟩
  · rw [b.2, a.2, List.map_append, List.map_cons, List.map_cons, List.map_nil]
    exact perp_alternating.turn _ _ _
  · rw [c.2, a.minus.2, List.map_reverse]
    exact perp_alternating.reverse _ _
end
/-! ## Vertices that change nothing -/
section
variable {S : Type} [Scalar S] [IEEE S] [Binary S]
theorem area_negz : num (-(Scalar.zero : S)) = num (Scalar.zero : S) := by
  rw [num_finite (finite_neg.2 finite_zero), num_finite finite_zero, IEEE.real_neg, real_zero, neg_zero]
theorem Vector2.turned_dot' (u v : Vector2 S) : (Api.dot u.turned v : S) = -u.y * v.x + u.x * v.y := rfl
/-- The triangle with two equal vertices. -/
theorem Vector2.flat_same {u : Vector2 S} (h : IsFinite (Api.dot u.turned u : S)) : (Api.dot u.turned u == (Scalar.zero : S)) = true := by
  rw [Vector2.turned_dot'] at h ⊢
  refine beq_of_num ?_ (h.not_nan)
  rw [IEEE.num_add, (same_neg_mul _ _).num, num_neg_congr (same_mul_comm u.y u.x).num]
  have : IsFinite (u.x * u.y) := (finite_of_add h).2
  rw [neg_nadd this, num_zero]
/-- The triangle with a vertex at the point it is seen from. -/
theorem Vector2.flat_end {u v : Vector2 S} (h : IsFinite (Api.dot u.turned v : S)) (hx : num v.x = num (Scalar.zero : S)) (hy : num v.y = num (Scalar.zero : S)) :
    (Api.dot u.turned v == (Scalar.zero : S)) = true := by
  rw [Vector2.turned_dot'] at h ⊢
  refine beq_of_num ?_ (h.not_nan)
  obtain ⟨h1, h2⟩ := finite_of_add h
  rw [num_add_congr ((num_mul_congr rfl hx).trans (IEEE.num_mul_zero (finite_of_mul h1).1)) ((num_mul_congr rfl hy).trans (IEEE.num_mul_zero (finite_of_mul h2).1)),
    num_add_zero]
/-- **C124**: repeating a vertex changes nothing. -/
theorem C124_repeat2 (o p : Point2 S) (as bs : List (Point2 S)) (h : IsFinite (o.areaFrom (as ++ p :: p :: bs))) :
    (o.areaFrom (as ++ p :: p :: bs) == o.areaFrom (as ++ p :: bs)) = true := by
  refine beq_of_num ?_ (h.not_nan)
  rw [Point2.areaFrom] at h
  rw [Point2.areaFrom, Point2.areaFrom]
  rw [legs_join _ as p (p :: bs), legs_cons] at h ⊢
  rw [legs_join _ as p bs]
  refine num_skip _ _ _ _ (Vector2.flat_same ?_)
  exact finite_of_term _ _ h _ (by simp)
/-- **C124**: coming back to the first vertex at the end changes nothing. -/
theorem C124_close2 (o : Point2 S) (ps : List (Point2 S)) (h : IsFinite (o.polygon (ps ++ [o]))) :
    (o.polygon (ps ++ [o]) == o.polygon ps) = true := by
  refine beq_of_num ?_ (h.not_nan)
  rcases List.eq_nil_or_concat ps with rfl | ⟨as, p, rfl⟩
  · rfl
  rw [Point2.polygon, Point2.areaFrom] at h
  rw [Point2.polygon, Point2.areaFrom, Point2.polygon, Point2.areaFrom]
  have e : as.concat p ++ [o] = as ++ p :: [o] := by simp
  have e' : as.concat p = as ++ [p] := by simp
  rw [e, legs_join _ as p [o]] at h
  rw [e, legs_join _ as p [o], e']
  rw [legs_cons, legs_one] at h ⊢
  have f := finite_of_term _ _ h (Api.dot (Vector2.turned (p - o : Vector2 S)) (o - o : Vector2 S) : S) (by simp)
  have := num_skip (legs (fun a b => (Api.dot (Vector2.turned (a - o : Vector2 S)) (b - o : Vector2 S) : S)) (as ++ [p])) [] _ zero
    (Vector2.flat_end f ?_ ?_)
  · rwa [List.append_nil] at this
  · rw [Vector2.turned_dot'] at f
    exact (same_sub_self (finite_of_sub (finite_of_mul (finite_of_add f).1).2).1).num
  · rw [Vector2.turned_dot'] at f
    exact (same_sub_self (finite_of_sub (finite_of_mul (finite_of_add f).2).2).1).num
/-- **C124**: a triangle backwards has exactly the opposite area. -/
theorem C124_flip2 (o p q : Point2 S) (h : ¬ IsNaN (o.polygon [p, q])) : (o.polygon [q, p] == -(o.polygon [p, q])) = true := by
  have hd : ∀ u v : Vector2 S, num (Api.dot v.turned u : S) = num (-(Api.dot u.turned v : S)) := by
    intro u v
    rw [Vector2.turned_dot', Vector2.turned_dot', ← num_neg_add]
    refine (same_add_comm _ _).num.trans (num_add_congr ?_ ?_)
    · rw [← (same_neg_mul _ _).num]
      refine (same_mul_comm _ _).num |>.trans (num_mul_congr (same_neg_neg _).num.symm rfl)
    · rw [(same_neg_mul _ _).num]
      exact num_neg_congr ((same_mul_comm _ _).num)
  have e : ∀ a b : Point2 S, num (o.polygon [a, b]) = num (Api.dot (Vector2.turned (a - o : Vector2 S)) (b - o : Vector2 S) : S) :=
    fun a b => num_zero_add _
  refine beq_of_num' ?_ ?_
  · rw [e, hd]
    exact num_neg_congr (e p q).symm
  · exact fun hn => h (by rwa [isNaN_neg] at hn)
/-- **C124**: the corners of a box, turning left, have twice the area of the box. -/
theorem C124_box2 (b : BoundingBox2 S) (h : IsFinite (b.area + b.area)) :
    (b.min.polygon [⟨b.max.x, b.min.y⟩, b.max, ⟨b.min.x, b.max.y⟩] == b.area + b.area) = true := by
  refine beq_of_num' ?_ (h.not_nan)
  obtain ⟨hA, -⟩ := finite_of_add h
  obtain ⟨hw, hh⟩ := finite_of_mul (a := b.max.x - b.min.x) (b := b.max.y - b.min.y) hA
  have zx : num (b.min.x - b.min.x) = num (zero : S) := (same_sub_self (finite_of_sub hw).2).num
  have zy : num (b.min.y - b.min.y) = num (zero : S) := (same_sub_self (finite_of_sub hh).2).num
  have e : b.min.polygon [⟨b.max.x, b.min.y⟩, b.max, ⟨b.min.x, b.max.y⟩]
      = zero + (-(b.min.y - b.min.y) * (b.max.x - b.min.x) + (b.max.x - b.min.x) * (b.max.y - b.min.y))
        + (-(b.max.y - b.min.y) * (b.min.x - b.min.x) + (b.max.x - b.min.x) * (b.max.y - b.min.y)) := rfl
  rw [e]
  refine num_add_congr ((num_zero_add _).trans ?_) ?_
  · refine (num_add_congr ((num_mul_congr ((num_neg_congr zy).trans area_negz) rfl).trans (IEEE.num_zero_mul hw)) rfl).trans (num_zero_add _)
  · refine (num_add_congr ((num_mul_congr rfl zx).trans (IEEE.num_mul_zero (finite_neg.2 hh))) rfl).trans (num_zero_add _)
end

/-! ## Dimension 3 -/
section
variable {S : Type} [Scalar S]
theorem Vector3.fold_x (L : List (Vector3 S)) (v : Vector3 S) : (L.foldl Vector3.addAssign v).x = (L.map Vector3.x).foldl (· + ·) v.x := by
  induction L generalizing v with
  | nil => rfl
  | cons a L ih => exact ih _
theorem Vector3.fold_y (L : List (Vector3 S)) (v : Vector3 S) : (L.foldl Vector3.addAssign v).y = (L.map Vector3.y).foldl (· + ·) v.y := by
  induction L generalizing v with
  | nil => rfl
  | cons a L ih => exact ih _
theorem Vector3.fold_z (L : List (Vector3 S)) (v : Vector3 S) : (L.foldl Vector3.addAssign v).z = (L.map Vector3.z).foldl (· + ·) v.z := by
  induction L generalizing v with
  | nil => rfl
  | cons a L ih => exact ih _
/-- The components of the computed area vector. -/
theorem Point3.area_x (o : Point3 S) (ps : List (Point3 S)) : (o.areaFrom ps).x
    = (legs (fun a b : Point3 S => (a.y - o.y) * (b.z - o.z) - (a.z - o.z) * (b.y - o.y)) ps).foldl (· + ·) zero := by
  rw [Point3.areaFrom, Vector3.fold_x, legs_congr _ _ Vector3.x ps fun _ _ _ _ => rfl]; rfl
theorem Point3.area_y (o : Point3 S) (ps : List (Point3 S)) : (o.areaFrom ps).y
    = (legs (fun a b : Point3 S => (a.z - o.z) * (b.x - o.x) - (a.x - o.x) * (b.z - o.z)) ps).foldl (· + ·) zero := by
  rw [Point3.areaFrom, Vector3.fold_y, legs_congr _ _ Vector3.y ps fun _ _ _ _ => rfl]; rfl
theorem Point3.area_z (o : Point3 S) (ps : List (Point3 S)) : (o.areaFrom ps).z
    = (legs (fun a b : Point3 S => (a.x - o.x) * (b.y - o.y) - (a.y - o.y) * (b.x - o.x)) ps).foldl (· + ·) zero := by
  rw [Point3.areaFrom, Vector3.fold_z, legs_congr _ _ Vector3.z ps fun _ _ _ _ => rfl]; rfl
theorem legs_apply {P : Type} {n : ℕ} (d : P → P → Fin n → ℝ) (i : Fin n) (ps : List P) :
    (legs d ps).sum i = (legs (fun a b => d a b i) ps).sum := by
  rw [← legs_congr d (fun a b => d a b i) (fun v : Fin n → ℝ => v i) ps fun _ _ _ _ => rfl]
  induction legs d ps with
  | nil => rfl
  | cons v L ih => simp [ih]
end

section
variable {S : Type} [Scalar S] [IEEE S] [Binary S]
/-- One component of the area of one triangle, written with two functions that read off a coordinate. -/
theorem off_component {P : Type} (f g : P → S) (o a b : P) (h : IsFinite ((f a - f o) * (g b - g o) - (g a - g o) * (f b - f o))) :
    Off S 4 ((1 + uro S) * (2 * tiny S)) (real ((f a - f o) * (g b - g o) - (g a - g o) * (f b - f o)))
      ((real (f a) - real (f o)) * (real (g b) - real (g o)) - (real (g a) - real (g o)) * (real (f b) - real (f o)))
      (|real (f a) - real (f o)| * |real (g b) - real (g o)| + |real (g a) - real (g o)| * |real (f b) - real (f o)|) := by
  obtain ⟨h1, h2⟩ := finite_of_sub h
  obtain ⟨a1, a2⟩ := finite_of_mul h1
  obtain ⟨a3, a4⟩ := finite_of_mul h2
  rw [two_mul]
  exact Off.sub' h (Off.mul h1 (Off.sub a1) (Off.sub a2)) (Off.mul h2 (Off.sub a3) (Off.sub a4))
theorem error_component {P : Type} (f g : P → S) (o : P) (ps : List P)
    (h : IsFinite ((legs (fun a b : P => (f a - f o) * (g b - g o) - (g a - g o) * (f b - f o)) ps).foldl (· + ·) zero)) :
    |real ((legs (fun a b : P => (f a - f o) * (g b - g o) - (g a - g o) * (f b - f o)) ps).foldl (· + ·) zero)
      - (legs (fun a b : P => (real (f a) - real (f o)) * (real (g b) - real (g o)) - (real (g a) - real (g o)) * (real (f b) - real (f o))) ps).sum| ≤
      ((1 + uro S) ^ (4 + (ps.length - 1)) - 1)
        * (legs (fun a b : P => |real (f a) - real (f o)| * |real (g b) - real (g o)| + |real (g a) - real (g o)| * |real (f b) - real (f o)|) ps).sum
        + (1 + uro S) ^ ps.length * ((ps.length - 1 : ℕ) * (2 * tiny S)) := by
  have u0 := uro_pos (S := S)
  have t0 := tiny_pos (S := S)
  have z : Off S 4 0 (real (zero : S)) 0 0 := ⟨by simp, by rw [real_zero]; simp⟩
  have := (Off.fold (by positivity) _ _ _ (off_component f g o) ps zero 4 le_rfl 0 0 0 le_rfl z h).err
  rw [zero_add, zero_add, zero_add] at this
  refine this.trans (add_le_add le_rfl ?_)
  rcases ps with _ | ⟨p, ps⟩
  · simp
  · simp only [List.length_cons, Nat.add_sub_cancel]
    rw [pow_succ]
    exact le_of_eq (by ring)
/-- **C124**: every component of the computed area vector that is finite is off by at most n + 3 roundings of the magnitudes of its products, plus underflow. -/
theorem C124_error3 (o : Point3 S) (ps : List (Point3 S)) (h : AllFinite (o.areaFrom ps)) (i : Fin 3) :
    |(o.areaFrom ps).toReal i - exactArea3 o.toReal (ps.map Point3.toReal) i| ≤
      ((1 + uro S) ^ (4 + (ps.length - 1)) - 1) * absArea (i + 1) (i + 2) o.toReal (ps.map Point3.toReal)
        + (1 + uro S) ^ ps.length * ((ps.length - 1 : ℕ) * (2 * tiny S)) := by
  rw [Vector3.allFinite] at h
  rw [exactArea3, legs_apply, absArea, legs_map, legs_map]
  have e : ∀ a b : Point3 S, crossProduct (a.toReal - o.toReal) (b.toReal - o.toReal) = ![(real a.y - real o.y) * (real b.z - real o.z) - (real a.z - real o.z) * (real b.y - real o.y),
      (real a.z - real o.z) * (real b.x - real o.x) - (real a.x - real o.x) * (real b.z - real o.z),
      (real a.x - real o.x) * (real b.y - real o.y) - (real a.y - real o.y) * (real b.x - real o.x)] := fun a b => by
    rw [cross_apply]; rfl
  fin_cases i
  · have f := h.1
    rw [Point3.area_x] at f
    have := error_component Point3.y Point3.z o ps f
    rw [← Point3.area_x] at this
    simp only [e]
    exact this
  · have f := h.2.1
    rw [Point3.area_y] at f
    have := error_component Point3.z Point3.x o ps f
    rw [← Point3.area_y] at this
    simp only [e]
    exact this
  · have f := h.2.2
    rw [Point3.area_z] at f
    have := error_component Point3.x Point3.y o ps f
    rw [← Point3.area_z] at this
    simp only [e]
    exact this
theorem exact_component {P : Type} {e : ℤ} {M : ℕ} (hF : Fits S e (2 * M)) (f g : P → S) (o : P) (ps : List P) (hF' : Fits S (e + e) (8 * M ^ 2 * ps.length))
    (h : ∀ p ∈ o :: ps, IsFinite (f p) ∧ IsFinite (g p) ∧ OnGrid e M (real (f p)) ∧ OnGrid e M (real (g p))) :
    Exactly ((legs (fun a b : P => (f a - f o) * (g b - g o) - (g a - g o) * (f b - f o)) ps).foldl (· + ·) zero)
      (legs (fun a b : P => (real (f a) - real (f o)) * (real (g b) - real (g o)) - (real (g a) - real (g o)) * (real (f b) - real (f o))) ps).sum := by
  rcases ps with _ | ⟨p0, ps⟩
  · exact ⟨finite_zero, real_zero⟩
  obtain ⟨fo, go, fo', go'⟩ := h o (by simp)
  have := grid_fold hF' (fun a b : P => (f a - f o) * (g b - g o) - (g a - g o) * (f b - f o))
    (fun a b : P => (real (f a) - real (f o)) * (real (g b) - real (g o)) - (real (g a) - real (g o)) * (real (f b) - real (f o)))
    (p0 :: ps) (N := 8 * M ^ 2) ?_ zero 0 0 ⟨finite_zero, real_zero⟩ OnGrid.zero (by
      rw [zero_add, mul_comm]; exact Nat.mul_le_mul_left _ (Nat.sub_le _ _))
  · rwa [zero_add] at this
  intro p hp q hq
  obtain ⟨fp, gp, fp', gp'⟩ := h p (List.mem_cons_of_mem _ hp)
  obtain ⟨fq, gq, fq', gq'⟩ := h q (List.mem_cons_of_mem _ hq)
  have hT : 8 * M ^ 2 ≤ 8 * M ^ 2 * (p0 :: ps).length := Nat.le_mul_of_pos_right _ (by simp)
  have hM : Fits S (e + e) ((2 * M) * (2 * M)) := hF'.mono (by nlinarith)
  obtain ⟨x1, y1⟩ := Exactly.diff hF ⟨fp, rfl⟩ fp' ⟨fo, rfl⟩ fo'
  obtain ⟨x2, y2⟩ := Exactly.diff hF ⟨gp, rfl⟩ gp' ⟨go, rfl⟩ go'
  obtain ⟨x3, y3⟩ := Exactly.diff hF ⟨fq, rfl⟩ fq' ⟨fo, rfl⟩ fo'
  obtain ⟨x4, y4⟩ := Exactly.diff hF ⟨gq, rfl⟩ gq' ⟨go, rfl⟩ go'
  obtain ⟨x5, y5⟩ := Exactly.prod hM x1 y1 x4 y4
  obtain ⟨x6, y6⟩ := Exactly.prod hM x2 y2 x3 y3
  have g := (y5.sub y6).mono (show 2 * M * (2 * M) + 2 * M * (2 * M) ≤ 8 * M ^ 2 by nlinarith)
  have c := correct_sub x5.1 x6.1
  rw [x5.2, x6.2] at c
  exact ⟨c.grid g (hF'.mono hT), g⟩
/-- **C124**: with the coordinates on a grid that leaves room, the computed area vector is exact. -/
theorem C124_exact3 {e : ℤ} {M : ℕ} (hF : Fits S e (2 * M)) (o : Point3 S) (ps : List (Point3 S)) (hF' : Fits S (e + e) (8 * M ^ 2 * ps.length))
    (h : ∀ p ∈ o :: ps, AllFinite p ∧ ∀ i, OnGrid e M (p.toReal i)) :
    AllFinite (o.polygon ps) ∧ (o.polygon ps).toReal = exactArea3 o.toReal (ps.map Point3.toReal) := by
  have k : ∀ p ∈ o :: ps, (IsFinite p.x ∧ OnGrid e M (real p.x)) ∧ (IsFinite p.y ∧ OnGrid e M (real p.y)) ∧ IsFinite p.z ∧ OnGrid e M (real p.z) := by
    intro p hp
    obtain ⟨f, g⟩ := h p hp
    rw [Point3.allFinite] at f
    exact ⟨⟨f.1, g 0⟩, ⟨f.2.1, g 1⟩, f.2.2, g 2⟩
  have ex := exact_component hF Point3.y Point3.z o ps hF' fun p hp => ⟨(k p hp).2.1.1, (k p hp).2.2.1, (k p hp).2.1.2, (k p hp).2.2.2⟩
  have ey := exact_component hF Point3.z Point3.x o ps hF' fun p hp => ⟨(k p hp).2.2.1, (k p hp).1.1, (k p hp).2.2.2, (k p hp).1.2⟩
  have ez := exact_component hF Point3.x Point3.y o ps hF' fun p hp => ⟨(k p hp).1.1, (k p hp).2.1.1, (k p hp).1.2, (k p hp).2.1.2⟩
  rw [← Point3.area_x] at ex
  rw [← Point3.area_y] at ey
  rw [← Point3.area_z] at ez
  refine ⟨Vector3.allFinite.2 ⟨ex.1, ey.1, ez.1⟩, ?_⟩
  have c : ∀ a b : Point3 S, crossProduct (a.toReal - o.toReal) (b.toReal - o.toReal) = ![(real a.y - real o.y) * (real b.z - real o.z) - (real a.z - real o.z) * (real b.y - real o.y),
      (real a.z - real o.z) * (real b.x - real o.x) - (real a.x - real o.x) * (real b.z - real o.z),
      (real a.x - real o.x) * (real b.y - real o.y) - (real a.y - real o.y) * (real b.x - real o.x)] := fun a b => by
    rw [cross_apply]; rfl
  funext i
  rw [exactArea3, legs_apply, legs_map]
  simp only [c]
  fin_cases i
  · exact ex.2
  · exact ey.2
  · exact ez.2
end
section
variable {S : Type} [Scalar S] [IEEE S] [Binary S]
theorem Vector3.beq_iff' {u v : Vector3 S} : (u == v) = true ↔ (u.x == v.x) = true ∧ (u.y == v.y) = true ∧ (u.z == v.z) = true := by
  show (u.x == v.x && u.y == v.y && u.z == v.z) = true ↔ _
  simp [and_assoc]
/-- The component of the area of a triangle with two equal vertices, or that ends where it is seen from. -/
theorem flat_component {a b c d : S} (h : IsFinite (a * d - b * c)) (hq : (num a = num c ∧ num b = num d) ∨ (num c = num (zero : S) ∧ num d = num (zero : S))) :
    (a * d - b * c == (zero : S)) = true := by
  refine beq_of_num ?_ h.not_nan
  obtain ⟨h1, h2⟩ := finite_of_sub h
  have e : num (a * d) = num (b * c) := by
    rcases hq with ⟨e1, e2⟩ | ⟨e1, e2⟩
    · rw [num_mul_congr e1 rfl, num_mul_congr e2 rfl]
      exact (same_mul_comm _ _).num
    · rw [num_mul_congr rfl e2, num_mul_congr rfl e1, IEEE.num_mul_zero (finite_of_mul h1).1, IEEE.num_mul_zero (finite_of_mul h2).1]
  rw [num_sub_congr rfl e.symm]
  exact (same_sub_self h1).num
/-- **C124**: repeating a vertex changes nothing. -/
theorem C124_repeat3 (o p : Point3 S) (as bs : List (Point3 S)) (h : AllFinite (o.areaFrom (as ++ p :: p :: bs))) :
    (o.areaFrom (as ++ p :: p :: bs) == o.areaFrom (as ++ p :: bs)) = true := by
  rw [Vector3.allFinite] at h
  have key : ∀ f g : Point3 S → S, IsFinite ((legs (fun a b : Point3 S => (f a - f o) * (g b - g o) - (g a - g o) * (f b - f o)) (as ++ p :: p :: bs)).foldl (· + ·) zero) →
      num ((legs (fun a b : Point3 S => (f a - f o) * (g b - g o) - (g a - g o) * (f b - f o)) (as ++ p :: p :: bs)).foldl (· + ·) zero)
        = num ((legs (fun a b : Point3 S => (f a - f o) * (g b - g o) - (g a - g o) * (f b - f o)) (as ++ p :: bs)).foldl (· + ·) zero) := by
    intro f g hf
    rw [legs_join _ as p (p :: bs), legs_cons] at hf ⊢
    rw [legs_join _ as p bs]
    exact num_skip _ _ _ _ (flat_component (finite_of_term _ _ hf _ (by simp)) (Or.inl ⟨rfl, rfl⟩))
  have hx := h.1
  have hy := h.2.1
  have hz := h.2.2
  rw [Point3.area_x] at hx
  rw [Point3.area_y] at hy
  rw [Point3.area_z] at hz
  have kx := key Point3.y Point3.z hx
  have ky := key Point3.z Point3.x hy
  have kz := key Point3.x Point3.y hz
  rw [← Point3.area_x, ← Point3.area_x] at kx
  rw [← Point3.area_y, ← Point3.area_y] at ky
  rw [← Point3.area_z, ← Point3.area_z] at kz
  exact Vector3.beq_iff'.2 ⟨beq_of_num kx h.1.not_nan, beq_of_num ky h.2.1.not_nan, beq_of_num kz h.2.2.not_nan⟩
/-- **C124**: coming back to the first vertex at the end changes nothing. -/
theorem C124_close3 (o : Point3 S) (ps : List (Point3 S)) (h : AllFinite (o.polygon (ps ++ [o]))) :
    (o.polygon (ps ++ [o]) == o.polygon ps) = true := by
  rw [Vector3.allFinite] at h
  have key : ∀ f g : Point3 S → S, IsFinite ((legs (fun a b : Point3 S => (f a - f o) * (g b - g o) - (g a - g o) * (f b - f o)) (ps ++ [o])).foldl (· + ·) zero) →
      num ((legs (fun a b : Point3 S => (f a - f o) * (g b - g o) - (g a - g o) * (f b - f o)) (ps ++ [o])).foldl (· + ·) zero)
        = num ((legs (fun a b : Point3 S => (f a - f o) * (g b - g o) - (g a - g o) * (f b - f o)) ps).foldl (· + ·) zero) := by
    intro f g hf
    rcases List.eq_nil_or_concat ps with rfl | ⟨as, p, rfl⟩
    · rfl
    have e : as.concat p ++ [o] = as ++ p :: [o] := by simp
    have e' : as.concat p = as ++ [p] := by simp
    rw [e, legs_join _ as p [o]] at hf
    rw [e, legs_join _ as p [o], e']
    rw [legs_cons, legs_one] at hf ⊢
    have ft := finite_of_term _ _ hf ((f p - f o) * (g o - g o) - (g p - g o) * (f o - f o)) (by simp)
    obtain ⟨f1, f2⟩ := finite_of_sub ft
    have := num_skip (legs (fun a b : Point3 S => (f a - f o) * (g b - g o) - (g a - g o) * (f b - f o)) (as ++ [p])) [] _ zero
      (flat_component ft (Or.inr ⟨(same_sub_self (finite_of_sub (finite_of_mul f2).2).1).num, (same_sub_self (finite_of_sub (finite_of_mul f1).2).1).num⟩))
    rwa [List.append_nil] at this
  have hx := h.1
  have hy := h.2.1
  have hz := h.2.2
  unfold Point3.polygon at hx hy hz
  rw [Point3.area_x] at hx
  rw [Point3.area_y] at hy
  rw [Point3.area_z] at hz
  have kx := key Point3.y Point3.z hx
  have ky := key Point3.z Point3.x hy
  have kz := key Point3.x Point3.y hz
  rw [← Point3.area_x, ← Point3.area_x] at kx
  rw [← Point3.area_y, ← Point3.area_y] at ky
  rw [← Point3.area_z, ← Point3.area_z] at kz
  exact Vector3.beq_iff'.2 ⟨beq_of_num kx h.1.not_nan, beq_of_num ky h.2.1.not_nan, beq_of_num kz h.2.2.not_nan⟩
/-- **C124**: on a grid it does not matter at which vertex the polygon begins, and backwards the area vector is the opposite one. -/
theorem C124_grid3 {e : ℤ} {M : ℕ} (hF : Fits S e (2 * M)) (p q : Point3 S) (ps : List (Point3 S)) (hF' : Fits S (e + e) (8 * M ^ 2 * (ps.length + 1)))
    (h : ∀ r ∈ p :: q :: ps, AllFinite r ∧ ∀ i, OnGrid e M (r.toReal i)) :
    (q.polygon (ps ++ [p]) == p.polygon (q :: ps)) = true ∧ (p.polygon (q :: ps).reverse == -(p.polygon (q :: ps))) = true := by
  have a := C124_exact3 hF p (q :: ps) hF' h
  have b := C124_exact3 hF q (ps ++ [p]) (by simpa using hF') (fun r hr => h r (by
    simp only [List.mem_cons, List.mem_append, List.not_mem_nil, or_false] at hr ⊢; tauto))
  have c := C124_exact3 hF p (q :: ps).reverse (by simpa using hF') (fun r hr => h r (by
    simp only [List.mem_cons, List.mem_reverse] at hr ⊢; tauto))
  have e1 : (q.polygon (ps ++ [p])).toReal = (p.polygon (q :: ps)).toReal := by
    rw [b.2, a.2, List.map_append, List.map_cons, List.map_cons, List.map_nil]
    exact cross_alternating.turn _ _ _
  have e2 : (p.polygon (q :: ps).reverse).toReal = -(p.polygon (q :: ps)).toReal := by
    rw [c.2, a.2, List.map_reverse]
    exact cross_alternating.reverse _ _
  have fa := Vector3.allFinite.1 a.1
  have fb := Vector3.allFinite.1 b.1
  have fc := Vector3.allFinite.1 c.1
  refine ⟨Vector3.beq_iff'.2 ⟨(obeq_real fb.1 fa.1).2 (congrFun e1 0), (obeq_real fb.2.1 fa.2.1).2 (congrFun e1 1), (obeq_real fb.2.2 fa.2.2).2 (congrFun e1 2)⟩,
    Vector3.beq_iff'.2 ⟨(obeq_real fc.1 (finite_neg.2 fa.1)).2 ?_, (obeq_real fc.2.1 (finite_neg.2 fa.2.1)).2 ?_, (obeq_real fc.2.2 (finite_neg.2 fa.2.2)).2 ?_⟩⟩
  · rw [IEEE.real_neg]; exact congrFun e2 0
  · rw [IEEE.real_neg]; exact congrFun e2 1
  · rw [IEEE.real_neg]; exact congrFun e2 2
end
end VecMath

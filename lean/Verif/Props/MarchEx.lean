import Verif.Props.FloatMarch
import Verif.Props.RealMarch
import Verif.Props.ClipEx
import Verif.Props.FloatExamples5
/-! # C127: the hypotheses are met; in `f32` a march can go through a ball -/

namespace VecMath
open Scalar IEEE

/-! ## The numbers -/
theorem march_rnd_a : binary32.rnd ((-16777216 : ℝ) - 3) = -16777220 := by
  rw [show ((-16777216 : ℝ) - 3) = -16777219 by norm_num, binary32.rnd_neg, binary32.rnd_lit_even 24 1 8388610 (by decide) (by decide)]
  all_goals norm_num
theorem march_rnd_b : binary32.rnd ((-16777220 : ℝ) * -16777220) = 281475110928384 := by
  rw [show ((-16777220 : ℝ) * -16777220) = 281475110928400 by norm_num, binary32.rnd_lit 48 25 8388612 (by decide)]
  all_goals norm_num
theorem march_rnd_b' : binary32.rnd ((281475110928384 : ℝ) + 0) = 281475110928384 := by
  rw [add_zero, binary32.rnd_lit 48 25 8388612 (by decide)]
  all_goals norm_num
theorem march_rnd_c : binary32.rnd √(281475110928384 : ℝ) = 16777220 := by
  have l : (16777219 : ℝ) < √281475110928384 := Real.lt_sqrt_of_sq_lt (by norm_num)
  have u : √(281475110928384 : ℝ) < 16777221 := (Real.sqrt_lt' (by norm_num)).2 (by norm_num)
  rw [binary32.rnd_lit 24 1 8388610 (by decide) (le_trans (by norm_num) l.le) (u.trans (by norm_num)) (lt_of_le_of_lt (by norm_num) l) (u.trans_le (by norm_num))]
  norm_num
theorem march_rnd_d : binary32.rnd ((16777220 : ℝ) - 1 / 2) = 16777220 := by
  rw [binary32.rnd_lit 24 1 8388610 (by decide)]
  all_goals norm_num
theorem march_rnd_e : binary32.rnd (16777220 : ℝ) = 16777220 := by
  rw [binary32.rnd_lit 24 1 8388610 (by decide)]
  all_goals norm_num
theorem march_rnd_f : binary32.rnd (4 : ℝ) = 4 := by
  rw [binary32.rnd_lit 2 (-21) 8388608 (by decide)]
  all_goals norm_num
theorem march_rnd_one : binary32.rnd (1 : ℝ) = 1 := by
  rw [binary32.rnd_lit 0 (-23) 8388608 (by decide)]
  all_goals norm_num
theorem march_rnd_sq : binary32.rnd ((1 : ℝ) * 1) = 1 := by rw [mul_one]; exact march_rnd_one
theorem march_rnd_sum : binary32.rnd ((1 : ℝ) + 0) = 1 := by rw [add_zero]; exact march_rnd_one
theorem march_rnd_root : binary32.rnd √(1 : ℝ) = 1 := by rw [Real.sqrt_one]; exact march_rnd_one
theorem march_rnd_half : binary32.rnd ((1 : ℝ) - 1 / 2) = 1 / 2 := by
  rw [show (1 : ℝ) - 1 / 2 = 1 / 2 by norm_num, binary32.rnd_lit (-1) (-24) 8388608 (by decide)]
  all_goals norm_num

/-! ## The march -/
noncomputable def marchRay : Ray2 F32 := ⟨pt2 (-16777216) 0, vec2 1 0⟩
noncomputable def marchBall : Ball2 F32 := ⟨pt2 3 0, half⟩
theorem march_finite : AllFinite marchRay := Ray2.allFinite.2 ⟨finite_pt2, finite_vec2⟩
theorem march_zero {x y : F32} (hx : Exactly x 0) (hy : Exactly y 0) : Exactly (x * y) 0 := by
  refine exec_mul hx hy ?_ (clip_big (by norm_num))
  rw [zero_mul]; exact binary32.rnd_zero
theorem march_zero_left {x y : F32} {a : ℝ} (hx : Exactly x 0) (hy : Exactly y a) : Exactly (x * y) 0 := by
  refine exec_mul hx hy ?_ (clip_big (by norm_num))
  rw [zero_mul]; exact binary32.rnd_zero
theorem march_plus {x y : F32} (hx : Exactly x 0) (hy : Exactly y 0) : Exactly (x + y) 0 := by
  refine exec_add hx hy ?_ (clip_big (by norm_num))
  rw [add_zero]; exact binary32.rnd_zero
/-- A point of the first axis at a number that is not rounded. -/
theorem march_at {t : F32} {s : ℝ} (ht : Exactly t s) (hr : binary32.rnd s = s) (hb : |s| ≤ 2 ^ 50) (he : binary32.rnd (-16777216 + s) = -16777216 + s)
    (hb' : |-16777216 + s| ≤ 2 ^ 50) : Exactly (marchRay.at t).x (-16777216 + s) ∧ Exactly (marchRay.at t).y 0 := by
  constructor
  · refine exec_add (exi (n := -16777216) (by norm_num)) (exec_mul (exi (n := 1) (by norm_num)) ht (z := s) ?_ (clip_big ?_)) ?_ (clip_big ?_)
    · rw [Int.cast_one, one_mul]; exact hr
    · rw [Int.cast_one, one_mul]; exact hb
    · push_cast; exact he
    · push_cast; exact hb'
  · have z : Exactly (int32 0 : F32) 0 := ⟨finite_int32, by rw [real_int32]; norm_num⟩
    exact march_plus z (march_zero_left z ht)
/-- The distance from the center, along the first axis. -/
theorem march_distance {p : Point2 F32} {d q w : ℝ} (hy : Exactly p.y 0) (hx : Exactly (p.x - marchBall.center.x) d)
    (h1 : binary32.rnd (d * d) = q) (b1 : |d * d| ≤ 2 ^ 50) (h2 : binary32.rnd (q + 0) = q) (b2 : |q| ≤ 2 ^ 50) (q0 : 0 ≤ q) (h3 : binary32.rnd √q = w) (b3 : |√q| ≤ 2 ^ 50) :
    Exactly (Api.distance marchBall.center p) w := by
  have z : Exactly (p.y - marchBall.center.y) 0 := by
    refine exec_sub hy (exi (n := 0) (by norm_num)) ?_ (clip_big (by norm_num))
    rw [Int.cast_zero, sub_zero]; exact binary32.rnd_zero
  rw [Point2.distance_def]
  refine exec_sqrt (exec_add (exec_mul hx hx h1 (clip_big b1)) (march_zero z z) h2 (clip_big (by rw [add_zero]; exact b2))) q0 h3 (clip_big b3)
theorem march_origin : Exactly (marchRay.at (marchRay.march [marchBall] 0)).x (-16777216 + 0) ∧ Exactly (marchRay.at (marchRay.march [marchBall] 0)).y 0 :=
  march_at (t := zero) ⟨finite_zero, real_zero⟩ binary32.rnd_zero (by norm_num)
    (by
      rw [show (-16777216 + 0 : ℝ) = -16777216 by norm_num, binary32.rnd_neg, binary32.rnd_lit_even 24 1 8388608 (by decide) (by decide)]
      all_goals norm_num) (by norm_num)
/-- What is computed for the distance at the start. -/
theorem march_far {p : Point2 F32} (hx : Exactly p.x (-16777216)) (hy : Exactly p.y 0) :
    Exactly (Api.distance marchBall.center p) 16777220 ∧ Exactly (Api.distance marchBall.center p - marchBall.radius) 16777220 := by
  have b3 : |√(281475110928384 : ℝ)| ≤ 2 ^ 50 := by
    rw [abs_of_nonneg (Real.sqrt_nonneg _), Real.sqrt_le_left (by norm_num)]
    norm_num
  have a : Exactly (p.x - marchBall.center.x) (-16777220) := by
    refine exec_sub hx (exi (n := 3) (by norm_num)) ?_ (clip_big ?_)
    · push_cast; exact march_rnd_a
    · push_cast; norm_num [abs_le]
  have d := march_distance hy a march_rnd_b (by norm_num) march_rnd_b' (by norm_num) (by norm_num) march_rnd_c b3
  exact ⟨d, exec_sub d exactly_half march_rnd_d (clip_big (by norm_num [abs_le]))⟩
theorem march_one : Exactly (marchRay.march [marchBall] 1) 16777220 := by
  obtain ⟨ox, oy⟩ := march_origin
  rw [add_zero] at ox
  have d := (march_far ox oy).2
  obtain ⟨a, b, c⟩ := C127_least2 [marchBall] (marchRay.at (marchRay.march [marchBall] 0)) (by simp) (by simpa using d.1)
  have k : Exactly (Ball2.clearance [marchBall] (marchRay.at (marchRay.march [marchBall] 0))) 16777220 := by
    obtain ⟨b', hb, e⟩ := c
    rw [List.mem_singleton] at hb
    subst hb
    exact exactly_beq e d
  refine exec_add (a := (zero : F32)) ⟨finite_zero, real_zero⟩ k ?_ (clip_big ?_)
  · rw [zero_add]; exact march_rnd_e
  · rw [zero_add]; norm_num
theorem march_near : Exactly (marchRay.at (marchRay.march [marchBall] 1)).x 4 ∧ Exactly (marchRay.at (marchRay.march [marchBall] 1)).y 0 ∧
    Exactly (Api.distance marchBall.center (marchRay.at (marchRay.march [marchBall] 1)) - marchBall.radius) (1 / 2) := by
  obtain ⟨px, py⟩ := march_at march_one march_rnd_e (by norm_num) (by rw [show (-16777216 + 16777220 : ℝ) = 4 by norm_num]; exact march_rnd_f) (by norm_num)
  rw [show (-16777216 + 16777220 : ℝ) = 4 by norm_num] at px
  have a : Exactly ((marchRay.at (marchRay.march [marchBall] 1)).x - marchBall.center.x) 1 := by
    refine exec_sub px (exi (n := 3) (by norm_num)) ?_ (clip_big ?_)
    · push_cast; rw [show (4 : ℝ) - 3 = 1 by norm_num]; exact march_rnd_one
    · push_cast; norm_num
  have d : Exactly (Api.distance marchBall.center (marchRay.at (marchRay.march [marchBall] 1))) 1 :=
    march_distance py a march_rnd_sq (by norm_num) march_rnd_sum (by norm_num) (by norm_num) march_rnd_root (by rw [Real.sqrt_one]; norm_num)
  have d' : Exactly (Api.distance marchBall.center (marchRay.at (marchRay.march [marchBall] 1)) - marchBall.radius) (1 / 2) := by
    exact exec_sub d exactly_half march_rnd_half (clip_big (by norm_num [abs_le]))
  exact ⟨px, py, d'⟩
theorem march_behind : Exactly (Ball2.clearance [marchBall] (marchRay.at (marchRay.march [marchBall] 1))) (1 / 2) := by
  obtain ⟨-, -, d'⟩ := march_near
  obtain ⟨a, b, c⟩ := C127_least2 [marchBall] (marchRay.at (marchRay.march [marchBall] 1)) (by simp) (by simpa using d'.1)
  obtain ⟨b', hb, e⟩ := c
  rw [List.mem_singleton] at hb
  subst hb
  exact exactly_beq e d'
theorem march_unit : (Api.length marchRay.direction == one) = true := by
  have z : Exactly (int32 0 : F32) 0 := ⟨finite_int32, by rw [real_int32]; norm_num⟩
  have o : Exactly (int32 1 : F32) 1 := ⟨finite_int32, by rw [real_int32]; norm_num⟩
  have d : Exactly (Api.length marchRay.direction) 1 :=
    exec_sqrt (exec_add (exec_mul o o march_rnd_sq (clip_big (by norm_num))) (march_zero z z) march_rnd_sum (clip_big (by norm_num)))
      (by norm_num) march_rnd_root (clip_big (by rw [Real.sqrt_one]; norm_num))
  exact clip_same d exactly_one
/-- **C127**, where it fails in floating point: in exact arithmetic the march never passes a point of a ball. Here the center of the ball lies on the ray, the
first step already ends behind the ball, outside it, and the march goes on. -/
theorem C127_through : ∃ (r : Ray2 F32) (b : Ball2 F32) (s : ℝ), AllFinite r ∧ (Api.length r.direction == one) = true ∧ AllFinite b.center ∧ IsFinite b.radius ∧
    0 < real b.radius ∧ (b.radius ≤? Api.distance b.center r.origin) = true ∧ 0 ≤ s ∧ b.center.toReal = r.origin.toReal + s • r.direction.toReal ∧
    IsFinite (r.march [b] 1) ∧ s + real b.radius < real (r.march [b] 1) ∧ 0 < real (Ball2.clearance [b] (r.at (r.march [b] 1))) := by
  have h : real (half : F32) = 1 / 2 := exactly_half.2
  have far := march_far (p := marchRay.origin) (⟨(Point2.allFinite.1 (Ray2.allFinite.1 march_finite).1).1, by show real (int32 (-16777216) (by norm_num) : F32) = _; rw [real_int32]; norm_num⟩)
    (⟨(Point2.allFinite.1 (Ray2.allFinite.1 march_finite).1).2, by show real (int32 0 (by norm_num) : F32) = _; rw [real_int32]; norm_num⟩)
  refine ⟨marchRay, marchBall, 16777219, march_finite, march_unit, finite_pt2, exactly_half.1, ?_, ?_, by norm_num, ?_, march_one.1, ?_, ?_⟩
  · show 0 < real (half : F32)
    rw [h]; norm_num
  · refine (ole_real' exactly_half.1 far.1.1).2 ?_
    rw [far.1.2]
    show real (half : F32) ≤ _
    rw [h]; norm_num
  · funext i
    fin_cases i <;> simp [marchBall, marchRay, pt2, vec2, Point2.toReal, Vector2.toReal, real_int32]
    norm_num
  · rw [march_one.2]
    show 16777219 + real (half : F32) < _
    rw [h]; norm_num
  · rw [march_behind.2]; norm_num

/-! ## The hypotheses are met -/
/-- This step does not go back. -/
example : (marchRay.march [marchBall] 0 ≤? marchRay.march [marchBall] 1) = true := by
  refine C127_forward2 marchRay [marchBall] 0 march_one.1 ?_
  have k : IsFinite (Ball2.clearance [marchBall] (marchRay.at (marchRay.march [marchBall] 0))) := (finite_of_add march_one.1).2
  refine (ole_real' finite_zero k).2 ?_
  rw [real_zero]
  obtain ⟨ox, oy⟩ := march_origin
  rw [add_zero] at ox
  obtain ⟨-, b, hb, e⟩ := (C127_least2 [marchBall] (marchRay.at (marchRay.march [marchBall] 0)) (by simp) (by simpa using (march_far ox oy).2.1)).2
  rw [List.mem_singleton] at hb
  subst hb
  rw [(exactly_beq e (march_far ox oy).2).2]
  norm_num
/-- Within half a unit of the point behind it there is nothing of the ball. -/
example (y : Fin 2 → ℝ) (hy : norm2 (y - (marchRay.at (marchRay.march [marchBall] 1)).toReal) ≤ 1 / 2) : 1 / 2 ≤ norm2 (y - marchBall.center.toReal) := by
  obtain ⟨px, py, d⟩ := march_near
  have e : norm2 ((marchRay.at (marchRay.march [marchBall] 1)).toReal - marchBall.center.toReal) = 1 := by
    have k : (marchRay.at (marchRay.march [marchBall] 1)).toReal - marchBall.center.toReal = ![1, 0] := by
      funext i
      fin_cases i
      · show real (marchRay.at (marchRay.march [marchBall] 1)).x - real (int32 3 : F32) = 1
        rw [px.2, real_int32]; norm_num
      · show real (marchRay.at (marchRay.march [marchBall] 1)).y - real (int32 0 : F32) = 0
        rw [py.2, real_int32]; norm_num
    rw [k, norm2, Fin.sum_univ_two]
    simp
  have h : real marchBall.radius = 1 / 2 := exactly_half.2
  have := C127_sphere2 [marchBall] (marchRay.at (marchRay.march [marchBall] 1)) 0 (by simpa using d.1) (by
    intro b hb
    rw [List.mem_singleton] at hb
    subst hb
    rw [d.2, e, h]; norm_num) y (by rw [march_behind.2, sub_zero]; exact hy) marchBall (by simp)
  rwa [h] at this
/-- In exact arithmetic: the march along the first axis finds the ball of radius `1` around `(3, 0)`. -/
noncomputable def realRay : Ray2 Ideal := ⟨ipt2 0 0, ⟨Ideal.of 1, Ideal.of 0⟩⟩
noncomputable def realBall (x y : ℝ) : Ball2 Ideal := ⟨ipt2 x y, Ideal.of 1⟩
theorem real_ray : AllFinite realRay ∧ (Api.length realRay.direction == (one : Ideal)) = true := by
  have hd : AllFinite realRay.direction := Vector2.allFinite.2 ⟨Ideal.finite_of _, Ideal.finite_of _⟩
  refine ⟨Ray2.allFinite.2 ⟨fin_ipt2, hd⟩, (Ideal.beq_real (Vector2.fin_length hd) finite_one).2 ?_⟩
  have e : realRay.direction.toReal = ![1, 0] := by ext i; fin_cases i <;> exact Ideal.real_of _
  rw [Vector2.real_length hd, real_one, EuclideanSpace.norm_eq]
  simp [Vector2.toE, e]
theorem real_ball {x y : ℝ} {b : Ball2 Ideal} (h : b ∈ [realBall x y]) : AllFinite b.center ∧ IsFinite b.radius := by
  rw [List.mem_singleton] at h
  subst h
  exact ⟨fin_ipt2, Ideal.finite_of _⟩
theorem real_center (x y : ℝ) : AllFinite (realBall x y).center := fin_ipt2
theorem real_radius (x y : ℝ) : IsFinite (realBall x y).radius ∧ real (realBall x y).radius = 1 := ⟨Ideal.finite_of 1, Ideal.real_of 1⟩
theorem real_gap (x y s : ℝ) : real (Api.distance (realBall x y).center (realRay.at (Ideal.of s))) = √((x - s) ^ 2 + y ^ 2) := by
  rw [Point2.real_distance (real_center _ _) (Ray2.fin_at real_ray.1 (Ideal.finite_of s)), EuclideanSpace.dist_eq, Fin.sum_univ_two]
  have e : (realRay.at (Ideal.of s)).toReal = ![s, 0] := by
    rw [Ray2.toReal_at real_ray.1 (Ideal.finite_of s), Ideal.real_of]
    funext i
    fin_cases i <;> simp [realRay, real_ipt2, Vector2.toReal, Ideal.real_of]
  simp [Point2.toE, e, realBall, real_ipt2, Real.dist_eq, sq_abs]
example : ∃ T : Ideal, IsFinite T ∧ (zero ≤? T) = true ∧ (∃ b ∈ [realBall 3 0], b.has (realRay.at T) = true) ∧
    (∀ s : Ideal, IsFinite s → (zero ≤? s) = true → (∃ b ∈ [realBall 3 0], b.has (realRay.at s) = true) → (T ≤? s) = true) ∧
    Filter.Tendsto (fun n => real (realRay.march [realBall 3 0] n)) Filter.atTop (nhds (real T)) := by
  have z : AllFinite realRay.origin := fin_ipt2
  have f := Ray2.fin_at real_ray.1 (Ideal.finite_of 3)
  refine C127_hit2 realRay [realBall 3 0] real_ray.1 real_ray.2 (by simp) (fun b h => real_ball h) ?_ ⟨Ideal.of 3, Ideal.finite_of _, ?_, _, List.mem_singleton.2 rfl, ?_⟩
  · intro b h
    have := real_ball h
    rw [List.mem_singleton] at h
    subst h
    rw [Ideal.le_real (real_radius _ _).1 (Point2.fin_distance (real_center _ _) z), Point2.real_distance (real_center _ _) z, EuclideanSpace.dist_eq, Fin.sum_univ_two]
    simp [realBall, Point2.toE, real_ipt2, realRay, Ideal.real_of, Real.dist_eq]
  · rw [Ideal.le_real finite_zero (Ideal.finite_of _), real_zero, Ideal.real_of]; norm_num
  · rw [Ball2.has, Ideal.le_real (Point2.fin_distance (real_center _ _) f) (real_radius _ _).1, real_gap, (real_radius _ _).2]
    simp [Ideal.real_of]
/-- It never finds the ball around `(3, 2)`. -/
example : Filter.Tendsto (fun n => real (realRay.march [realBall 3 2] n)) Filter.atTop Filter.atTop := by
  refine C127_miss2 realRay [realBall 3 2] real_ray.1 real_ray.2 (by simp) (fun b h => real_ball h) fun s fs s0 b h => ?_
  rw [List.mem_singleton] at h
  subst h
  have g := Ray2.fin_at real_ray.1 fs
  have e : real (Api.distance (realBall 3 2).center (realRay.at s)) = √((3 - real s) ^ 2 + 2 ^ 2) := by
    rw [← real_gap 3 2 (real s), Point2.real_distance (real_center _ _) g, Point2.real_distance (real_center _ _) (Ray2.fin_at real_ray.1 (Ideal.finite_of _)), Ray2.toE_at real_ray.1 fs,
      Ray2.toE_at real_ray.1 (Ideal.finite_of _), Ideal.real_of]
  rw [← Bool.not_eq_true, Ball2.has, Ideal.le_real (Point2.fin_distance (real_center _ _) g) (real_radius _ _).1, e, not_le, (real_radius _ _).2]
  refine Real.lt_sqrt_of_sq_lt ?_
  nlinarith [sq_nonneg (3 - real s)]

end VecMath

out='''import Verif.Props.FloatEnclose
import Verif.Props.RealEnclose
import Verif.Props.FloatBallEx
import Verif.Props.FloatAxis
/-! # C121: the hypotheses are met; the misses

(Generated by tools/gen.) -/

namespace VecMath
open Scalar IEEE

theorem tie24 : (Binary.F F32).rnd (((16777216 : ℤ) : ℝ) - ((-1 : ℤ) : ℝ)) = ((16777216 : ℤ) : ℝ) := by
  have := Fmt.rnd_lit_even binary32 (x := ((16777216 : ℤ) : ℝ) - ((-1 : ℤ) : ℝ)) 24 1 8388608 (by decide) (by decide) (by norm_num) (by norm_num) (by norm_num) (by norm_num)
  exact this.trans (by norm_num)
theorem beq_exact' {x y : F32} {a : ℤ} (hx : Exactly x a) (hy : Exactly y a) : (x == y) = true := (obeq_real hx.1 hy.1).2 (hx.2.trans hy.2.symm)
theorem ideal_nonneg {x : ℝ} (h : 0 ≤ x) : (zero ≤? Ideal.of x) = true := by
  rw [Ideal.le_real finite_zero (Ideal.finite_of _), real_zero, Ideal.real_of]; exact h
theorem zero_gap : ((int32 0 - int32 0 : F32) == zero) = true := beq_exact' (ex_int (int_sub32' exi exi (by norm_num)) (show _ = (0 : ℤ) by norm_num)) (ex_int int_zero32 (by norm_num))
theorem wide_half : Exactly ((int32 16777216 - int32 1 : F32) * half) (16777215 / 2) := by
  have h : Exactly (int32 16777216 - int32 1 : F32) ((16777215 : ℤ) : ℝ) := ex_int (int_sub32' exi exi (by norm_num)) (by norm_num)
  refine exec_mul (y := 1 / 2) h ⟨finite_half, real_half⟩ ?_ (big32' ?_)
  · have := Fmt.rnd_lit binary32 (x := ((16777215 : ℤ) : ℝ) * (1 / 2)) 22 (-1) 16777215 (by decide) (by norm_num) (by norm_num) (by norm_num) (by norm_num)
    exact this.trans (by norm_num)
  · rw [abs_of_pos] <;> norm_num
theorem wide_mid : Exactly (int32 1 + (int32 16777216 - int32 1 : F32) * half) ((8388608 : ℤ) : ℝ) := by
  refine exec_add (exi (n := 1)) wide_half ?_ (big32' ?_)
  · have := Fmt.rnd_lit_even binary32 (x := ((1 : ℤ) : ℝ) + 16777215 / 2) 23 0 8388608 (by decide) (by decide) (by norm_num) (by norm_num) (by norm_num) (by norm_num)
    exact this.trans (by norm_num)
  · rw [abs_of_pos] <;> norm_num
theorem flat_mid : Exactly (int32 0 + (int32 0 - int32 0 : F32) * half) ((0 : ℤ) : ℝ) := by
  have z : Exactly (int32 0 - int32 0 : F32) ((0 : ℤ) : ℝ) := ex_int (int_sub32' exi exi (by norm_num)) (by norm_num)
  have h : Exactly ((int32 0 - int32 0 : F32) * half) ((0 : ℤ) : ℝ) := by
    have := exec_mul (z := 0) (y := 1 / 2) z ⟨finite_half, real_half⟩ (by rw [Int.cast_zero, zero_mul]; exact Fmt.rnd_zero _) (big32' (by norm_num))
    exact ⟨this.1, by rw [this.2]; norm_num⟩
  exact ex_int (int_add32' exi h (by norm_num)) (by norm_num)
'''
for n in (2,3):
    V=f'Vector{n}'; P=f'Point{n}'; B=f'Ball{n}'; BB=f'BoundingBox{n}'; w={2:'disc',3:'ball'}[n]; K=2**n; T=f'Transform{n}'
    cs='xyz'[:n]
    z=', '.join(['int32 0']*(n-1))
    pt=lambda x: f'(⟨{x}, {z}⟩ : {P} F32)'
    rest=' '.join(f'(h{c} : (q.{c} - p.{c} == zero) = true)' for c in cs[1:])
    hs='hy' if n==2 else 'hy hz'
    t3=', '.join(['trivial']*n)
    fi=', '.join(['Ideal.finite_of _']*n)
    zr=' '.join(['zero_gap']*(n-1))
    idp=lambda x: '⟨'+', '.join([f'Ideal.of {x}']+['Ideal.of 0']*(n-1))+'⟩'
    out+=f'''
/-! ## Dimension {n} -/
/-- The distance of two points on a line parallel to the first axis. -/
theorem axis_dist{n} {{p q : {P} F32}} {{m : ℤ}} (hx : Exactly (q.x - p.x) (m : ℝ)) {rest} (h0 : 0 ≤ m) (hm : m ≤ 2 ^ 25) :
    Exactly (Api.distance p q) (m : ℝ) := by
  have a : Exactly (Scalar.abs (q.x - p.x)) (m : ℝ) := by
    have := int_abs32 hx
    rwa [abs_of_nonneg h0] at this
  have b : |(m : ℝ) ^ 2| ≤ 2 ^ 50 := by
    rw [abs_of_nonneg (sq_nonneg _)]
    exact_mod_cast (pow_le_pow_left₀ h0 hm 2).trans (by norm_num)
  have o : real (q.x - p.x) ^ 2 < overflowAt F32 := by
    rw [hx.2]; exact lt_of_le_of_lt (le_abs_self _) (big32' b)
  refine exactly_beq (C98_axis_distance{n} p q .X hx.1 ?_ (sq_normal hx) o) a
  intro e he
  cases e
  exacts [absurd rfl he, {hs.replace(' ',', ')}]
noncomputable def wideBox{n} : {BB} F32 := ⟨⟨int32 1, {z}⟩, ⟨int32 16777216, {z}⟩⟩
theorem wideBox{n}_fin : AllFinite wideBox{n} := {BB}.allFinite.2 ⟨{P}.allFinite.2 ⟨{t3}⟩, {P}.allFinite.2 ⟨{t3}⟩⟩
theorem wideBox{n}_le : LeAll wideBox{n}.min wideBox{n}.max :=
  {P}.leAll.2 ⟨{', '.join(['int32_le (by norm_num)']*n)}⟩
/-- **C121**, where it fails in floating point: half the diagonal around the center of a box does not always reach its corners. In `f32`, for the box
from `(1, 0, …)` to `(2^24, 0, …)` the center is rounded to `(2^23, 0, …)`, which is farther from the last corner than half of `2^24 - 1`. -/
theorem C121_half_misses{n} : ∃ (b : {BB} F32) (p : {P} F32), AllFinite b ∧ LeAll b.min b.max ∧ b.isInside p = true ∧ b.ball.has p = false := by
  refine ⟨wideBox{n}, wideBox{n}.max, wideBox{n}_fin, wideBox{n}_le, ?_, ?_⟩
  · exact corner_inside{n} .debug _ wideBox{n}_le (by decide : ({K-1} : UInt32) < {K}) (corner_ok{n} .debug wideBox{n}).{'2.'*(K-2)}2
  · have d : Exactly (Api.distance wideBox{n}.min wideBox{n}.max) ((16777215 : ℤ) : ℝ) :=
      axis_dist{n} (ex_int (int_sub32' (exi (n := 16777216)) (exi (n := 1)) (by norm_num)) (by norm_num)) {zr} (by norm_num) (by norm_num)
    have r : Exactly (wideBox{n}.ball.radius) (16777215 / 2) := by
      refine exec_mul (y := 1 / 2) d ⟨finite_half, real_half⟩ ?_ (big32' ?_)
      · have := Fmt.rnd_lit binary32 (x := ((16777215 : ℤ) : ℝ) * (1 / 2)) 22 (-1) 16777215 (by decide) (by norm_num) (by norm_num) (by norm_num) (by norm_num)
        exact this.trans (by norm_num)
      · rw [abs_of_pos] <;> norm_num
    have g : (int32 0 - (int32 0 + (int32 0 - int32 0 : F32) * half) == zero) = true :=
      beq_exact' (ex_int (int_sub32' exi flat_mid (by norm_num)) (show _ = (0 : ℤ) by norm_num)) (ex_int int_zero32 (by norm_num))
    have e : Exactly (Api.distance wideBox{n}.ball.center wideBox{n}.max) ((8388608 : ℤ) : ℝ) :=
      axis_dist{n} (ex_int (int_sub32' (exi (n := 16777216)) wide_mid (by norm_num)) (by norm_num)) {' '.join(['g']*(n-1))} (by norm_num) (by norm_num)
    rw [Bool.eq_false_iff]
    intro h
    have h := (ole_real e.1 r.1).1 h
    rw [e.2, r.2] at h
    norm_num at h
/-- **C121**, where it fails in floating point: two {w}s with a common point need not pass the overlap test. In `f32`, the {w} around `(-2, 0, …)` with
radius 1 and the {w} around `(2^24, 0, …)` with radius `2^24` both have `(-1, 0, …)`, but the sum of the radii is rounded to `2^24`. -/
theorem C121_overlap_lost{n} : ∃ (a b : {B} F32) (p : {P} F32), AllFinite p ∧ a.has p = true ∧ b.has p = true ∧ a.meets b = false := by
  refine ⟨⟨{pt('int32 (-2)')}, int32 1⟩, ⟨{pt('int32 16777216')}, int32 16777216⟩, {pt('int32 (-1)')}, {P}.allFinite.2 ⟨{t3}⟩, ?_, ?_, ?_⟩
  · have e : Exactly (Api.distance {pt('int32 (-2)')} {pt('int32 (-1)')}) ((1 : ℤ) : ℝ) :=
      axis_dist{n} (ex_int (int_sub32' (exi (n := -1)) (exi (n := -2)) (by norm_num)) (by norm_num)) {zr} (by norm_num) (by norm_num)
    exact le_exact e exi (by norm_num)
  · have e : Exactly (Api.distance {pt('int32 (-1)')} {pt('int32 16777216')}) ((16777216 : ℤ) : ℝ) := by
      refine axis_dist{n} ?_ {zr} (by norm_num) (by norm_num)
      refine exec_sub (exi (n := 16777216)) (exi (n := -1)) tie24 (big32' ?_)
      rw [abs_of_pos] <;> norm_num
    have s := C15_float_symmetric{n} {pt('int32 16777216')} {pt('int32 (-1)')}
    have e' : Exactly (Api.distance {pt('int32 16777216')} {pt('int32 (-1)')}) ((16777216 : ℤ) : ℝ) :=
      exactly_beq (s.beq (mt s.isNaN.1 e.1.not_nan)) e
    exact le_exact e' exi (by norm_num)
  · have e : Exactly (Api.distance {pt('int32 (-2)')} {pt('int32 16777216')}) ((16777218 : ℤ) : ℝ) := by
      refine axis_dist{n} (ex_int (wide_sub (exi (n := 16777216)) (exi (n := -2)) (m := 8388609) (e := 1) (by norm_num) (by norm_num) ?_) (by norm_num)) {zr} (by norm_num) (by norm_num)
      rw [abs_of_pos] <;> norm_num
    have r : Exactly (int32 1 + int32 16777216 : F32) ((16777216 : ℤ) : ℝ) := by
      refine exec_add (exi (n := 1)) (exi (n := 16777216)) ?_ (big32' ?_)
      · exact (congrArg _ (by norm_num)).trans tie24
      · rw [abs_of_pos] <;> norm_num
    rw [Bool.eq_false_iff]
    intro h
    have h := (ole_real e.1 r.1).1 h
    rw [e.2, r.2] at h
    norm_num at h

/-! ### The hypotheses are met -/
example : ∃ q, wideBox{n}.farCorner .release {pt('int32 3')} = .ok q ∧ (⟨{pt('int32 3')}, Api.distance {pt('int32 3')} q⟩ : {B} F32).has wideBox{n}.max = true := by
  obtain ⟨q, h1, -, h3, -⟩ := C121_corner{n} .release wideBox{n} wideBox{n}_fin wideBox{n}_le {pt('int32 3')} ({P}.allFinite.2 ⟨{t3}⟩)
  exact ⟨q, h1, h3 _ (corner_inside{n} .debug _ wideBox{n}_le (by decide : ({K-1} : UInt32) < {K}) (corner_ok{n} .debug wideBox{n}).{'2.'*(K-2)}2)⟩
example : (Ball{n}.around {pt('int32 3')} [{pt('int32 5')}, {pt('int32 (-70)')}]).has {pt('int32 5')} = true :=
  (C121_points{n} {pt('int32 3')} [{pt('int32 5')}, {pt('int32 (-70)')}] (by rw [{P}.allFinite]; exact ⟨{t3}⟩) (by simp only [List.forall_mem_cons, List.not_mem_nil, IsEmpty.forall_iff, implies_true, and_true, {P}.allFinite]; exact ⟨{('⟨'+t3+'⟩, ')*1}{t3}⟩)).1 _ (by simp)
example (p : {P} F32) (h : (⟨{pt('int32 3')}, int32 4⟩ : {B} F32).has p = true) : (⟨{pt('int32 3')}, int32 5⟩ : {B} F32).has p = true :=
  (C121_grow{n} ⟨{pt('int32 3')}, int32 4⟩ (int32 5) (int32_le (by norm_num))).1 p h
theorem discI{n}_fin (x : ℝ) : AllFinite ({idp('x')} : {P} Ideal) := {P}.allFinite.2 ⟨{fi}⟩
/-- Two {w}s of radius 2 and 3 around points at distance 5 touch. -/
example : ∃ p, AllFinite p ∧ (⟨{idp('0')}, Ideal.of 2⟩ : {B} Ideal).has p = true ∧ (⟨{idp('5')}, Ideal.of 3⟩ : {B} Ideal).has p = true := by
  refine (C121_meets_iff{n} ⟨{idp('0')}, Ideal.of 2⟩ ⟨{idp('5')}, Ideal.of 3⟩ (discI{n}_fin 0) (Ideal.finite_of _) (discI{n}_fin 5) (Ideal.finite_of _) ?_ ?_).1 ?_
  · rw [Ideal.le_real finite_zero (Ideal.finite_of _), real_zero, Ideal.real_of]; norm_num
  · rw [Ideal.le_real finite_zero (Ideal.finite_of _), real_zero, Ideal.real_of]; norm_num
  · rw [{B}.meets_real _ _ (discI{n}_fin 0) (Ideal.finite_of _) (discI{n}_fin 5) (Ideal.finite_of _)]
    rw [EuclideanSpace.dist_eq]
    simp only [{P}.toE, {P}.toReal, Fin.sum_univ_succ, Ideal.real_of]
    simp [Real.dist_eq, Real.sqrt_sq_eq_abs]
    norm_num
/-- The {w} around two {w}s of radius 2 and 3 around points at distance 5. -/
example : IsFinite (({B}.mk {idp('0')} (Ideal.of 2)).join ({B}.mk {idp('5')} (Ideal.of 3))).radius :=
  (C121_join{n} ⟨{idp('0')}, Ideal.of 2⟩ ⟨{idp('5')}, Ideal.of 3⟩ (discI{n}_fin 0) (Ideal.finite_of _) (discI{n}_fin 5) (Ideal.finite_of _)
    (ideal_nonneg (by norm_num)) (ideal_nonneg (by norm_num))).2.1
/-- The {w} around the origin with radius 2 is in the {w} around `(5, 0, …)` with radius `r` exactly if all its points are. -/
example (r : ℝ) : ({B}.mk {idp('0')} (Ideal.of 2)).within ⟨{idp('5')}, Ideal.of r⟩ = true ↔
    ∀ p, AllFinite p → ({B}.mk {idp('0')} (Ideal.of 2)).has p = true → ({B}.mk {idp('5')} (Ideal.of r)).has p = true :=
  C121_within_iff{n} _ _ (discI{n}_fin 0) (Ideal.finite_of _) (discI{n}_fin 5) (Ideal.finite_of _) (ideal_nonneg (by norm_num))
example : (⟨{idp('0')}, {idp('4')}⟩ : {BB} Ideal).ball.has {idp('4')} = true := by
  have le : ∀ {{x y : ℝ}}, x ≤ y → (Ideal.of x ≤? Ideal.of y) = true := fun h => by
    rw [Ideal.le_real (Ideal.finite_of _) (Ideal.finite_of _), Ideal.real_of, Ideal.real_of]; exact h
  have wb : LeAll ({idp('0')} : {P} Ideal) {idp('4')} := {P}.leAll.2 ⟨{', '.join(['le (by norm_num)']*n)}⟩
  exact (C121_half{n} ⟨{idp('0')}, {idp('4')}⟩ ({BB}.allFinite.2 ⟨discI{n}_fin 0, discI{n}_fin 4⟩) wb).2.2.1 _
    (corner_inside{n} .debug _ wb (by decide : ({K-1} : UInt32) < {K}) (corner_ok{n} .debug _).{'2.'*(K-2)}2)
example (v : {V} Ideal) (h : AllFinite v) (p : {P} Ideal) (hp : AllFinite p) :
    ({B}.mk (Transform.transform ({T}.translate v) ({idp('5')} : {P} Ideal)) (Ideal.of 3)).has (Transform.transform ({T}.translate v) p) =
      ({B}.mk {idp('5')} (Ideal.of 3)).has p :=
  (C121_motion{n} _ (.translate v h) ⟨{idp('5')}, Ideal.of 3⟩ ⟨{idp('0')}, Ideal.of 3⟩ (discI{n}_fin 5) (discI{n}_fin 0)).1 p hp
'''
out+='\nend VecMath\n'
open('/verif/lean/Verif/Props/EncloseEx.lean','w').write(out)

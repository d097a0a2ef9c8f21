D={2:dict(V='Vector2',P='Point2',R='Ray2',B='BoundingBox2',c='xy'),3:dict(V='Vector3',P='Point3',R='Ray3',B='BoundingBox3',c='xyz')}
out='''import Verif.Props.FloatFoot
import Verif.Lemmas.Fl
import Verif.Props.FloatInvAffineEx
/-!
# C112: concrete cases, and points of a segment for which the wrong end is reported

(Generated by tools/gen.)
-/

open Classical

namespace VecMath
open Scalar IEEE
variable {F : Fmt}

theorem far_one (x : Fl F) : num (zero + x * one : Fl F) = num x := (IEEE.num_zero_add _).trans (IEEE.num_mul_one _)
theorem big_mul : ¬ IsFinite (Fl.big F * Fl.big F) := by
  rw [(correct_mul Fl.finite_big Fl.finite_big).1, not_lt, ← pow_two, abs_of_nonneg (sq_nonneg _)]
  exact Fl.big_sq
theorem small_mul : num (Fl.small F * Fl.small F) = num (zero : Fl F) := by
  have f : IsFinite (Fl.small F * Fl.small F) := by
    rw [(correct_mul Fl.finite_small Fl.finite_small).1, ← pow_two, abs_of_nonneg (sq_nonneg _)]
    refine Fl.small_sq.trans_le ?_
    have a : tiny (Fl F) ≤ 1 := by
      show (2 : ℝ) ^ (F.emin - 1) ≤ 1
      rw [← zpow_zero (2 : ℝ)]; exact Fmt.z_le (by have := Fl.bound F; omega)
    have b := half_le_overflow (S := Fl F)
    have c : (1 : ℝ) ≤ 2 ^ (F.emax - 1) := by
      rw [← zpow_zero (2 : ℝ)]; exact Fmt.z_le (by have := Fl.bound F; omega)
    have b : (2 : ℝ) ^ (F.emax - 1) < overflowAt (Fl F) := b
    linarith
  have z : (IEEE.A (Fl F)).rnd (real (Fl.small F) * real (Fl.small F)) = 0 := by
    rw [rnd_eq, ← pow_two]
    refine Fmt.rnd_tiny _ ?_
    rw [abs_of_nonneg (sq_nonneg _)]; exact Fl.small_sq
  rw [num_finite f, real_mul f, z, num_finite finite_zero, real_zero]

'''
for n in (2,3):
    d=D[n]; V,P,R,B,c=d['V'],d['P'],d['R'],d['B'],d['c']
    zs=', zero'*(n-1)
    pr=lambda i: '.1' if i==0 else ('.2' if n==2 else ['.1','.2.1','.2.2'][i])
    jn=lambda f,j=', ': j.join(f(i,x) for i,x in enumerate(c))
    rest=', '.join(['finite_zero']*(n-1))
    out+=f'''/-- The segment from the origin along the first axis to `x`. -/
noncomputable def axisRay{n} (x : Fl F) : {R} (Fl F) := ⟨⟨zero{zs}⟩, ⟨x{zs}⟩⟩
theorem axisRay{n}_finite {{x : Fl F}} (hx : IsFinite x) : AllFinite (axisRay{n} x) :=
  {R}.allFinite.2 ⟨{P}.allFinite.2 ⟨finite_zero, {rest}⟩, {V}.allFinite.2 ⟨hx, {rest}⟩⟩
theorem axisRay{n}_end {{x : Fl F}} (hx : IsFinite x) (h0 : real x ≠ 0) : AllFinite ((axisRay{n} x).at one) ∧ ((axisRay{n} x).at one == (axisRay{n} x).origin) = false := by
  refine ⟨{P}.allFinite.2 ⟨finite_of_num (far_one x) hx, {', '.join(['finite_of_num (far_one zero) finite_zero']*(n-1))}⟩, ?_⟩
  rw [Bool.eq_false_iff, Ne, {P}.beq_iff]
  intro h
  have := num_of_beq h.1
  have e : num x = num (zero : Fl F) := (far_one x).symm.trans this
  exact h0 ((real_of_num hx finite_zero e).trans real_zero)
/-- **C112** ({n}D): in every format there is a segment whose far end is a finite point different from the near end, so that the point nearest to the
far end is the far end itself, yet the near end is reported, because the direction times itself overflows. -/
theorem C112_far_end{n} : ∃ r : {R} (Fl F), AllFinite r ∧ AllFinite (r.at one) ∧ (r.at one == r.origin) = false ∧ ¬ IsFinite (Api.dot r.direction r.direction : Fl F) ∧
    (r.at (r.segParam (r.at one)) == r.origin) = true := by
  have hr := axisRay{n}_finite (Fl.finite_big (F := F))
  have e := axisRay{n}_end (Fl.finite_big (F := F)) Fl.real_big_pos.ne'
  have d : ¬ IsFinite (Api.dot (axisRay{n} (Fl.big F)).direction (axisRay{n} (Fl.big F)).direction : Fl F) := by
    intro h
    have h : IsFinite (Fl.big F * Fl.big F{' + zero * zero'*(n-1)}) := h
    exact big_mul {'(finite_of_add h).1' if n==2 else '(finite_of_add (finite_of_add h).1).1'}
  exact ⟨_, hr, e.1, e.2, d, C112_overflow{n} _ _ hr d⟩
/-- **C112** ({n}D): the same at the other end of the range: the direction times itself underflows to zero. -/
theorem C112_near_end{n} : ∃ r : {R} (Fl F), AllFinite r ∧ AllFinite (r.at one) ∧ (r.at one == r.origin) = false ∧
    (IsFinite (Api.dot r.direction r.direction : Fl F) ∧ real (Api.dot r.direction r.direction : Fl F) = 0) ∧
    (r.at (r.segParam (r.at one)) == r.origin) = true := by
  have hr := axisRay{n}_finite (Fl.finite_small (F := F))
  have e := axisRay{n}_end (Fl.finite_small (F := F)) Fl.real_small_pos.ne'
  have zz : num (zero * zero : Fl F) = num (zero : Fl F) := IEEE.num_zero_mul finite_zero
  have d : num (Api.dot (axisRay{n} (Fl.small F)).direction (axisRay{n} (Fl.small F)).direction : Fl F) = num (zero : Fl F) := by
    show num (Fl.small F * Fl.small F{' + zero * zero'*(n-1)}) = _
    {'rw [num_add_congr small_mul zz]' if n==2 else 'rw [num_add_congr (num_add_congr small_mul zz) zz, num_add_congr (IEEE.num_add_zero _) rfl]'}; exact IEEE.num_add_zero _
  have w : num (Api.dot (axisRay{n} (Fl.small F)).direction ((axisRay{n} (Fl.small F)).at one - (axisRay{n} (Fl.small F)).origin : {V} (Fl F)) : Fl F) = num (zero : Fl F) := by
    show num (Fl.small F * (zero + Fl.small F * one - zero){' + zero * (zero + zero * one - zero)'*(n-1)}) = _
    have s : ∀ x : Fl F, num (zero + x * one - zero) = num x := fun x => (n_sub0 rfl).trans (far_one x)
    have a := (num_mul_congr (rfl : num (Fl.small F) = _) (s (Fl.small F))).trans small_mul
    have b := (num_mul_congr (rfl : num (zero : Fl F) = _) (s zero)).trans zz
    {'rw [num_add_congr a b]' if n==2 else 'rw [num_add_congr (num_add_congr a b) b, num_add_congr (IEEE.num_add_zero _) rfl]'}; exact IEEE.num_add_zero _
  have fd := finite_of_num d finite_zero
  have rd := (real_of_num fd finite_zero d).trans real_zero
  have fw := finite_of_num w finite_zero
  have rw' := (real_of_num fw finite_zero w).trans real_zero
  exact ⟨_, hr, e.1, e.2, ⟨fd, rd⟩, (C112_box{n} _ _ hr).2.2.2.1 ((div_zero_cases fd rd).2 fw rw')⟩
'''
    # accuracy example with F32: r = (0,0)->(4,0)... d=(2,0), p=(1,3)? param 1/2
    nz=n-1
    out+=f'''/-- Non-vacuity: the segment from (1, {', '.join(['0']*nz)}) along (4, {', '.join(['0']*nz)}) and the point (3, {', '.join(['5']*nz)}), in `f32`. -/
noncomputable def footRay{n} : {R} F32 := ⟨⟨int32 1, {', '.join(['int32 0']*nz)}⟩, ⟨int32 4, {', '.join(['int32 0']*nz)}⟩⟩
noncomputable def footPt{n} : {P} F32 := ⟨int32 3, {', '.join(['int32 5']*nz)}⟩
'''
    ex=lambda k: f'(exactly_int (n := {k}) (h := by norm_num))'
    mul=lambda a,b: f'(int_mul32 {a} {b} (by norm_num))'
    sub=lambda a,b: f'(int_sub32\' {a} {b} (by norm_num))'
    add=lambda a,b: f'(int_add32\' {a} {b} (by norm_num))'
    N=[mul(ex(4),sub(ex(3),ex(1)))]+[mul(ex(0),sub(ex(5),ex(0)))]*nz
    Q=[mul(ex(4),ex(4))]+[mul(ex(0),ex(0))]*nz
    def tot(l):
        r=l[0]
        for x in l[1:]: r=add(r,x)
        return r
    out+=f'''theorem footRay{n}_num : Exactly (Api.dot footRay{n}.direction (footPt{n} - footRay{n}.origin : {V} F32) : F32) ((8 : ℤ) : ℝ) :=
  {tot(N)}
theorem footRay{n}_den : Exactly (Api.dot footRay{n}.direction footRay{n}.direction : F32) ((16 : ℤ) : ℝ) :=
  {tot(Q)}
theorem footRay{n}_normal : footRay{n}.FootNormal footPt{n} := by
  have q : IsFinite (footRay{n}.footParam footPt{n}) := by
    have := (correct_div footRay{n}_num.1 footRay{n}_den.1 (by rw [footRay{n}_den.2]; norm_num)).1
    refine this.2 ?_
    rw [footRay{n}_num.2, footRay{n}_den.2]; exact big32 (by norm_num)
  have w : real ((int32 3 : F32) - int32 1) = 2 := by
    have := (int_sub32' (a := 3) (b := 1) {ex(3)} {ex(1)} (by norm_num)).2; exact this.trans (by norm_num)
  have z : real (int32 0 : F32) = 0 := by rw [{ex(0)}.2]; norm_num
  have f : real (int32 4 : F32) = 4 := by rw [{ex(4)}.2]; norm_num
  have nm : minNormal F32 ≤ 1 / 2 := by
    show (2 : ℝ) ^ (_ : ℤ) ≤ 1 / 2
    rw [show (1 / 2 : ℝ) = 2 ^ (-1 : ℤ) by norm_num]; exact Fmt.z_le (by decide)
  have nb : ∀ x : ℝ, 1 / 2 ≤ |x| → Normal F32 x := fun x h => .inr (nm.trans h)
  have n0 : ∀ y : ℝ, Normal F32 (real (int32 0 : F32) * y) := fun y => .inl (by rw [z, zero_mul])
  have s0 : Normal F32 (real (int32 0 : F32) ^ 2) := .inl (by rw [z]; norm_num)
  refine ⟨footRay{n}_num.1, footRay{n}_den.1, q, ⟨?_, {', '.join(['n0 _']*nz)}⟩, ⟨?_, {', '.join(['s0']*nz)}⟩, ?_⟩
  · refine nb _ ?_
    show 1 / 2 ≤ |real (int32 4 : F32) * real ((int32 3 : F32) - int32 1)|
    rw [w, f]; norm_num
  · refine nb _ ?_
    show 1 / 2 ≤ |real (int32 4 : F32) ^ 2|
    rw [f]; norm_num
  · rw [footRay{n}_num.2, footRay{n}_den.2]
    exact nb _ (by norm_num)
theorem footRay{n}_ne : {' + '.join(f"real footRay{n}.direction.{x} ^ 2" for x in c)} ≠ 0 := by
  show real (int32 4 : F32) ^ 2{' + real (int32 0 : F32) ^ 2'*nz} ≠ 0
  rw [{ex(4)}.2, {ex(0)}.2]; norm_num
example := C112_accurate{n} footRay{n} footPt{n} footRay{n}_normal footRay{n}_ne
example := C112_point{n} footRay{n} footPt{n} footRay{n}_normal footRay{n}_ne
theorem footRay{n}_finite : AllFinite footRay{n} := {R}.allFinite.2 ⟨{P}.allFinite.2 ⟨{ex(1)}.1, {', '.join([ex(0)+'.1']*nz)}⟩, {V}.allFinite.2 ⟨{ex(4)}.1, {', '.join([ex(0)+'.1']*nz)}⟩⟩
example := C112_box{n} footRay{n} footPt{n} footRay{n}_finite
example := C112_origin{n} footRay{n} footRay{n}_finite
'''
out+='end VecMath\n'
open('/verif/lean/Verif/Props/FloatFootEx.lean','w').write(out)

D={2:('Vector2','Point2','BoundingBox2','Dimension2'),3:('Vector3','Point3','BoundingBox3','Dimension3')}
out='''import Verif.Props.RealPlane
import Verif.Props.FloatInvAffineEx
/-!
# C110: concrete `f32` cases, and a box with a visible point that the center-and-extents test rejects

(Generated by tools/gen.)
-/

open Classical

namespace VecMath
open Scalar IEEE

theorem rnd_odd24 : Exactly ((int32 16777216 : F32) - int32 (-1)) ((16777216 : ℤ) : ℝ) := by
  refine exec_sub (x := ((16777216 : ℤ) : ℝ)) (y := ((-1 : ℤ) : ℝ)) exactly_int exactly_int ?_ (big32 (by norm_num))
  have := Fmt.rnd_lit_even binary32 (x := ((16777216 : ℤ) : ℝ) - ((-1 : ℤ) : ℝ)) 24 1 8388608 (by decide) (by decide) (by norm_num) (by norm_num) (by norm_num) (by norm_num)
  exact this.trans (by norm_num)
theorem half_even32 {x : F32} {a : ℤ} (hx : Exactly x ((2 * a : ℤ) : ℝ)) (h : |a| ≤ 16777216) : Exactly (x * half) (a : ℝ) := by
  have e : ((2 * a : ℤ) : ℝ) * (1 / 2) = (a : ℝ) := by push_cast; ring
  refine exec_mul hx (y := 1 / 2) ⟨finite_half, real_half⟩ ?_ ?_ <;> rw [e]
  · exact rnd_int32 h
  · refine big32 ?_
    rw [← Int.cast_abs]
    exact_mod_cast h.trans (by norm_num)
theorem lt_exact {x y : F32} {a b : ℤ} (hx : Exactly x a) (hy : Exactly y b) (h : a < b) : (x <? y) = true := by
  rw [olt_real hx.1 hy.1, hx.2, hy.2]; exact_mod_cast h
theorem not_lt_exact {x y : F32} {a b : ℤ} (hx : Exactly x a) (hy : Exactly y b) (h : b ≤ a) : (x <? y) = false := by
  rw [Bool.eq_false_iff, Ne, olt_real hx.1 hy.1, hx.2, hy.2]; exact_mod_cast not_lt.2 h
theorem le_exact {x y : F32} {a b : ℤ} (hx : Exactly x a) (hy : Exactly y b) (h : a ≤ b) : (x ≤? y) = true := by
  rw [ole_real hx.1 hy.1, hx.2, hy.2]; exact_mod_cast h

'''
for n in (2,3):
    V,P,B,Dm=D[n]; c='xyz'[:n]; w=f'{n}D'
    zs=', int32 0'*(n-1)
    def add(l):
        r=l[0]
        for t in l[1:]: r=f"int_add32' ({r}) ({t}) (by norm_num)"
        return r
    zt="int_mul32 (x := int32 0) (a := 0) exactly_int (int_sub32' (x := int32 0) (y := int32 0) (a := 0) (b := 0) exactly_int exactly_int (by norm_num)) (by norm_num)"
    # dot n (p - o): x term, then zero terms
    dmax=add(["int_mul32 (x := int32 1) (a := 1) exactly_int (int_sub32' (x := int32 16777216) (y := int32 16777216) (a := 16777216) (b := 16777216) exactly_int exactly_int (by norm_num)) (by norm_num)"]+[zt]*(n-1))
    cz="int_add32' (x := int32 0) (a := 0) exactly_int (half_even32 (a := 0) (int_sub32' (x := int32 0) (y := int32 0) (a := 0) (b := 0) exactly_int exactly_int (by norm_num)) (by norm_num)) (by norm_num)"
    cx="int_add32' (x := int32 (-1)) (a := -1) exactly_int (half_even32 (a := 8388608) rnd_odd24 (by norm_num)) (by norm_num)"
    dc=add([f"int_mul32 (x := int32 1) (a := 1) exactly_int (int_sub32' (y := int32 16777216) (b := 16777216) ({cx}) exactly_int (by norm_num)) (by norm_num)"]+[f"int_mul32 (x := int32 0) (a := 0) exactly_int (int_sub32' (y := int32 0) (b := 0) ({cz}) exactly_int (by norm_num)) (by norm_num)"]*(n-1))
    da=add(["int_mul32 (int_abs32 (x := int32 1) (a := 1) exactly_int) rnd_odd24 (by norm_num)"]+["int_mul32 (int_abs32 (x := int32 0) (a := 0) exactly_int) (int_sub32' (x := int32 0) (y := int32 0) (a := 0) (b := 0) exactly_int exactly_int (by norm_num)) (by norm_num)"]*(n-1))
    if n==2:
        out+='''theorem int_abs32 {x : F32} {a : ℤ} (hx : Exactly x a) : Exactly (Scalar.abs x) ((|a| : ℤ) : ℝ) := ⟨finite_abs.2 hx.1, by rw [real_abs, hx.2, Int.cast_abs]⟩
'''
    anon=lambda l: '⟨'+', '.join(l)+'⟩'
    out+=f'''/-! ## Dimension {n} -/
/-- A flat box from `-1` to `2^24`. -/
noncomputable def thin{n} : {B} F32 := ⟨⟨int32 (-1){zs}⟩, ⟨int32 16777216{zs}⟩⟩
/-- The plane through its upper end, facing up. -/
noncomputable def thinN{n} : {V} F32 := ⟨int32 1{zs}⟩
noncomputable def thinO{n} : {P} F32 := ⟨int32 16777216{zs}⟩
theorem thin_dot{n} : Exactly (Api.dot thinN{n} (thinO{n} - thinO{n} : {V} F32) : F32) ((0 : ℤ) : ℝ) :=
  {dmax}
theorem thin_inside{n} : thin{n}.isInside thinO{n} = true := by
  rw [(C25_inside{n} _ _).1, {P}.leAll, {P}.leAll]
  exact ⟨{anon(['le_exact (x := int32 (-1)) (a := -1) (y := int32 16777216) (b := 16777216) exactly_int exactly_int (by norm_num)']+['le_exact (x := int32 0) (a := 0) (y := int32 0) (b := 0) exactly_int exactly_int (by norm_num)']*(n-1))},
    {anon(['le_exact (x := int32 16777216) (a := 16777216) (y := int32 16777216) (b := 16777216) exactly_int exactly_int (by norm_num)']+['le_exact (x := int32 0) (a := 0) (y := int32 0) (b := 0) exactly_int exactly_int (by norm_num)']*(n-1))}⟩
theorem thin_wf{n} : LeAll thin{n}.min thin{n}.max := by
  rw [{P}.leAll]
  exact {anon(['le_exact (x := int32 (-1)) (a := -1) (y := int32 16777216) (b := 16777216) exactly_int exactly_int (by norm_num)']+['le_exact (x := int32 0) (a := 0) (y := int32 0) (b := 0) exactly_int exactly_int (by norm_num)']*(n-1))}
theorem thin_visible{n} : thinO{n}.Visible [(thinN{n}, thinO{n})] := fun q hq => by
  rw [List.mem_singleton] at hq; subst hq
  exact le_exact int_zero32 thin_dot{n} (by norm_num)
/-- **C110** ({w}, finding): in `f32` the center-and-extents test rejects a box that contains a point of the plane, because the
extent was rounded down; the farthest-corner test keeps it. -/
theorem C110_center_wrong{n} (build : Build) : thin{n}.behindCenter thinN{n} thinO{n} = true ∧ thin{n}.behind build thinN{n} thinO{n} = false ∧
    thin{n}.isInside thinO{n} = true ∧ thinO{n}.Visible [(thinN{n}, thinO{n})] := by
  refine ⟨?_, ?_, thin_inside{n}, thin_visible{n}⟩
  · have d1 : Exactly (Api.dot thinN{n} (thin{n}.center - thinO{n} : {V} F32) : F32) ((-8388609 : ℤ) : ℝ) :=
      {dc}
    have d2 : Exactly (Api.dot thinN{n}.abs thin{n}.diagonal : F32) ((16777216 : ℤ) : ℝ) :=
      {da}
    exact lt_exact (int_add32' d1 (half_even32 (a := 8388608) d2 (by norm_num)) (by norm_num)) int_zero32 (by norm_num)
  · rw [Bool.eq_false_iff]
    intro h
    have := C110_behind{n} _ _ _ _ build h thin_inside{n}
    rw [thin_visible{n} _ (List.mem_singleton_self _)] at this
    cases this
theorem thin_clear{n} : thin{n}.Clear thinN{n} thinO{n} := by
  have f : IsFinite ((int32 0 : F32) * (int32 0 - int32 0)) := (int_mul32 (x := int32 0) (a := 0) exactly_int (int_sub32' (x := int32 0) (y := int32 0) (a := 0) (b := 0) exactly_int exactly_int (by norm_num)) (by norm_num)).1
  refine ⟨⟨?_, ?_⟩, {anon(['f','f']) if n==2 else '⟨f, f⟩, f, f'}⟩
  · have e : Exactly ((int32 (-1) : F32) - int32 16777216) ((-16777216 : ℤ) : ℝ) := by
      refine exec_sub (x := ((-1 : ℤ) : ℝ)) (y := ((16777216 : ℤ) : ℝ)) exactly_int exactly_int ?_ (big32 (by norm_num [_root_.abs]))
      have := Fmt.rnd_lit_even binary32 (x := ((16777216 : ℤ) : ℝ) - ((-1 : ℤ) : ℝ)) 24 1 8388608 (by decide) (by decide) (by norm_num) (by norm_num) (by norm_num) (by norm_num)
      rw [show ((-1 : ℤ) : ℝ) - ((16777216 : ℤ) : ℝ) = -(((16777216 : ℤ) : ℝ) - ((-1 : ℤ) : ℝ)) by norm_num, Fmt.rnd_neg]
      exact (congrArg Neg.neg this).trans (by norm_num)
    exact (int_mul32 (x := int32 1) (a := 1) exactly_int e (by norm_num)).1
  · exact (int_mul32 (x := int32 1) (a := 1) exactly_int (int_sub32' (x := int32 16777216) (y := int32 16777216) (a := 16777216) (b := 16777216) exactly_int exactly_int (by norm_num)) (by norm_num)).1
example : thinN{n}.farIndex < {2**n} ∧ thinN{n}.Along thinN{n}.farIndex := C110_index{n} thinN{n} (by rw [{V}.noNaN]; exact {anon(['(exactly_int (n := 1) (h := by norm_num)).1.not_nan']+['(exactly_int (n := 0) (h := by norm_num)).1.not_nan']*(n-1))})
example := C110_clear{n} _ _ _ _ thin_clear{n} thin_inside{n}
example (build : Build) := C110_exact{n} _ _ _ build thin_wf{n} thin_clear{n}
example (build : Build) : thin{n}.kept build [(thinN{n}, thinO{n})] = true := C110_kept{n} _ _ _ build thin_inside{n} thin_visible{n}
example (build : Build) : thin{n} ∈ (Tree.node (.leaf thin{n}) (.leaf thin{n})).search Api.union ({B}.kept build [(thinN{n}, thinO{n})]) :=
  C110_tree_visible{n} _ build _ (by intro b hb; simp [Tree.leaves] at hb; subst hb; exact thin_wf{n}) _ (by simp [Tree.leaves]) _ thin_inside{n} thin_visible{n}
example (build : Build) := C110_tree{n} [(thinN{n}, thinO{n})] build (.node (.leaf thin{n}) (.leaf thin{n}))
  (by intro b hb; simp [Tree.leaves] at hb; subst hb; exact ⟨thin_wf{n}, fun q hq => by rw [List.mem_singleton] at hq; subst hq; exact thin_clear{n}⟩)

'''
out+='end VecMath\n'
open('/verif/lean/Verif/Props/FloatPlaneEx.lean','w').write(out)

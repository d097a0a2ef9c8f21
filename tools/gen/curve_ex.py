"""Generates Verif/Props/FloatCurveEx.lean (C118)."""
def part(d):
    D=str(d); P=f"Point{D}"; pad=", zero"*(d-1)
    cs="xyz"[:d]
    ac=lambda b,j: b+(f".{j+1}" if d==2 else [".1",".2.1",".2.2"][j])
    pts={2:["int32 0, int32 0","int32 1, int32 4","int32 3, int32 4","int32 4, int32 0"],3:["int32 0, int32 0, int32 1","int32 1, int32 4, int32 (-3)","int32 3, int32 4, int32 5","int32 4, int32 0, int32 1"]}[d]
    res={2:"![2, 3]",3:"![2, 3, 1]"}[d]
    mx={2:4,3:5}[d]
    finz=", finite_zero"*(d-1)
    triv=", ".join(["trivial"]*d)
    return f"""
/-! ## {D}D -/

/-- A cubic arc. -/
noncomputable def arc{D} : ℕ → {P} F32
  | 0 => ⟨{pts[0]}⟩
  | 1 => ⟨{pts[1]}⟩
  | 2 => ⟨{pts[2]}⟩
  | _ => ⟨{pts[3]}⟩
theorem arc{D}_finite (j : ℕ) : AllFinite (arc{D} j) := by
  match j with
  | 0 | 1 | 2 | _ + 3 => exact {P}.allFinite.2 ⟨{triv}⟩
theorem arc{D}_grid (j : ℕ) (i : Fin {d}) : OnGrid 0 {mx} ((arc{D} j).toReal i) := by
  match j with
  | 0 | 1 | 2 | _ + 3 => fin_cases i <;> exact OnGrid.int (by norm_num)
theorem arc{D}_bound (j : ℕ) (i : Fin {d}) : |(arc{D} j).toReal i| ≤ {mx} := by
  obtain ⟨n, h, e⟩ := arc{D}_grid j i
  rw [e, zpow_zero, mul_one]
  exact_mod_cast h
theorem arc{D}_box (j : ℕ) : (⟨⟨{", ".join(["int32 (-5)"]*d)}⟩, ⟨{", ".join(["int32 5"]*d)}⟩⟩ : BoundingBox{D} F32).isInside (arc{D} j) = true := by
  rw [isInside{D}_iff]
  match j with
  | 0 | 1 | 2 | _ + 3 => exact ⟨{", ".join(["⟨int_le118 (by norm_num), int_le118 (by norm_num)⟩"]*d)}⟩
/-- The middle of the arc is computed without rounding. -/
theorem arc{D}_middle : AllFinite ({P}.curve arc{D} 3 half) ∧ ({P}.curve arc{D} 3 half).toReal = {res} ∧
    (⟨⟨{", ".join(["int32 (-5)"]*d)}⟩, ⟨{", ".join(["int32 5"]*d)}⟩⟩ : BoundingBox{D} F32).isInside ({P}.curve arc{D} 3 half) = true := by
  obtain ⟨h1, h2, h3⟩ := C118_grid{D} arc{D} 3 half 0 1 {mx} (by norm_num) half_unit.1 finite_half ⟨1, by norm_num, by rw [real_half]; norm_num⟩
    (fun j _ => arc{D}_finite j) (fun j _ => arc{D}_grid j) ⟨by decide, by decide, by decide⟩ (fits_f32 (by norm_num))
  refine ⟨h1, funext fun i => ?_, h3 _ fun j _ => arc{D}_box j⟩
  rw [h2 i, real_half]
  simp only [bezier, Finset.sum_range_succ, Finset.sum_range_zero]
  fin_cases i <;>
    simp [arc{D}, {P}.toReal, real_int32, Nat.choose] <;> norm_num
/-- `C118_finite{D}` and `C118_error{D}` apply to the whole arc. -/
example (t : F32) (h0 : (zero ≤? t) = true) (h1 : (t ≤? one) = true) (i : Fin {d}) :
    |({P}.curve arc{D} 3 t).toReal i - bezier (fun j => (arc{D} j).toReal i) 3 (real t)| ≤ curveErr F32 3 {mx} :=
  C118_error{D} arc{D} 3 t {mx} h0 h1 (C118_finite{D} arc{D} 3 t {mx} h0 h1 (fun j _ => arc{D}_finite j) (fun j _ => arc{D}_bound j) curve32) (fun j _ => arc{D}_bound j) i
theorem arc{D}_step (j : ℕ) : AllFinite (arc{D} (j + 1) - arc{D} j) ∧ (arc{D} j + (arc{D} (j + 1) - arc{D} j) == arc{D} (j + 1)) = true := by
  rw [Vector{D}.allFinite, {P}.beq_iff]
  match j with
  | 0 | 1 | 2 | _ + 3 => exact ⟨⟨{", ".join(["int_diff118 (by norm_num)"]*d)}⟩, {", ".join(["int_step118 (by norm_num)"]*d)}⟩
/-- The arc starts and ends in its first and last control point. -/
example : ({P}.curve arc{D} 3 zero == arc{D} 0) = true ∧ ({P}.curve arc{D} 3 one == arc{D} 3) = true :=
  ⟨C118_start{D} arc{D} 3 zero (beq_self_iff.2 finite_zero.not_nan) (arc{D}_finite 0) fun j _ => (arc{D}_step j).1,
    C118_end{D} arc{D} 3 one (beq_self_iff.2 finite_one.not_nan) ({P}.noNaN.2 ⟨{", ".join([ac("("+P+".allFinite.1 (arc"+D+"_finite 3))",j)+".not_nan" for j in range(d)])}⟩) fun j _ => (arc{D}_step j).2⟩
/-- Between two control points. -/
example (t : F32) (h0 : (zero ≤? t) = true) (h1 : (t ≤? one) = true) :
    (⟨⟨{", ".join(["int32 (-5)"]*d)}⟩, ⟨{", ".join(["int32 5"]*d)}⟩⟩ : BoundingBox{D} F32).isInside ({P}.mix t (arc{D} 1) (arc{D} 2)) = true :=
  C118_segment{D} _ _ (arc{D}_finite 1) (arc{D}_step 1).1 (arc{D}_step 1).2 t h0 h1 _ (arc{D}_box 1) (arc{D}_box 2)
/-- **C118**: without the condition of `C118_segment{D}`, interpolation overshoots the second point and leaves a box that holds both points. -/
theorem C118_overshoot{D} : ∃ (p q : {P} F32) (b : BoundingBox{D} F32), AllFinite p ∧ AllFinite q ∧ AllFinite (q - p) ∧ b.isInside p = true ∧ b.isInside q = true ∧
    b.isInside ({P}.mix one p q) = false ∧ ({P}.mix one p q == q) = false := by
  have e : Exactly (({P}.mix one ⟨int32 (-16777216){pad}⟩ ⟨-half{pad}⟩ : {P} F32).x) ((0 : ℤ) : ℝ) := over_end
  refine ⟨⟨int32 (-16777216){pad}⟩, ⟨-half{pad}⟩, ⟨⟨int32 (-16777216){pad}⟩, ⟨-half{pad}⟩⟩, ?_, ?_, ?_, ?_, ?_, ?_, ?_⟩
  · exact {P}.allFinite.2 ⟨finite_int32 (h := by norm_num){finz}⟩
  · exact {P}.allFinite.2 ⟨finite_neg.2 finite_half{finz}⟩
  · exact Vector{D}.allFinite.2 ⟨over_diff.1{", (int_sub32' int_zero32 int_zero32 (by norm_num)).1"*(d-1)}⟩
  · rw [isInside{D}_iff]
    exact ⟨⟨int_le118 le_rfl, over_le⟩{", ⟨le_self finite_zero.not_nan, le_self finite_zero.not_nan⟩"*(d-1)}⟩
  · rw [isInside{D}_iff]
    exact ⟨⟨over_le, le_self (finite_neg.2 finite_half).not_nan⟩{", ⟨le_self finite_zero.not_nan, le_self finite_zero.not_nan⟩"*(d-1)}⟩
  · rw [Bool.eq_false_iff, Ne, isInside{D}_iff]
    intro h
    have h := h.1.2
    rw [le_fin e.1 (finite_neg.2 finite_half), e.2, IEEE.real_neg, real_half] at h
    norm_num at h
  · rw [Bool.eq_false_iff, Ne, {P}.beq_iff]
    intro h
    have h := real_of_num e.1 (finite_neg.2 finite_half) (num_of_beq h.1)
    rw [e.2, IEEE.real_neg, real_half] at h
    norm_num at h
/-- **C118**: without the condition of `C118_start{D}`, in every format there are finite points between which interpolation with `0` is NaN. -/
theorem C118_lost_start{D} : ∃ p q : {P} (Fl F), AllFinite p ∧ AllFinite q ∧ IsNaN ({P}.mix zero p q).x ∧ ({P}.mix zero p q == p) = false := by
  have n : IsNaN ({P}.mix zero (⟨-Fl.big F{pad}⟩ : {P} (Fl F)) ⟨Fl.big F{pad}⟩).x := big_step
  refine ⟨⟨-Fl.big F{pad}⟩, ⟨Fl.big F{pad}⟩, {P}.allFinite.2 ⟨finite_neg.2 Fl.finite_big{finz}⟩, {P}.allFinite.2 ⟨Fl.finite_big{finz}⟩, n, ?_⟩
  rw [Bool.eq_false_iff, Ne, {P}.beq_iff]
  intro h
  exact (beq_iff.1 h.1).1 n
"""
head="""import Verif.Props.RealCurve
import Verif.Props.FloatPlaneEx
/-!
# C118: concrete curves, and interpolation that overshoots

(Generated by tools/gen.)
-/

open Classical

namespace VecMath
open Scalar IEEE
variable {F : Fmt}

theorem half_unit : ((zero : F32) ≤? half) = true ∧ ((half : F32) ≤? one) = true := by
  rw [le_fin finite_zero finite_half, le_fin finite_half finite_one, real_zero, real_half, real_one]
  norm_num
theorem curve32 {M : ℝ} (h0 : 0 ≤ M := by norm_num) (h : M ≤ 5 := by norm_num) : 3 * (M + curveErr F32 3 M) < overflowAt F32 := by
  have u0 := uro_pos (S := F32)
  have u1 := uro_le (S := F32)
  have t0 := tiny_pos (S := F32)
  have t1 : tiny F32 ≤ 1 := by
    show (2 : ℝ) ^ (binary32.emin - 1) ≤ 1
    rw [← zpow_zero (2 : ℝ)]; exact Fmt.z_le (by decide)
  have o : (1000000 : ℝ) ≤ overflowAt F32 := overflow32
  have m1 : mixErr F32 ≤ 2 := by unfold mixErr; nlinarith [pow_le_pow_left₀ u0.le u1 2, pow_le_pow_left₀ u0.le u1 3]
  have m0 := mixErr_pos (S := F32)
  have p : (1 + mixErr F32) ^ 3 ≤ 3 ^ 3 := pow_le_pow_left₀ (by linarith) (by linarith) 3
  have q : M + 3 * ((1 + uro F32) * tiny F32) ≤ 11 := by nlinarith
  have := mul_le_mul p q (by positivity) (by norm_num)
  unfold curveErr
  push_cast
  linarith
theorem int_step118 {a b : ℤ} (h : |b - a| ≤ 16777216) (ha : |a| ≤ 16777216 := by norm_num) (hb : |b| ≤ 16777216 := by norm_num) : (int32 a ha + (int32 b hb - int32 a ha) == int32 b hb) = true := by
  have e := int_add32' (x := int32 a ha) exactly_int (int_sub32' (x := int32 b hb) (y := int32 a ha) exactly_int exactly_int h) (by rw [add_sub_cancel]; exact hb)
  rw [add_sub_cancel] at e
  exact beq_of_num' (num_of_real e.1 finite_int32 (e.2.trans real_int32.symm)) finite_int32.not_nan
theorem int_le118 {a b : ℤ} (h : a ≤ b) (ha : |a| ≤ 16777216 := by norm_num) (hb : |b| ≤ 16777216 := by norm_num) : (int32 a ha ≤? int32 b hb) = true := le_exact exactly_int exactly_int h
theorem int_diff118 {a b : ℤ} (h : |b - a| ≤ 16777216) (ha : |a| ≤ 16777216 := by norm_num) (hb : |b| ≤ 16777216 := by norm_num) : IsFinite (int32 b hb - int32 a ha) :=
  (int_sub32' (x := int32 b hb) (y := int32 a ha) exactly_int exactly_int h).1
theorem over_diff : Exactly ((-half : F32) - int32 (-16777216)) ((16777216 : ℤ) : ℝ) := by
  refine exec_sub (x := -(1 / 2)) (y := ((-16777216 : ℤ) : ℝ)) ⟨finite_neg.2 finite_half, by rw [IEEE.real_neg, real_half]⟩ exactly_int ?_ (big32 (by norm_num))
  have := Fmt.rnd_lit_even binary32 (x := -(1 / 2) - ((-16777216 : ℤ) : ℝ)) 23 0 16777216 (by decide) (by decide) (by norm_num) (by norm_num) (by norm_num) (by norm_num)
  exact this.trans (by norm_num)
theorem over_end : Exactly (mix1 one (int32 (-16777216)) (-half : F32)) ((0 : ℤ) : ℝ) := by
  have h : Exactly (((-half : F32) - int32 (-16777216)) * one) ((16777216 : ℤ) : ℝ) := by
    have n := IEEE.num_mul_one ((-half : F32) - int32 (-16777216))
    have f := finite_of_num n over_diff.1
    exact ⟨f, (real_of_num f over_diff.1 n).trans over_diff.2⟩
  exact int_add32' exactly_int h (by norm_num)
theorem over_le : ((int32 (-16777216) : F32) ≤? -half) = true := by
  rw [le_fin finite_int32 (finite_neg.2 finite_half), real_int32, IEEE.real_neg, real_half]
  norm_num
theorem big_step : IsNaN (mix1 zero (-Fl.big F) (Fl.big F)) := by
  have h : ¬ IsFinite (Fl.big F - -Fl.big F) := by
    rw [(correct_sub Fl.finite_big (finite_neg.2 Fl.finite_big)).1, IEEE.real_neg, sub_neg_eq_add, ← Fl.big_double, not_lt, abs_of_pos (Fmt.z_pos _)]
    exact Fl.overflow_le
  have n : ¬ IsNaN (Fl.big F - -Fl.big F) := isNaN_sub_finite (finite_neg.2 Fl.finite_big) Fl.finite_big.not_nan
  have m : IsNaN ((Fl.big F - -Fl.big F) * zero) := by
    generalize Fl.big F - -Fl.big F = x at h n
    unfold IsNaN IsFinite at *
    rw [den_mul]
    cases e : den x with
    | nan => exact absurd e n
    | inf s =>
      have : (den (zero : Fl F)).IsFin := finite_zero
      rw [Rounding.mul_inf_fin _ s this, if_pos]
      exact real_zero (S := Fl F)
    | nzero => exact absurd (by rw [e]; trivial) h
    | fin y => exact absurd (by rw [e]; trivial) h
  exact isNaN_add_right m
"""
real="""
/-! ## Without rounding -/

/-- Control points for the exact theorems. -/
example : AllFinite (Point2.curve (fun j => ⟨Ideal.of j, Ideal.of (j ^ 2)⟩) 2 (Ideal.of 3)) ∧
    (Point2.curve (fun j => ⟨Ideal.of j, Ideal.of (j ^ 2)⟩) 2 (Ideal.of 3)).toReal 1 = bezier (fun j => (j : ℝ) ^ 2) 2 3 :=
  have h := C118_real2 (fun j => ⟨Ideal.of j, Ideal.of (j ^ 2)⟩) 2 (Ideal.of 3) (Ideal.finite_of _) fun _ _ => Point2.allFinite.2 ⟨trivial, trivial⟩
  ⟨h.1, h.2 1⟩
example (s t : Ideal) (hs : IsFinite s) (ht : IsFinite t) :
    (Point3.curve (Point3.upTo (fun j => ⟨Ideal.of j, Ideal.of (j ^ 2), Ideal.of 1⟩) s) 4 t == Point3.curve (fun j => ⟨Ideal.of j, Ideal.of (j ^ 2), Ideal.of 1⟩) 4 (s * t)) = true :=
  (C118_real_split3 (fun j => ⟨Ideal.of j, Ideal.of (j ^ 2), Ideal.of 1⟩) 4 s t hs ht fun _ _ => Point3.allFinite.2 ⟨trivial, trivial, trivial⟩).1
"""
open('/tmp/d/p118/FloatCurveEx.lean','w').write(head+part(2)+part(3)+real+"\nend VecMath\n")

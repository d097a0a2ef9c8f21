import Verif.Spec.Pivot
import Verif.Props.FloatDrift
import Verif.Props.FloatInverse
import Verif.Props.FloatInvAffine
/-!
# Composing transforms or applying them one after the other; pivots, in floating point (layer F): C111

(Generated by tools/gen.)
-/

open Classical

namespace VecMath
open Scalar IEEE

section
variable {n : ℕ} {M A X s : Matrix (Fin n) (Fin n) ℝ} {v w x a e : Fin n → ℝ} {q r τ : ℝ}
/-- Applying an exact matrix to an approximate vector. -/
theorem step_left (hq : 1 ≤ q) (hp : ∀ i, |w i - ∑ k, M i k * v k| ≤ (q - 1) * ∑ k, |M i k * v k| + τ)
    (hX : ∀ i, |x i| ≤ a i) (hC : ∀ i, |v i - x i| ≤ (r - 1) * a i + e i) (i : Fin n) :
    |M.mulVec x i| ≤ (M.map abs).mulVec a i ∧ |w i - M.mulVec x i| ≤ (r * q - 1) * (M.map abs).mulVec a i + (q * (M.map abs).mulVec e i + τ) := by
  exact chain_left (P := Matrix.of fun i _ => w i) (M := M) (C := Matrix.of fun i _ => v i) (X := Matrix.of fun i _ => x i) (A := Matrix.of fun i _ => a i)
    (s := Matrix.of fun i _ => e i) hq (fun i _ => hp i) (fun i _ => hX i) (fun i _ => hC i) i i
/-- Applying an approximate matrix to an exact vector. -/
theorem step_right {C : Matrix (Fin n) (Fin n) ℝ} (hq : 1 ≤ q) (hp : ∀ i, |w i - ∑ k, C i k * v k| ≤ (q - 1) * ∑ k, |C i k * v k| + τ)
    (hX : ∀ i j, |X i j| ≤ A i j) (hC : ∀ i j, |C i j - X i j| ≤ (r - 1) * A i j + s i j) (i : Fin n) :
    |w i - X.mulVec v i| ≤ (r * q - 1) * A.mulVec (fun j => |v j|) i + (q * s.mulVec (fun j => |v j|) i + τ) := by
  exact (chain_right (P := Matrix.of fun i _ => w i) (M := Matrix.of fun i _ => v i) (C := C) (X := X) (A := A)
    (s := s) hq (fun i _ => hp i) hX hC i i).2
end

section
variable {S : Type} [Scalar S] [IEEE S]
theorem rowz2 {a b x y o : S} (ha : IsFinite a) (hb : IsFinite b) (hx : num x = num (zero : S)) (hy : num y = num (zero : S)) : num (a * x + b * y + o) = num o :=
  (num_add_congr ((num_add_congr (nz_mul ha hx) (nz_mul hb hy)).trans (IEEE.num_zero_add _)) rfl).trans (IEEE.num_zero_add _)
theorem rowz3 {a b c x y z o : S} (ha : IsFinite a) (hb : IsFinite b) (hc : IsFinite c) (hx : num x = num (zero : S)) (hy : num y = num (zero : S)) (hz : num z = num (zero : S)) :
    num (a * x + b * y + c * z + o) = num o :=
  (num_add_congr ((rowz2 ha hb hx hy).trans (nz_mul hc hz)) rfl).trans (IEEE.num_zero_add _)
theorem finite_num_div {a b : S} (h : IsFinite (a / b)) : IsFinite a := by
  unfold IsFinite at *; rw [den_div] at h
  revert h
  generalize den a = x; generalize den b = y
  intro h
  induction x using Val.cases_inf_fin with
  | hn => simp at h
  | hi s => exfalso; revert h; induction y using Val.cases_inf_fin with
    | hn => simp
    | hi t => simp
    | hf y hy => rw [Rounding.div_inf_fin _ _ hy]; simp
  | hf x hx => exact hx
end

/-! ## Dimension 2 -/
section
variable {S : Type} [Scalar S] [IEEE S] [Binary S]
omit [Binary S] in
theorem Transform2.point_finite {t : Transform2 S} {p : Point2 S} (h : AllFinite (Transform.transform t p : Point2 S)) : AllFinite p := by
  rw [Point2.allFinite] at *
  have r0 := finite_of_add (finite_of_add (finite_num_div h.1)).1
  exact ⟨(finite_of_mul r0.1).2, (finite_of_mul r0.2).2⟩
theorem Transform2.step_error {t : Transform2 S} {p : Point2 S} (ht : AllFinite t.forward) (haff : t.forward.toReal 2 = ![0, 0, 1]) (h : AllFinite (Transform.transform t p : Point2 S)) (i : Fin 3) :
    |homog (Transform.transform t p : Point2 S).toReal i - ∑ j, t.forward.toReal i j * homog p.toReal j| ≤
      ((1 + uro S) ^ 3 - 1) * ∑ j, |t.forward.toReal i j * homog p.toReal j| + (1 + uro S) ^ 2 * (2 * tiny S) := by
  have hu := uro_pos (S := S)
  have htiny := tiny_pos (S := S)
  induction i using Fin.lastCases with
  | last =>
    have e : ∑ j, t.forward.toReal (Fin.last 2) j * homog p.toReal j = 1 := by
      rw [Fin.sum_univ_castSucc]
      have := congrFun haff
      simp only [homog, Fin.snoc_last, Fin.snoc_castSucc]
      rw [show (Fin.last 2) = (2 : Fin 3) from rfl, haff]
      simp [Fin.sum_univ_two]
    rw [e, homog, Fin.snoc_last, sub_self, abs_zero]
    have : (1 : ℝ) ≤ (1 + uro S) ^ 3 := one_le_pow₀ (by linarith)
    have h0 : 0 ≤ ∑ j, |t.forward.toReal (Fin.last 2) j * homog p.toReal j| := Finset.sum_nonneg fun j _ => abs_nonneg _
    have := mul_nonneg (sub_nonneg.2 this) h0
    positivity
  | cast i =>
    have := C63_point2 t p ht (Transform2.point_finite h) haff h i
    have e : ∀ f : Fin 3 → ℝ, ∑ j, f j = ∑ j : Fin 2, f j.castSucc + f (Fin.last 2) := fun f => Fin.sum_univ_castSucc f
    rw [e, e]
    simp only [homog, Fin.snoc_last, Fin.snoc_castSucc, mul_one]
    exact this
theorem homog_abs2 (p : Fin 2 → ℝ) : (fun j => |homog p j|) = homog fun j => |p j| := by
  funext j
  induction j using Fin.lastCases with
  | last => simp only [homog, Fin.snoc_last, abs_one]
  | cast j => simp only [homog, Fin.snoc_castSucc]
theorem Transform2.prod_abs (us : List (Transform2 S)) (i j : Fin 3) : |(us.map fun u : Transform2 S => u.forward.toReal).reverse.prod i j| ≤ (us.map fun u : Transform2 S => u.forward.toReal.map abs).reverse.prod i j := by
  induction us using List.reverseRecOn generalizing i j with
  | nil => simp [Matrix.one_apply]; split <;> simp
  | append_singleton ts u ih =>
    rw [List.map_append, List.map_append, List.map_singleton, List.map_singleton, List.reverse_append, List.reverse_append, List.reverse_singleton, List.reverse_singleton,
      List.singleton_append, List.singleton_append, List.prod_cons, List.prod_cons, Matrix.mul_apply, Matrix.mul_apply]
    refine (Finset.abs_sum_le_sum_abs _ _).trans (Finset.sum_le_sum fun l _ => ?_)
    rw [abs_mul]
    exact mul_le_mul_of_nonneg_left (ih l j) (abs_nonneg _)
/-- **C111** (2D): the image of a point under a composed chain of affine transforms is within `3` roundings per transform of the
exact image, relative to the same product of absolute values, plus underflow. -/
theorem C111_composed2 (t : Transform2 S) (ts : List (Transform2 S)) (haff : ∀ u ∈ t :: ts, u.forward.toReal 2 = ![0, 0, 1]) (p : Point2 S)
    (hf : AllFinite (ts.foldl Transform2.andThen t).forward) (h : AllFinite (Transform.transform (ts.foldl Transform2.andThen t) p : Point2 S)) (i : Fin 2) :
    |(Transform.transform (ts.foldl Transform2.andThen t) p : Point2 S).toReal i - ((t :: ts).map fun u : Transform2 S => u.forward.toReal).reverse.prod.mulVec (homog p.toReal) i.castSucc| ≤
      ((1 + uro S) ^ (3 * (t :: ts).length) - 1) * ((t :: ts).map fun u : Transform2 S => u.forward.toReal.map abs).reverse.prod.mulVec (homog fun j => |p.toReal j|) i.castSucc +
      ((1 + uro S) ^ 3 * (Transform2.slack ts).mulVec (homog fun j => |p.toReal j|) i.castSucc + (1 + uro S) ^ 2 * (2 * tiny S)) := by
  have hu := uro_pos (S := S)
  have := step_right (one_le_pow₀ (by linarith) : (1 : ℝ) ≤ (1 + uro S) ^ 3) (Transform2.step_error hf (C72_affine2 t ts haff hf) h) (Transform2.prod_abs (t :: ts)) (C71_forward2 t ts hf) i.castSucc
  rw [← pow_add, homog_abs2] at this
  simp only [homog, Fin.snoc_castSucc] at this ⊢
  rw [List.length_cons, Nat.mul_add, Nat.mul_one]
  exact this
/-- **C111** (2D): the same holds for the image computed by applying the transforms one after the other. -/
theorem C111_one_by_one2 (ts : List (Transform2 S)) (haff : ∀ u ∈ ts, AllFinite u.forward ∧ u.forward.toReal 2 = ![0, 0, 1]) (p : Point2 S)
    (h : AllFinite (Transform2.oneByOne ts p)) (i : Fin 2) :
    |(Transform2.oneByOne ts p).toReal i - (ts.map fun u : Transform2 S => u.forward.toReal).reverse.prod.mulVec (homog p.toReal) i.castSucc| ≤
      ((1 + uro S) ^ (3 * ts.length) - 1) * (ts.map fun u : Transform2 S => u.forward.toReal.map abs).reverse.prod.mulVec (homog fun j => |p.toReal j|) i.castSucc +
      Transform2.stepSlack ts i.castSucc := by
  have hu := uro_pos (S := S)
  suffices H : ∀ i, |(ts.map fun u : Transform2 S => u.forward.toReal).reverse.prod.mulVec (homog p.toReal) i| ≤ (ts.map fun u : Transform2 S => u.forward.toReal.map abs).reverse.prod.mulVec (homog fun j => |p.toReal j|) i ∧
      |homog (Transform2.oneByOne ts p).toReal i - (ts.map fun u : Transform2 S => u.forward.toReal).reverse.prod.mulVec (homog p.toReal) i| ≤
      ((1 + uro S) ^ (3 * ts.length) - 1) * (ts.map fun u : Transform2 S => u.forward.toReal.map abs).reverse.prod.mulVec (homog fun j => |p.toReal j|) i + Transform2.stepSlack ts i by
    have := (H i.castSucc).2
    simp only [homog, Fin.snoc_castSucc] at this ⊢
    exact this
  clear i
  induction ts using List.reverseRecOn with
  | nil =>
    intro i
    simp only [Transform2.oneByOne, Transform2.stepSlack, List.foldl_nil, List.map_nil, List.reverse_nil, List.prod_nil, Matrix.one_mulVec, List.length_nil, Nat.mul_zero, pow_zero, sub_self, zero_mul, abs_zero, Pi.zero_apply, add_zero, le_refl, and_true]
    rw [← congrFun (homog_abs2 p.toReal) i]
  | append_singleton ts u ih =>
    have e : Transform2.oneByOne (ts ++ [u]) p = (Transform.transform u (Transform2.oneByOne ts p) : Point2 S) := by
      simp [Transform2.oneByOne, List.foldl_append]
    rw [e] at h ⊢
    have hu' := haff u (by simp)
    have ih := ih (fun v hv => haff v (by simp [hv])) (Transform2.point_finite h)
    intro i
    have := step_left (one_le_pow₀ (by linarith) : (1 : ℝ) ≤ (1 + uro S) ^ 3) (Transform2.step_error hu'.1 hu'.2 h) (fun i => (ih i).1) (fun i => (ih i).2) i
    rw [← pow_add, Matrix.mulVec_mulVec, Matrix.mulVec_mulVec] at this
    simp only [List.map_append, List.map_cons, List.map_nil, List.reverse_append, List.reverse_cons, List.reverse_nil, List.nil_append, List.cons_append, List.prod_cons,
      List.length_append, List.length_cons, List.length_nil, Nat.mul_add, Nat.zero_add, Nat.mul_one] at this ⊢
    rw [Transform2.stepSlack, List.foldl_append, List.foldl_cons, List.foldl_nil]
    exact this
/-- A point whose coordinates are zeros goes to the offset. -/
theorem Transform2.zero_image {t : Transform2 S} (ht : AllFinite t.forward) (haff : t.forward.toReal 2 = ![0, 0, 1]) {p : Point2 S} (hp : num p.x = num (zero : S) ∧ num p.y = num (zero : S)) :
    num (Transform.transform t p : Point2 S).x = num t.forward.m[2] ∧ num (Transform.transform t p : Point2 S).y = num t.forward.m[5] := by
  have fin : AllFinite t.forward := ht
  have hf := Matrix3x3.allFinite.1 ht
  have ha := Matrix3x3.aff ht haff
  refine ⟨?_, ?_⟩
  · exact num_div_of_one (rowz2 (hf 0 (by decide)) (hf 1 (by decide)) hp.1 hp.2) ((rowz2 (hf 6 (by decide)) (hf 7 (by decide)) hp.1 hp.2).trans ha.2.2)
  · exact num_div_of_one (rowz2 (hf 3 (by decide)) (hf 4 (by decide)) hp.1 hp.2) ((rowz2 (hf 6 (by decide)) (hf 7 (by decide)) hp.1 hp.2).trans ha.2.2)
/-- **C111** (2D): when the three steps of a transform about a pivot are applied one after the other, the pivot itself goes to where the transform
takes the origin, moved to the pivot with one rounding per coordinate; so a transform that fixes the origin leaves the pivot exactly in place. -/
theorem C111_pivot2 (t : Transform2 S) (ht : AllFinite t.forward) (haff : t.forward.toReal 2 = ![0, 0, 1]) (c : Point2 S) (hc : AllFinite c) :
    (Transform2.oneByOne [Transform2.translate (-(Vector2.fromPoint c)), t, Transform2.translate (Vector2.fromPoint c)] c == (Transform.transform t (Point2.origin : Point2 S) : Point2 S) + Vector2.fromPoint c) = true ∧
    ((Transform.transform t (Point2.origin : Point2 S) == (Point2.origin : Point2 S)) = true →
      (Transform2.oneByOne [Transform2.translate (-(Vector2.fromPoint c)), t, Transform2.translate (Vector2.fromPoint c)] c == c) = true) := by
  have hv : AllFinite (Vector2.fromPoint c) := by rw [Vector2.allFinite]; rw [Point2.allFinite] at hc; exact hc
  have hnv : AllFinite (-(Vector2.fromPoint c)) := by
    rw [Vector2.allFinite] at hv ⊢; exact ⟨finite_neg.2 hv.1, finite_neg.2 hv.2⟩
  have b1 := Point2.beq_iff.1 (C46_float_translate2 (-(Vector2.fromPoint c)) (Vector2.fromPoint c) c hc hnv.noNaN hv).1
  set q := (Transform.transform (Transform2.translate (-(Vector2.fromPoint c))) c : Point2 S) with hq
  rw [Point2.allFinite] at hc
  have zz : ∀ {x : S}, IsFinite x → num (x + -x) = num (zero : S) := fun h => by rw [num_add, nadd_neg h, num_zero]
  have z1 := Transform2.zero_image ht haff (p := q) ⟨(num_of_beq b1.1).trans (zz hc.1), (num_of_beq b1.2).trans (zz hc.2)⟩
  have z0 := Transform2.zero_image ht haff (p := (Point2.origin : Point2 S)) ⟨rfl, rfl⟩
  set r := (Transform.transform t q : Point2 S) with hr
  have hf := Matrix3x3.allFinite.1 ht
  have fr : AllFinite r := Point2.allFinite.2 ⟨finite_of_num z1.1 (hf 2 (by decide)), finite_of_num z1.2 (hf 5 (by decide))⟩
  have b2 := Point2.beq_iff.1 (C46_float_translate2 (Vector2.fromPoint c) (Vector2.fromPoint c) r fr hv.noNaN hv).1
  rw [Point2.allFinite] at fr
  have e : Transform2.oneByOne [Transform2.translate (-(Vector2.fromPoint c)), t, Transform2.translate (Vector2.fromPoint c)] c = (Transform.transform (Transform2.translate (Vector2.fromPoint c)) r : Point2 S) := rfl
  rw [e]
  have go : ∀ {x y w o : S}, (x == w + y) = true → num w = num o → (x == o + y) = true := fun h h' =>
    beq_of_num ((num_of_beq h).trans (num_add_congr h' rfl)) (beq_iff.1 h).1
  have fix : ∀ {x y o : S}, (x == o + y) = true → (o == (zero : S)) = true → (x == y) = true := fun h h' =>
    beq_of_num ((num_of_beq h).trans ((num_add_congr (num_of_beq h') rfl).trans (IEEE.num_zero_add _))) (beq_iff.1 h).1
  have main : ((Transform2.translate (Vector2.fromPoint c)).forward * r == (Transform.transform t (Point2.origin : Point2 S) : Point2 S) + Vector2.fromPoint c) = true :=
    Point2.beq_iff.2 ⟨go b2.1 (z1.1.trans z0.1.symm), go b2.2 (z1.2.trans z0.2.symm)⟩
  refine ⟨main, fun h0 => Point2.beq_iff.2 ?_⟩
  have m := Point2.beq_iff.1 main
  have h0 := Point2.beq_iff.1 h0
  exact ⟨fix m.1 h0.1, fix m.2 h0.2⟩
theorem Matrix3x3.affine_homog {m : Matrix (Fin 3) (Fin 3) ℝ} (h : m 2 = ![0, 0, 1]) (p : Fin 2 → ℝ) :
    m.mulVec (homog p) = homog fun i => ∑ j, m i.castSucc j.castSucc * p j + m i.castSucc (Fin.last 2) := by
  have e : ∀ f : Fin 3 → ℝ, ∑ j, f j = ∑ j : Fin 2, f j.castSucc + f (Fin.last 2) := fun f => Fin.sum_univ_castSucc f
  funext i
  induction i using Fin.lastCases with
  | last =>
    simp only [Matrix.mulVec, dotProduct, homog, Fin.snoc_last]
    rw [e]
    simp only [Fin.snoc_last, Fin.snoc_castSucc]
    rw [show (Fin.last 2) = (2 : Fin 3) from rfl, h]
    simp [Fin.sum_univ_two]
  | cast i =>
    simp only [Matrix.mulVec, dotProduct, homog, Fin.snoc_castSucc]
    rw [e]
    simp only [Fin.snoc_last, Fin.snoc_castSucc, mul_one]
omit [Binary S] in
theorem Matrix3x3.translate_toReal (v : Vector2 S) : (Matrix3x3.translate v).toReal = !![1, 0, real v.x; 0, 1, real v.y; 0, 0, 1] := by
  funext i j
  fin_cases i <;> fin_cases j <;> first | exact real_zero (S := S) | exact real_one (S := S) | rfl
omit [Binary S] in
theorem Matrix3x3.translate_fin {v : Vector2 S} (hv : AllFinite v) : AllFinite (Matrix3x3.translate v) := by
  rw [Matrix3x3.allFinite, forall_lt_9]
  rw [Vector2.allFinite] at hv
  have z := finite_zero (S := S)
  have o := finite_one (S := S)
  exact ⟨o, z, hv.1, z, o, hv.2, z, z, o⟩
omit [Binary S] in
theorem Matrix3x3.translate_homog (v : Vector2 S) (p : Fin 2 → ℝ) :
    (Matrix3x3.translate v).toReal.mulVec (homog p) = homog (fun i => p i + v.toReal i) ∧ ((Matrix3x3.translate v).toReal.map abs).mulVec (homog p) = homog (fun i => p i + |v.toReal i|) := by
  have h1 : (Matrix3x3.translate v).toReal 2 = ![0, 0, 1] := by rw [Matrix3x3.translate_toReal]; funext j; fin_cases j <;> rfl
  have h2 : ((Matrix3x3.translate v).toReal.map abs) 2 = ![0, 0, 1] := by
    funext j; rw [Matrix.map_apply, h1]; fin_cases j <;> simp
  rw [Matrix3x3.affine_homog h1, Matrix3x3.affine_homog h2, Matrix3x3.translate_toReal]
  constructor <;> congr 1 <;> funext i <;> fin_cases i <;> simp [Fin.sum_univ_two, Fin.last, Vector2.toReal]
/-- The exact image of a point under an affine transform about a pivot, and the size of its terms. -/
theorem Transform2.about_exact (t : Transform2 S) (haff : t.forward.toReal 2 = ![0, 0, 1]) (c p : Point2 S) (i : Fin 2) :
    (([Transform2.translate (-(Vector2.fromPoint c)), t, Transform2.translate (Vector2.fromPoint c)] : List (Transform2 S)).map fun u : Transform2 S => u.forward.toReal).reverse.prod.mulVec (homog p.toReal) i.castSucc =
      c.toReal i + ∑ j, t.forward.toReal i.castSucc j.castSucc * (p.toReal j - c.toReal j) + t.forward.toReal i.castSucc 2 ∧
    (([Transform2.translate (-(Vector2.fromPoint c)), t, Transform2.translate (Vector2.fromPoint c)] : List (Transform2 S)).map fun u : Transform2 S => u.forward.toReal.map abs).reverse.prod.mulVec (homog fun j => |p.toReal j|) i.castSucc =
      |c.toReal i| + ∑ j, |t.forward.toReal i.castSucc j.castSucc| * (|p.toReal j| + |c.toReal j|) + |t.forward.toReal i.castSucc 2| := by
  have haff' : (t.forward.toReal.map abs) 2 = ![0, 0, 1] := by
    funext j; rw [Matrix.map_apply, haff]; fin_cases j <;> simp
  have en : ∀ j, (-(Vector2.fromPoint c)).toReal j = -c.toReal j := by
    intro j; fin_cases j <;> exact IEEE.real_neg (S := S) _
  have ec : (Vector2.fromPoint c).toReal = c.toReal := rfl
  simp only [List.map_cons, List.map_nil, List.reverse_cons, List.reverse_nil, List.nil_append, List.cons_append, List.prod_cons, List.prod_nil, mul_one,
    ← Matrix.mulVec_mulVec]
  have f1 : (Transform2.translate (-(Vector2.fromPoint c)) : Transform2 S).forward = Matrix3x3.translate (-(Vector2.fromPoint c)) := rfl
  have f2 : (Transform2.translate (Vector2.fromPoint c) : Transform2 S).forward = Matrix3x3.translate (Vector2.fromPoint c) := rfl
  rw [f1, f2, (Matrix3x3.translate_homog _ _).1, (Matrix3x3.translate_homog _ _).2, Matrix3x3.affine_homog haff, Matrix3x3.affine_homog haff', (Matrix3x3.translate_homog _ _).1, (Matrix3x3.translate_homog _ _).2]
  simp only [homog, Fin.snoc_castSucc, Matrix.map_apply, ec, en, abs_neg]
  constructor
  · rw [show (Fin.last 2) = (2 : Fin 3) from rfl]
    simp only [← sub_eq_add_neg]; ring
  · rw [show (Fin.last 2) = (2 : Fin 3) from rfl]; ring
/-- **C111** (2D): the image of a point under an affine transform about a pivot (composed into one transform) is within `9` roundings of the exact image,
relative to a size that grows with the distance of the pivot from the origin. -/
theorem C111_about2 (t : Transform2 S) (haff : t.forward.toReal 2 = ![0, 0, 1]) (c p : Point2 S) (hf : AllFinite (t.about c).forward)
    (h : AllFinite (Transform.transform (t.about c) p : Point2 S)) (i : Fin 2) :
    |(Transform.transform (t.about c) p : Point2 S).toReal i - (c.toReal i + ∑ j, t.forward.toReal i.castSucc j.castSucc * (p.toReal j - c.toReal j) + t.forward.toReal i.castSucc 2)| ≤
      ((1 + uro S) ^ 9 - 1) * (|c.toReal i| + ∑ j, |t.forward.toReal i.castSucc j.castSucc| * (|p.toReal j| + |c.toReal j|) + |t.forward.toReal i.castSucc 2|) +
      ((1 + uro S) ^ 3 * (Transform2.slack [t, Transform2.translate (Vector2.fromPoint c)]).mulVec (homog fun j => |p.toReal j|) i.castSucc + (1 + uro S) ^ 2 * (2 * tiny S)) := by
  have := C111_composed2 (Transform2.translate (-(Vector2.fromPoint c))) [t, Transform2.translate (Vector2.fromPoint c)] (by
    intro u hu
    have ht : ∀ v : Vector2 S, (Matrix3x3.translate v).toReal 2 = ![0, 0, 1] := fun v => by rw [Matrix3x3.translate_toReal]; funext j; fin_cases j <;> rfl
    simp only [List.mem_cons, List.not_mem_nil, or_false] at hu
    rcases hu with rfl | rfl | rfl
    · exact ht _
    · exact haff
    · exact ht _) p hf h i
  rw [(Transform2.about_exact t haff c p i).1, (Transform2.about_exact t haff c p i).2] at this
  exact this
/-- **C111** (2D): and so is the image when the three steps are applied one after the other. -/
theorem C111_about_steps2 (t : Transform2 S) (ht : AllFinite t.forward) (haff : t.forward.toReal 2 = ![0, 0, 1]) (c p : Point2 S) (hc : AllFinite c)
    (h : AllFinite (Transform2.oneByOne [Transform2.translate (-(Vector2.fromPoint c)), t, Transform2.translate (Vector2.fromPoint c)] p)) (i : Fin 2) :
    |(Transform2.oneByOne [Transform2.translate (-(Vector2.fromPoint c)), t, Transform2.translate (Vector2.fromPoint c)] p).toReal i -
        (c.toReal i + ∑ j, t.forward.toReal i.castSucc j.castSucc * (p.toReal j - c.toReal j) + t.forward.toReal i.castSucc 2)| ≤
      ((1 + uro S) ^ 9 - 1) * (|c.toReal i| + ∑ j, |t.forward.toReal i.castSucc j.castSucc| * (|p.toReal j| + |c.toReal j|) + |t.forward.toReal i.castSucc 2|) +
      Transform2.stepSlack [Transform2.translate (-(Vector2.fromPoint c)), t, Transform2.translate (Vector2.fromPoint c)] i.castSucc := by
  have hv : AllFinite (Vector2.fromPoint c) := by rw [Vector2.allFinite]; rw [Point2.allFinite] at hc; exact hc
  have hnv : AllFinite (-(Vector2.fromPoint c)) := by
    rw [Vector2.allFinite] at hv ⊢; exact ⟨finite_neg.2 hv.1, finite_neg.2 hv.2⟩
  have := C111_one_by_one2 [Transform2.translate (-(Vector2.fromPoint c)), t, Transform2.translate (Vector2.fromPoint c)] (by
    intro u hu
    have h1 : ∀ v : Vector2 S, AllFinite v → AllFinite (Matrix3x3.translate v) ∧ (Matrix3x3.translate v).toReal 2 = ![0, 0, 1] := fun v hv => by
      refine ⟨Matrix3x3.translate_fin hv, ?_⟩
      rw [Matrix3x3.translate_toReal]; funext j; fin_cases j <;> rfl
    simp only [List.mem_cons, List.not_mem_nil, or_false] at hu
    rcases hu with rfl | rfl | rfl
    · exact h1 _ hnv
    · exact ⟨ht, haff⟩
    · exact h1 _ hv) p h i
  rw [(Transform2.about_exact t haff c p i).1, (Transform2.about_exact t haff c p i).2] at this
  exact this
end

/-! ## Dimension 3 -/
section
variable {S : Type} [Scalar S] [IEEE S] [Binary S]
omit [Binary S] in
theorem Transform3.point_finite {t : Transform3 S} {p : Point3 S} (h : AllFinite (Transform.transform t p : Point3 S)) : AllFinite p := by
  rw [Point3.allFinite] at *
  have r0 := finite_of_add (finite_of_add (finite_num_div h.1)).1
  have r1 := finite_of_add r0.1
  exact ⟨(finite_of_mul r1.1).2, (finite_of_mul r1.2).2, (finite_of_mul r0.2).2⟩
theorem Transform3.step_error {t : Transform3 S} {p : Point3 S} (ht : AllFinite t.forward) (haff : t.forward.toReal 3 = ![0, 0, 0, 1]) (h : AllFinite (Transform.transform t p : Point3 S)) (i : Fin 4) :
    |homog (Transform.transform t p : Point3 S).toReal i - ∑ j, t.forward.toReal i j * homog p.toReal j| ≤
      ((1 + uro S) ^ 4 - 1) * ∑ j, |t.forward.toReal i j * homog p.toReal j| + (1 + uro S) ^ 3 * (3 * tiny S) := by
  have hu := uro_pos (S := S)
  have htiny := tiny_pos (S := S)
  induction i using Fin.lastCases with
  | last =>
    have e : ∑ j, t.forward.toReal (Fin.last 3) j * homog p.toReal j = 1 := by
      rw [Fin.sum_univ_castSucc]
      have := congrFun haff
      simp only [homog, Fin.snoc_last, Fin.snoc_castSucc]
      rw [show (Fin.last 3) = (3 : Fin 4) from rfl, haff]
      simp [Fin.sum_univ_three]
    rw [e, homog, Fin.snoc_last, sub_self, abs_zero]
    have : (1 : ℝ) ≤ (1 + uro S) ^ 4 := one_le_pow₀ (by linarith)
    have h0 : 0 ≤ ∑ j, |t.forward.toReal (Fin.last 3) j * homog p.toReal j| := Finset.sum_nonneg fun j _ => abs_nonneg _
    have := mul_nonneg (sub_nonneg.2 this) h0
    positivity
  | cast i =>
    have := C63_point3 t p ht (Transform3.point_finite h) haff h i
    have e : ∀ f : Fin 4 → ℝ, ∑ j, f j = ∑ j : Fin 3, f j.castSucc + f (Fin.last 3) := fun f => Fin.sum_univ_castSucc f
    rw [e, e]
    simp only [homog, Fin.snoc_last, Fin.snoc_castSucc, mul_one]
    exact this
theorem homog_abs3 (p : Fin 3 → ℝ) : (fun j => |homog p j|) = homog fun j => |p j| := by
  funext j
  induction j using Fin.lastCases with
  | last => simp only [homog, Fin.snoc_last, abs_one]
  | cast j => simp only [homog, Fin.snoc_castSucc]
theorem Transform3.prod_abs (us : List (Transform3 S)) (i j : Fin 4) : |(us.map fun u : Transform3 S => u.forward.toReal).reverse.prod i j| ≤ (us.map fun u : Transform3 S => u.forward.toReal.map abs).reverse.prod i j := by
  induction us using List.reverseRecOn generalizing i j with
  | nil => simp [Matrix.one_apply]; split <;> simp
  | append_singleton ts u ih =>
    rw [List.map_append, List.map_append, List.map_singleton, List.map_singleton, List.reverse_append, List.reverse_append, List.reverse_singleton, List.reverse_singleton,
      List.singleton_append, List.singleton_append, List.prod_cons, List.prod_cons, Matrix.mul_apply, Matrix.mul_apply]
    refine (Finset.abs_sum_le_sum_abs _ _).trans (Finset.sum_le_sum fun l _ => ?_)
    rw [abs_mul]
    exact mul_le_mul_of_nonneg_left (ih l j) (abs_nonneg _)
/-- **C111** (3D): the image of a point under a composed chain of affine transforms is within `4` roundings per transform of the
exact image, relative to the same product of absolute values, plus underflow. -/
theorem C111_composed3 (t : Transform3 S) (ts : List (Transform3 S)) (haff : ∀ u ∈ t :: ts, u.forward.toReal 3 = ![0, 0, 0, 1]) (p : Point3 S)
    (hf : AllFinite (ts.foldl Transform3.andThen t).forward) (h : AllFinite (Transform.transform (ts.foldl Transform3.andThen t) p : Point3 S)) (i : Fin 3) :
    |(Transform.transform (ts.foldl Transform3.andThen t) p : Point3 S).toReal i - ((t :: ts).map fun u : Transform3 S => u.forward.toReal).reverse.prod.mulVec (homog p.toReal) i.castSucc| ≤
      ((1 + uro S) ^ (4 * (t :: ts).length) - 1) * ((t :: ts).map fun u : Transform3 S => u.forward.toReal.map abs).reverse.prod.mulVec (homog fun j => |p.toReal j|) i.castSucc +
      ((1 + uro S) ^ 4 * (Transform3.slack ts).mulVec (homog fun j => |p.toReal j|) i.castSucc + (1 + uro S) ^ 3 * (3 * tiny S)) := by
  have hu := uro_pos (S := S)
  have := step_right (one_le_pow₀ (by linarith) : (1 : ℝ) ≤ (1 + uro S) ^ 4) (Transform3.step_error hf (C72_affine3 t ts haff hf) h) (Transform3.prod_abs (t :: ts)) (C71_forward3 t ts hf) i.castSucc
  rw [← pow_add, homog_abs3] at this
  simp only [homog, Fin.snoc_castSucc] at this ⊢
  rw [List.length_cons, Nat.mul_add, Nat.mul_one]
  exact this
/-- **C111** (3D): the same holds for the image computed by applying the transforms one after the other. -/
theorem C111_one_by_one3 (ts : List (Transform3 S)) (haff : ∀ u ∈ ts, AllFinite u.forward ∧ u.forward.toReal 3 = ![0, 0, 0, 1]) (p : Point3 S)
    (h : AllFinite (Transform3.oneByOne ts p)) (i : Fin 3) :
    |(Transform3.oneByOne ts p).toReal i - (ts.map fun u : Transform3 S => u.forward.toReal).reverse.prod.mulVec (homog p.toReal) i.castSucc| ≤
      ((1 + uro S) ^ (4 * ts.length) - 1) * (ts.map fun u : Transform3 S => u.forward.toReal.map abs).reverse.prod.mulVec (homog fun j => |p.toReal j|) i.castSucc +
      Transform3.stepSlack ts i.castSucc := by
  have hu := uro_pos (S := S)
  suffices H : ∀ i, |(ts.map fun u : Transform3 S => u.forward.toReal).reverse.prod.mulVec (homog p.toReal) i| ≤ (ts.map fun u : Transform3 S => u.forward.toReal.map abs).reverse.prod.mulVec (homog fun j => |p.toReal j|) i ∧
      |homog (Transform3.oneByOne ts p).toReal i - (ts.map fun u : Transform3 S => u.forward.toReal).reverse.prod.mulVec (homog p.toReal) i| ≤
      ((1 + uro S) ^ (4 * ts.length) - 1) * (ts.map fun u : Transform3 S => u.forward.toReal.map abs).reverse.prod.mulVec (homog fun j => |p.toReal j|) i + Transform3.stepSlack ts i by
    have := (H i.castSucc).2
    simp only [homog, Fin.snoc_castSucc] at this ⊢
    exact this
  clear i
  induction ts using List.reverseRecOn with
  | nil =>
    intro i
    simp only [Transform3.oneByOne, Transform3.stepSlack, List.foldl_nil, List.map_nil, List.reverse_nil, List.prod_nil, Matrix.one_mulVec, List.length_nil, Nat.mul_zero, pow_zero, sub_self, zero_mul, abs_zero, Pi.zero_apply, add_zero, le_refl, and_true]
    rw [← congrFun (homog_abs3 p.toReal) i]
  | append_singleton ts u ih =>
    have e : Transform3.oneByOne (ts ++ [u]) p = (Transform.transform u (Transform3.oneByOne ts p) : Point3 S) := by
      simp [Transform3.oneByOne, List.foldl_append]
    rw [e] at h ⊢
    have hu' := haff u (by simp)
    have ih := ih (fun v hv => haff v (by simp [hv])) (Transform3.point_finite h)
    intro i
    have := step_left (one_le_pow₀ (by linarith) : (1 : ℝ) ≤ (1 + uro S) ^ 4) (Transform3.step_error hu'.1 hu'.2 h) (fun i => (ih i).1) (fun i => (ih i).2) i
    rw [← pow_add, Matrix.mulVec_mulVec, Matrix.mulVec_mulVec] at this
    simp only [List.map_append, List.map_cons, List.map_nil, List.reverse_append, List.reverse_cons, List.reverse_nil, List.nil_append, List.cons_append, List.prod_cons,
      List.length_append, List.length_cons, List.length_nil, Nat.mul_add, Nat.zero_add, Nat.mul_one] at this ⊢
    rw [Transform3.stepSlack, List.foldl_append, List.foldl_cons, List.foldl_nil]
    exact this
/-- A point whose coordinates are zeros goes to the offset. -/
theorem Transform3.zero_image {t : Transform3 S} (ht : AllFinite t.forward) (haff : t.forward.toReal 3 = ![0, 0, 0, 1]) {p : Point3 S} (hp : num p.x = num (zero : S) ∧ num p.y = num (zero : S) ∧ num p.z = num (zero : S)) :
    num (Transform.transform t p : Point3 S).x = num t.forward.m[3] ∧ num (Transform.transform t p : Point3 S).y = num t.forward.m[7] ∧ num (Transform.transform t p : Point3 S).z = num t.forward.m[11] := by
  have fin : AllFinite t.forward := ht
  have hf := Matrix4x4.allFinite.1 ht
  have ha := Matrix4x4.aff ht haff
  refine ⟨?_, ?_, ?_⟩
  · exact num_div_of_one (rowz3 (hf 0 (by decide)) (hf 1 (by decide)) (hf 2 (by decide)) hp.1 hp.2.1 hp.2.2) ((rowz3 (hf 12 (by decide)) (hf 13 (by decide)) (hf 14 (by decide)) hp.1 hp.2.1 hp.2.2).trans ha.2.2.2)
  · exact num_div_of_one (rowz3 (hf 4 (by decide)) (hf 5 (by decide)) (hf 6 (by decide)) hp.1 hp.2.1 hp.2.2) ((rowz3 (hf 12 (by decide)) (hf 13 (by decide)) (hf 14 (by decide)) hp.1 hp.2.1 hp.2.2).trans ha.2.2.2)
  · exact num_div_of_one (rowz3 (hf 8 (by decide)) (hf 9 (by decide)) (hf 10 (by decide)) hp.1 hp.2.1 hp.2.2) ((rowz3 (hf 12 (by decide)) (hf 13 (by decide)) (hf 14 (by decide)) hp.1 hp.2.1 hp.2.2).trans ha.2.2.2)
/-- **C111** (3D): when the three steps of a transform about a pivot are applied one after the other, the pivot itself goes to where the transform
takes the origin, moved to the pivot with one rounding per coordinate; so a transform that fixes the origin leaves the pivot exactly in place. -/
theorem C111_pivot3 (t : Transform3 S) (ht : AllFinite t.forward) (haff : t.forward.toReal 3 = ![0, 0, 0, 1]) (c : Point3 S) (hc : AllFinite c) :
    (Transform3.oneByOne [Transform3.translate (-(Vector3.fromPoint c)), t, Transform3.translate (Vector3.fromPoint c)] c == (Transform.transform t (Point3.origin : Point3 S) : Point3 S) + Vector3.fromPoint c) = true ∧
    ((Transform.transform t (Point3.origin : Point3 S) == (Point3.origin : Point3 S)) = true →
      (Transform3.oneByOne [Transform3.translate (-(Vector3.fromPoint c)), t, Transform3.translate (Vector3.fromPoint c)] c == c) = true) := by
  have hv : AllFinite (Vector3.fromPoint c) := by rw [Vector3.allFinite]; rw [Point3.allFinite] at hc; exact hc
  have hnv : AllFinite (-(Vector3.fromPoint c)) := by
    rw [Vector3.allFinite] at hv ⊢; exact ⟨finite_neg.2 hv.1, finite_neg.2 hv.2.1, finite_neg.2 hv.2.2⟩
  have b1 := Point3.beq_iff.1 (C46_float_translate3 (-(Vector3.fromPoint c)) (Vector3.fromPoint c) c hc hnv.noNaN hv).1
  set q := (Transform.transform (Transform3.translate (-(Vector3.fromPoint c))) c : Point3 S) with hq
  rw [Point3.allFinite] at hc
  have zz : ∀ {x : S}, IsFinite x → num (x + -x) = num (zero : S) := fun h => by rw [num_add, nadd_neg h, num_zero]
  have z1 := Transform3.zero_image ht haff (p := q) ⟨(num_of_beq b1.1).trans (zz hc.1), (num_of_beq b1.2.1).trans (zz hc.2.1), (num_of_beq b1.2.2).trans (zz hc.2.2)⟩
  have z0 := Transform3.zero_image ht haff (p := (Point3.origin : Point3 S)) ⟨rfl, rfl, rfl⟩
  set r := (Transform.transform t q : Point3 S) with hr
  have hf := Matrix4x4.allFinite.1 ht
  have fr : AllFinite r := Point3.allFinite.2 ⟨finite_of_num z1.1 (hf 3 (by decide)), finite_of_num z1.2.1 (hf 7 (by decide)), finite_of_num z1.2.2 (hf 11 (by decide))⟩
  have b2 := Point3.beq_iff.1 (C46_float_translate3 (Vector3.fromPoint c) (Vector3.fromPoint c) r fr hv.noNaN hv).1
  rw [Point3.allFinite] at fr
  have e : Transform3.oneByOne [Transform3.translate (-(Vector3.fromPoint c)), t, Transform3.translate (Vector3.fromPoint c)] c = (Transform.transform (Transform3.translate (Vector3.fromPoint c)) r : Point3 S) := rfl
  rw [e]
  have go : ∀ {x y w o : S}, (x == w + y) = true → num w = num o → (x == o + y) = true := fun h h' =>
    beq_of_num ((num_of_beq h).trans (num_add_congr h' rfl)) (beq_iff.1 h).1
  have fix : ∀ {x y o : S}, (x == o + y) = true → (o == (zero : S)) = true → (x == y) = true := fun h h' =>
    beq_of_num ((num_of_beq h).trans ((num_add_congr (num_of_beq h') rfl).trans (IEEE.num_zero_add _))) (beq_iff.1 h).1
  have main : ((Transform3.translate (Vector3.fromPoint c)).forward * r == (Transform.transform t (Point3.origin : Point3 S) : Point3 S) + Vector3.fromPoint c) = true :=
    Point3.beq_iff.2 ⟨go b2.1 (z1.1.trans z0.1.symm), go b2.2.1 (z1.2.1.trans z0.2.1.symm), go b2.2.2 (z1.2.2.trans z0.2.2.symm)⟩
  refine ⟨main, fun h0 => Point3.beq_iff.2 ?_⟩
  have m := Point3.beq_iff.1 main
  have h0 := Point3.beq_iff.1 h0
  exact ⟨fix m.1 h0.1, fix m.2.1 h0.2.1, fix m.2.2 h0.2.2⟩
theorem Matrix4x4.affine_homog {m : Matrix (Fin 4) (Fin 4) ℝ} (h : m 3 = ![0, 0, 0, 1]) (p : Fin 3 → ℝ) :
    m.mulVec (homog p) = homog fun i => ∑ j, m i.castSucc j.castSucc * p j + m i.castSucc (Fin.last 3) := by
  have e : ∀ f : Fin 4 → ℝ, ∑ j, f j = ∑ j : Fin 3, f j.castSucc + f (Fin.last 3) := fun f => Fin.sum_univ_castSucc f
  funext i
  induction i using Fin.lastCases with
  | last =>
    simp only [Matrix.mulVec, dotProduct, homog, Fin.snoc_last]
    rw [e]
    simp only [Fin.snoc_last, Fin.snoc_castSucc]
    rw [show (Fin.last 3) = (3 : Fin 4) from rfl, h]
    simp [Fin.sum_univ_three]
  | cast i =>
    simp only [Matrix.mulVec, dotProduct, homog, Fin.snoc_castSucc]
    rw [e]
    simp only [Fin.snoc_last, Fin.snoc_castSucc, mul_one]
omit [Binary S] in
theorem Matrix4x4.translate_toReal (v : Vector3 S) : (Matrix4x4.translate v).toReal = !![1, 0, 0, real v.x; 0, 1, 0, real v.y; 0, 0, 1, real v.z; 0, 0, 0, 1] := by
  funext i j
  fin_cases i <;> fin_cases j <;> first | exact real_zero (S := S) | exact real_one (S := S) | rfl
omit [Binary S] in
theorem Matrix4x4.translate_fin {v : Vector3 S} (hv : AllFinite v) : AllFinite (Matrix4x4.translate v) := by
  rw [Matrix4x4.allFinite, forall_lt_16]
  rw [Vector3.allFinite] at hv
  have z := finite_zero (S := S)
  have o := finite_one (S := S)
  exact ⟨o, z, z, hv.1, z, o, z, hv.2.1, z, z, o, hv.2.2, z, z, z, o⟩
omit [Binary S] in
theorem Matrix4x4.translate_homog (v : Vector3 S) (p : Fin 3 → ℝ) :
    (Matrix4x4.translate v).toReal.mulVec (homog p) = homog (fun i => p i + v.toReal i) ∧ ((Matrix4x4.translate v).toReal.map abs).mulVec (homog p) = homog (fun i => p i + |v.toReal i|) := by
  have h1 : (Matrix4x4.translate v).toReal 3 = ![0, 0, 0, 1] := by rw [Matrix4x4.translate_toReal]; funext j; fin_cases j <;> rfl
  have h2 : ((Matrix4x4.translate v).toReal.map abs) 3 = ![0, 0, 0, 1] := by
    funext j; rw [Matrix.map_apply, h1]; fin_cases j <;> simp
  rw [Matrix4x4.affine_homog h1, Matrix4x4.affine_homog h2, Matrix4x4.translate_toReal]
  constructor <;> congr 1 <;> funext i <;> fin_cases i <;> simp [Fin.sum_univ_three, Fin.last, Vector3.toReal]
/-- The exact image of a point under an affine transform about a pivot, and the size of its terms. -/
theorem Transform3.about_exact (t : Transform3 S) (haff : t.forward.toReal 3 = ![0, 0, 0, 1]) (c p : Point3 S) (i : Fin 3) :
    (([Transform3.translate (-(Vector3.fromPoint c)), t, Transform3.translate (Vector3.fromPoint c)] : List (Transform3 S)).map fun u : Transform3 S => u.forward.toReal).reverse.prod.mulVec (homog p.toReal) i.castSucc =
      c.toReal i + ∑ j, t.forward.toReal i.castSucc j.castSucc * (p.toReal j - c.toReal j) + t.forward.toReal i.castSucc 3 ∧
    (([Transform3.translate (-(Vector3.fromPoint c)), t, Transform3.translate (Vector3.fromPoint c)] : List (Transform3 S)).map fun u : Transform3 S => u.forward.toReal.map abs).reverse.prod.mulVec (homog fun j => |p.toReal j|) i.castSucc =
      |c.toReal i| + ∑ j, |t.forward.toReal i.castSucc j.castSucc| * (|p.toReal j| + |c.toReal j|) + |t.forward.toReal i.castSucc 3| := by
  have haff' : (t.forward.toReal.map abs) 3 = ![0, 0, 0, 1] := by
    funext j; rw [Matrix.map_apply, haff]; fin_cases j <;> simp
  have en : ∀ j, (-(Vector3.fromPoint c)).toReal j = -c.toReal j := by
    intro j; fin_cases j <;> exact IEEE.real_neg (S := S) _
  have ec : (Vector3.fromPoint c).toReal = c.toReal := rfl
  simp only [List.map_cons, List.map_nil, List.reverse_cons, List.reverse_nil, List.nil_append, List.cons_append, List.prod_cons, List.prod_nil, mul_one,
    ← Matrix.mulVec_mulVec]
  have f1 : (Transform3.translate (-(Vector3.fromPoint c)) : Transform3 S).forward = Matrix4x4.translate (-(Vector3.fromPoint c)) := rfl
  have f2 : (Transform3.translate (Vector3.fromPoint c) : Transform3 S).forward = Matrix4x4.translate (Vector3.fromPoint c) := rfl
  rw [f1, f2, (Matrix4x4.translate_homog _ _).1, (Matrix4x4.translate_homog _ _).2, Matrix4x4.affine_homog haff, Matrix4x4.affine_homog haff', (Matrix4x4.translate_homog _ _).1, (Matrix4x4.translate_homog _ _).2]
  simp only [homog, Fin.snoc_castSucc, Matrix.map_apply, ec, en, abs_neg]
  constructor
  · rw [show (Fin.last 3) = (3 : Fin 4) from rfl]
    simp only [← sub_eq_add_neg]; ring
  · rw [show (Fin.last 3) = (3 : Fin 4) from rfl]; ring
/-- **C111** (3D): the image of a point under an affine transform about a pivot (composed into one transform) is within `12` roundings of the exact image,
relative to a size that grows with the distance of the pivot from the origin. -/
theorem C111_about3 (t : Transform3 S) (haff : t.forward.toReal 3 = ![0, 0, 0, 1]) (c p : Point3 S) (hf : AllFinite (t.about c).forward)
    (h : AllFinite (Transform.transform (t.about c) p : Point3 S)) (i : Fin 3) :
    |(Transform.transform (t.about c) p : Point3 S).toReal i - (c.toReal i + ∑ j, t.forward.toReal i.castSucc j.castSucc * (p.toReal j - c.toReal j) + t.forward.toReal i.castSucc 3)| ≤
      ((1 + uro S) ^ 12 - 1) * (|c.toReal i| + ∑ j, |t.forward.toReal i.castSucc j.castSucc| * (|p.toReal j| + |c.toReal j|) + |t.forward.toReal i.castSucc 3|) +
      ((1 + uro S) ^ 4 * (Transform3.slack [t, Transform3.translate (Vector3.fromPoint c)]).mulVec (homog fun j => |p.toReal j|) i.castSucc + (1 + uro S) ^ 3 * (3 * tiny S)) := by
  have := C111_composed3 (Transform3.translate (-(Vector3.fromPoint c))) [t, Transform3.translate (Vector3.fromPoint c)] (by
    intro u hu
    have ht : ∀ v : Vector3 S, (Matrix4x4.translate v).toReal 3 = ![0, 0, 0, 1] := fun v => by rw [Matrix4x4.translate_toReal]; funext j; fin_cases j <;> rfl
    simp only [List.mem_cons, List.not_mem_nil, or_false] at hu
    rcases hu with rfl | rfl | rfl
    · exact ht _
    · exact haff
    · exact ht _) p hf h i
  rw [(Transform3.about_exact t haff c p i).1, (Transform3.about_exact t haff c p i).2] at this
  exact this
/-- **C111** (3D): and so is the image when the three steps are applied one after the other. -/
theorem C111_about_steps3 (t : Transform3 S) (ht : AllFinite t.forward) (haff : t.forward.toReal 3 = ![0, 0, 0, 1]) (c p : Point3 S) (hc : AllFinite c)
    (h : AllFinite (Transform3.oneByOne [Transform3.translate (-(Vector3.fromPoint c)), t, Transform3.translate (Vector3.fromPoint c)] p)) (i : Fin 3) :
    |(Transform3.oneByOne [Transform3.translate (-(Vector3.fromPoint c)), t, Transform3.translate (Vector3.fromPoint c)] p).toReal i -
        (c.toReal i + ∑ j, t.forward.toReal i.castSucc j.castSucc * (p.toReal j - c.toReal j) + t.forward.toReal i.castSucc 3)| ≤
      ((1 + uro S) ^ 12 - 1) * (|c.toReal i| + ∑ j, |t.forward.toReal i.castSucc j.castSucc| * (|p.toReal j| + |c.toReal j|) + |t.forward.toReal i.castSucc 3|) +
      Transform3.stepSlack [Transform3.translate (-(Vector3.fromPoint c)), t, Transform3.translate (Vector3.fromPoint c)] i.castSucc := by
  have hv : AllFinite (Vector3.fromPoint c) := by rw [Vector3.allFinite]; rw [Point3.allFinite] at hc; exact hc
  have hnv : AllFinite (-(Vector3.fromPoint c)) := by
    rw [Vector3.allFinite] at hv ⊢; exact ⟨finite_neg.2 hv.1, finite_neg.2 hv.2.1, finite_neg.2 hv.2.2⟩
  have := C111_one_by_one3 [Transform3.translate (-(Vector3.fromPoint c)), t, Transform3.translate (Vector3.fromPoint c)] (by
    intro u hu
    have h1 : ∀ v : Vector3 S, AllFinite v → AllFinite (Matrix4x4.translate v) ∧ (Matrix4x4.translate v).toReal 3 = ![0, 0, 0, 1] := fun v hv => by
      refine ⟨Matrix4x4.translate_fin hv, ?_⟩
      rw [Matrix4x4.translate_toReal]; funext j; fin_cases j <;> rfl
    simp only [List.mem_cons, List.not_mem_nil, or_false] at hu
    rcases hu with rfl | rfl | rfl
    · exact h1 _ hnv
    · exact ⟨ht, haff⟩
    · exact h1 _ hv) p h i
  rw [(Transform3.about_exact t haff c p i).1, (Transform3.about_exact t haff c p i).2] at this
  exact this
end

end VecMath

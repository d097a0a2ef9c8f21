import Verif.Spec.InvAffine
import Verif.Spec.Det
import Verif.Lemmas.Mat
import Verif.Lemmas.Round
import Verif.Lemmas.Octree
import Verif.Lemmas.Approx
import Verif.Lemmas.Permanent
/-!
# Inverting affine matrices in floating point (layer F): C108
-/

open Classical

namespace VecMath
open Scalar IEEE

section
variable {S : Type} [Scalar S] [IEEE S]

theorem nz_mul {p r : S} (hp : IsFinite p) (hr : num r = num (zero : S)) : num (p * r) = num (zero : S) :=
  (num_mul_congr rfl hr).trans (IEEE.num_mul_zero hp)
theorem n1_mul {p r : S} (hr : num r = num (one : S)) : num (p * r) = num p := (num_mul_congr rfl hr).trans (IEEE.num_mul_one p)
theorem n_add0 {p r : S} (hr : num r = num (zero : S)) : num (p + r) = num p := (num_add_congr rfl hr).trans (IEEE.num_add_zero p)
theorem n_negz : num (-(zero : S)) = num (zero : S) := by
  rw [num_finite (finite_neg.2 finite_zero), IEEE.real_neg, real_zero, neg_zero, num_finite finite_zero, real_zero]
theorem n_sub0 {p r : S} (hr : num r = num (zero : S)) : num (p - r) = num p :=
  (num_sub_congr rfl hr).trans ((same_sub p zero).num.trans (n_add0 n_negz))
theorem n_0sub {p r : S} (hr : num p = num (zero : S)) : num (p - r) = num (-r) :=
  (num_sub_congr hr rfl).trans ((same_sub zero r).num.trans (IEEE.num_zero_add _))
theorem num_of_real {a b : S} (ha : IsFinite a) (hb : IsFinite b) (h : real a = real b) : num a = num b := by
  rw [num_finite ha, num_finite hb, h]
theorem real_of_num {a b : S} (ha : IsFinite a) (hb : IsFinite b) (h : num a = num b) : real a = real b := by
  rw [num_finite ha, num_finite hb] at h; exact Val.fin.inj h
theorem n_neg1 (x : S) : num (-one * x) = num (-x) := (same_neg_mul one x).num.trans (num_neg_congr (IEEE.num_one_mul x))
theorem finite_of_num {a b : S} (h : num a = num b) (hb : IsFinite b) : IsFinite a := by
  rw [num_finite hb] at h
  unfold num at h
  unfold IsFinite
  cases e : den a with
  | nan => rw [e] at h; cases h
  | inf s => rw [e] at h; cases h
  | nzero => trivial
  | fin r => trivial
/-- Sarrus with last row `0 0 1`. -/
theorem sarrus1 {x0 x1 x2 y0 y1 y2 z0 z1 z2 : S} (h0 : num z0 = num (zero : S)) (h1 : num z1 = num (zero : S)) (h2 : num z2 = num (one : S))
    (f0 : IsFinite (x1 * y2)) (f1 : IsFinite (x2 * y0)) (f2 : IsFinite (x0 * y2)) (f3 : IsFinite (x2 * y1)) :
    num (x0 * y1 * z2 + x1 * y2 * z0 + x2 * y0 * z1 - x0 * y2 * z1 - x1 * y0 * z2 - x2 * y1 * z0) = num (x0 * y1 - x1 * y0) := by
  rw [n_sub0 (nz_mul f3 h0)]
  refine num_sub_congr ?_ (n1_mul h2)
  rw [n_sub0 (nz_mul f2 h1), n_add0 (nz_mul f1 h1), n_add0 (nz_mul f0 h0)]
  exact n1_mul h2
/-- Sarrus with last row `0 0 0`. -/
theorem sarrus0 {x0 x1 x2 y0 y1 y2 z0 z1 z2 : S} (h0 : num z0 = num (zero : S)) (h1 : num z1 = num (zero : S)) (h2 : num z2 = num (zero : S))
    (e0 : IsFinite (x0 * y1)) (e1 : IsFinite (x1 * y0))
    (f0 : IsFinite (x1 * y2)) (f1 : IsFinite (x2 * y0)) (f2 : IsFinite (x0 * y2)) (f3 : IsFinite (x2 * y1)) :
    num (x0 * y1 * z2 + x1 * y2 * z0 + x2 * y0 * z1 - x0 * y2 * z1 - x1 * y0 * z2 - x2 * y1 * z0) = num (zero : S) := by
  rw [n_sub0 (nz_mul f3 h0), n_sub0 (nz_mul e1 h2), n_sub0 (nz_mul f2 h1), n_add0 (nz_mul f1 h1), n_add0 (nz_mul f0 h0)]
  exact nz_mul e0 h2
theorem not_nan_diff {a b : S} (ha : IsFinite a) (hb : IsFinite b) : ¬ IsNaN (a - b) := by
  rw [(same_sub a b).isNaN]; exact isNaN_add_finite ha (finite_neg.2 hb).not_nan
theorem val_ne_of {d d' : S} (hd : IsFinite d) (h : (d == zero) = false) (e : num d' = num d) : val d' ≠ 0 := by
  rw [val_num, e, ← val_num, hd.val]
  intro h0
  have : real d = 0 := by exact_mod_cast h0
  have e0 : (d == zero) = true := beq_of_num' (num_of_real hd finite_zero (by rw [this, real_zero])) finite_zero.not_nan
  rw [e0] at h
  exact absurd h (by simp)
theorem real_ne_of {d : S} (hd : IsFinite d) (h : (d == zero) = false) : real d ≠ 0 := by
  intro h0
  have e0 : (d == zero) = true := beq_of_num' (num_of_real hd finite_zero (by rw [h0, real_zero])) finite_zero.not_nan
  rw [e0] at h
  exact absurd h (by simp)
theorem quot_not_nan {x d : S} (hx : ¬ IsNaN x) (hd : IsFinite d) (h : (d == zero) = false) : ¬ IsNaN (x / d) := by
  by_cases hf : IsFinite x
  · unfold IsNaN
    rw [den_div_fin hf hd (real_ne_of hd h)]
    exact Rounding.finish_ne_nan _ _ _
  · unfold IsNaN IsFinite at *
    rw [den_div]
    cases e : den x with
    | nan => exact absurd e hx
    | inf s => rw [Rounding.div_inf_fin _ s hd]; simp
    | nzero => rw [e] at hf; exact absurd trivial hf
    | fin r => rw [e] at hf; exact absurd trivial hf
/-- One entry of the inverse. -/
theorem quot_beq {x y d d' : S} (e : num x = num y) (ed : num d' = num d) (hy : ¬ IsNaN (y / d)) (hd : IsFinite d) (h : (d == zero) = false) :
    (x / d' == y / d) = true :=
  beq_of_num' (num_div_congr e ed (val_ne_of hd h ed)) hy
theorem quot_zero {x d d' : S} (e : num x = num (zero : S)) (ed : num d' = num d) (hd : IsFinite d) (h : (d == zero) = false) :
    (x / d' == zero) = true := by
  refine beq_of_num' ((num_div_congr e ed (val_ne_of hd h ed)).trans ?_) finite_zero.not_nan
  have q : IsFinite (zero / d : S) ∧ real (zero / d : S) = 0 := by
    unfold IsFinite real
    rw [den_div_fin finite_zero hd (real_ne_of hd h), real_zero, zero_div]
    exact ⟨by simp, by simp⟩
  exact num_of_real q.1 finite_zero (by rw [q.2, real_zero])
theorem quot_one {x d d' : S} (e : num x = num d) (ed : num d' = num d) (hd : IsFinite d) (h : (d == zero) = false) :
    (x / d' == one) = true := by
  refine beq_of_num' ((num_div_congr e ed (val_ne_of hd h ed)).trans ?_) finite_one.not_nan
  have n := real_ne_of hd h
  have q : num (d / d) = num (one / one : S) := by
    unfold num
    rw [den_div_fin hd hd n, den_div_fin finite_one finite_one (by rw [real_one]; norm_num), div_self n, real_one, div_self one_ne_zero]
    simp
  exact q.trans (IEEE.num_div_one one)
end

/-! ### 2D -/
section
variable {S : Type} [Scalar S] [IEEE S]

theorem Matrix3x3.aff {m : Matrix3x3 S} (hm : AllFinite m) (ha : m.toReal 2 = ![0, 0, 1]) :
    num m.m[6] = num (zero : S) ∧ num m.m[7] = num (zero : S) ∧ num m.m[8] = num (one : S) := by
  rw [Matrix3x3.allFinite] at hm
  exact ⟨num_of_real (hm 6 (by omega)) finite_zero ((congrFun ha 0).trans real_zero.symm),
    num_of_real (hm 7 (by omega)) finite_zero ((congrFun ha 1).trans real_zero.symm),
    num_of_real (hm 8 (by omega)) finite_one ((congrFun ha 2).trans real_one.symm)⟩
theorem Matrix3x3.det_aff {m : Matrix3x3 S} (hm : AllFinite m) (ha : m.toReal 2 = ![0, 0, 1]) (hp : m.Moderate) :
    num m.det = num m.linDet := by
  obtain ⟨h0, h1, h2⟩ := Matrix3x3.aff hm ha
  unfold Matrix3x3.det Matrix3x3.linDet
  rw [n_sub0 (nz_mul (hp 0 5 (by omega) (by omega) (by omega)) h1)]
  refine num_sub_congr ?_ (n1_mul h2)
  rw [n_sub0 (nz_mul (hp 2 4 (by omega) (by omega) (by omega)) h0), n_add0 (nz_mul (hp 2 3 (by omega) (by omega) (by omega)) h1),
    n_add0 (nz_mul (hp 1 5 (by omega) (by omega) (by omega)) h0)]
  exact n1_mul h2

/-- **C108** (2D): the inverse of an affine matrix. Whether it exists, and its linear part, depend on the linear part only,
and its last row is exactly `0 0 1`. -/
theorem C108_affine2 (m : Matrix3x3 S) (hm : AllFinite m) (ha : m.toReal 2 = ![0, 0, 1]) (hp : m.Moderate) (hd : IsFinite m.linDet) :
    ((m.linDet == zero) = true → m.inverse = .error .mk) ∧
    ((m.linDet == zero) = false → ∃ n, m.inverse = .ok n ∧
      (n == Matrix3x3.new #v[m.m[4] / m.linDet, -m.m[1] / m.linDet, (m.m[1] * m.m[5] - m.m[2] * m.m[4]) / m.linDet,
        -m.m[3] / m.linDet, m.m[0] / m.linDet, (m.m[2] * m.m[3] - m.m[0] * m.m[5]) / m.linDet, zero, zero, one]) = true) := by
  have ed := Matrix3x3.det_aff hm ha hp
  have hz : (m.det == zero) = (m.linDet == zero) := beq_congr ed rfl
  obtain ⟨h0, h1, h2⟩ := Matrix3x3.aff hm ha
  rw [Matrix3x3.allFinite] at hm
  constructor
  · intro h
    unfold Matrix3x3.inverse
    simp only [bne, hz, h, Bool.not_true, Bool.false_eq_true, if_false]
  · intro h
    unfold Matrix3x3.inverse
    simp only [bne, hz, h, Bool.not_false, if_true]
    refine ⟨_, rfl, ?_⟩
    rw [Matrix3x3.beq_iff, forall_lt_9]
    have f : ∀ (i : ℕ) (hi : i < 9), IsFinite m.m[i] := hm
    have q : ∀ (i : ℕ) (hi : i < 9), ¬ IsNaN (m.m[i] / m.linDet) := fun i hi => quot_not_nan (f i hi).not_nan hd h
    have q' : ∀ (i : ℕ) (hi : i < 9), ¬ IsNaN (-m.m[i] / m.linDet) := fun i hi => quot_not_nan (finite_neg.2 (f i hi)).not_nan hd h
    refine ⟨quot_beq ((n_sub0 (nz_mul (f 5 (by omega)) h1)).trans (n1_mul h2)) ed (q 4 (by omega)) hd h,
      quot_beq ((n_0sub (nz_mul (f 2 (by omega)) h1)).trans (num_neg_congr (n1_mul h2))) ed (q' 1 (by omega)) hd h,
      quot_beq rfl ed (quot_not_nan (not_nan_diff (hp _ _ _ _ (by omega)) (hp _ _ _ _ (by omega))) hd h) hd h,
      quot_beq ((n_0sub (nz_mul (f 5 (by omega)) h0)).trans (num_neg_congr (n1_mul h2))) ed (q' 3 (by omega)) hd h,
      quot_beq ((n_sub0 (nz_mul (f 2 (by omega)) h0)).trans (n1_mul h2)) ed (q 0 (by omega)) hd h,
      quot_beq rfl ed (quot_not_nan (not_nan_diff (hp _ _ _ _ (by omega)) (hp _ _ _ _ (by omega))) hd h) hd h,
      quot_zero ((n_sub0 (nz_mul (f 4 (by omega)) h0)).trans (nz_mul (f 3 (by omega)) h1)) ed hd h,
      quot_zero ((n_sub0 (nz_mul (f 0 (by omega)) h1)).trans (nz_mul (f 1 (by omega)) h0)) ed hd h,
      quot_one rfl ed hd h⟩
/-- **C108** (2D): so points are not divided by anything. -/
theorem C108_point2 (m n : Matrix3x3 S) (hm : AllFinite m) (ha : m.toReal 2 = ![0, 0, 1]) (hp : m.Moderate) (hd : IsFinite m.linDet)
    (h : m.inverse = .ok n) (hn : AllFinite n) :
    n.toReal 2 = ![0, 0, 1] ∧ ∀ p : Point2 S, AllFinite p →
      (NoNaN (n * p) → (n * p == Point2.new (n.m[0] * p.x + n.m[1] * p.y + n.m[2]) (n.m[3] * p.x + n.m[4] * p.y + n.m[5])) = true) := by
  have k := C108_affine2 m hm ha hp hd
  cases hz : (m.linDet == zero) with
  | true => rw [k.1 hz] at h; cases h
  | false =>
    obtain ⟨n', h', e⟩ := k.2 hz
    rw [h] at h'; cases h'
    rw [Matrix3x3.beq_iff, forall_lt_9] at e
    obtain ⟨-, -, -, -, -, -, e6, e7, e8⟩ := e
    rw [Matrix3x3.allFinite] at hn
    have n6 : num n.m[6] = num (zero : S) := num_of_beq e6
    have n7 : num n.m[7] = num (zero : S) := num_of_beq e7
    have n8 : num n.m[8] = num (one : S) := num_of_beq e8
    refine ⟨?_, fun p pf => ?_⟩
    · funext j
      fin_cases j
      · exact (real_of_num (hn 6 (by omega)) finite_zero n6).trans real_zero
      · exact (real_of_num (hn 7 (by omega)) finite_zero n7).trans real_zero
      · exact (real_of_num (hn 8 (by omega)) finite_one n8).trans real_one
    · intro nn
      rw [Point2.allFinite] at pf
      have w : num (n.m[6] * p.x + n.m[7] * p.y + n.m[8]) = num (one : S) := by
        refine (num_add_congr ?_ n8).trans (IEEE.num_zero_add one)
        exact (n_add0 ((same_mul_comm _ _).num.trans (nz_mul pf.2 n7))).trans ((same_mul_comm _ _).num.trans (nz_mul pf.1 n6))
      rw [Point2.noNaN] at nn
      have q : ∀ {a : S}, ¬ IsNaN (a / (n.m[6] * p.x + n.m[7] * p.y + n.m[8])) → (a / (n.m[6] * p.x + n.m[7] * p.y + n.m[8]) == a) = true :=
        fun {a} hn => by
          have e := num_div_of_one (a := a) rfl w
          exact beq_of_num' e (by rw [isNaN_iff_num, ← e, ← isNaN_iff_num]; exact hn)
      rw [Point2.beq_iff]
      exact ⟨q nn.1, q nn.2⟩
end

/-! ### 3D -/
section
variable {S : Type} [Scalar S] [IEEE S]

theorem Matrix4x4.aff {m : Matrix4x4 S} (hm : AllFinite m) (ha : m.toReal 3 = ![0, 0, 0, 1]) :
    num m.m[12] = num (zero : S) ∧ num m.m[13] = num (zero : S) ∧ num m.m[14] = num (zero : S) ∧ num m.m[15] = num (one : S) := by
  rw [Matrix4x4.allFinite] at hm
  exact ⟨num_of_real (hm 12 (by omega)) finite_zero ((congrFun ha 0).trans real_zero.symm),
    num_of_real (hm 13 (by omega)) finite_zero ((congrFun ha 1).trans real_zero.symm),
    num_of_real (hm 14 (by omega)) finite_zero ((congrFun ha 2).trans real_zero.symm),
    num_of_real (hm 15 (by omega)) finite_one ((congrFun ha 3).trans real_one.symm)⟩
theorem Matrix4x4.cof00_aff {m : Matrix4x4 S} (hm : AllFinite m) (ha : m.toReal 3 = ![0, 0, 0, 1]) (hp : m.Moderate) :
    num (m.cofactor 0 0) = num ((m.m[5] * m.m[10] - m.m[6] * m.m[9])) := by
  obtain ⟨h0, h1, h2, h3⟩ := Matrix4x4.aff hm ha
  exact (IEEE.num_one_mul _).trans (sarrus1 h1 h2 h3 (hp 6 11 (by omega) (by omega) (by omega)) (hp 7 9 (by omega) (by omega) (by omega)) (hp 5 11 (by omega) (by omega) (by omega)) (hp 7 10 (by omega) (by omega) (by omega)))
theorem Matrix4x4.cof10_aff {m : Matrix4x4 S} (hm : AllFinite m) (ha : m.toReal 3 = ![0, 0, 0, 1]) (hp : m.Moderate) :
    num (m.cofactor 1 0) = num (-(m.m[1] * m.m[10] - m.m[2] * m.m[9])) := by
  obtain ⟨h0, h1, h2, h3⟩ := Matrix4x4.aff hm ha
  exact (n_neg1 _).trans (num_neg_congr (sarrus1 h1 h2 h3 (hp 2 11 (by omega) (by omega) (by omega)) (hp 3 9 (by omega) (by omega) (by omega)) (hp 1 11 (by omega) (by omega) (by omega)) (hp 3 10 (by omega) (by omega) (by omega))))
theorem Matrix4x4.cof20_aff {m : Matrix4x4 S} (hm : AllFinite m) (ha : m.toReal 3 = ![0, 0, 0, 1]) (hp : m.Moderate) :
    num (m.cofactor 2 0) = num ((m.m[1] * m.m[6] - m.m[2] * m.m[5])) := by
  obtain ⟨h0, h1, h2, h3⟩ := Matrix4x4.aff hm ha
  exact (IEEE.num_one_mul _).trans (sarrus1 h1 h2 h3 (hp 2 7 (by omega) (by omega) (by omega)) (hp 3 5 (by omega) (by omega) (by omega)) (hp 1 7 (by omega) (by omega) (by omega)) (hp 3 6 (by omega) (by omega) (by omega)))
theorem Matrix4x4.cof01_aff {m : Matrix4x4 S} (hm : AllFinite m) (ha : m.toReal 3 = ![0, 0, 0, 1]) (hp : m.Moderate) :
    num (m.cofactor 0 1) = num (-(m.m[4] * m.m[10] - m.m[6] * m.m[8])) := by
  obtain ⟨h0, h1, h2, h3⟩ := Matrix4x4.aff hm ha
  exact (n_neg1 _).trans (num_neg_congr (sarrus1 h0 h2 h3 (hp 6 11 (by omega) (by omega) (by omega)) (hp 7 8 (by omega) (by omega) (by omega)) (hp 4 11 (by omega) (by omega) (by omega)) (hp 7 10 (by omega) (by omega) (by omega))))
theorem Matrix4x4.cof11_aff {m : Matrix4x4 S} (hm : AllFinite m) (ha : m.toReal 3 = ![0, 0, 0, 1]) (hp : m.Moderate) :
    num (m.cofactor 1 1) = num ((m.m[0] * m.m[10] - m.m[2] * m.m[8])) := by
  obtain ⟨h0, h1, h2, h3⟩ := Matrix4x4.aff hm ha
  exact (IEEE.num_one_mul _).trans (sarrus1 h0 h2 h3 (hp 2 11 (by omega) (by omega) (by omega)) (hp 3 8 (by omega) (by omega) (by omega)) (hp 0 11 (by omega) (by omega) (by omega)) (hp 3 10 (by omega) (by omega) (by omega)))
theorem Matrix4x4.cof21_aff {m : Matrix4x4 S} (hm : AllFinite m) (ha : m.toReal 3 = ![0, 0, 0, 1]) (hp : m.Moderate) :
    num (m.cofactor 2 1) = num (-(m.m[0] * m.m[6] - m.m[2] * m.m[4])) := by
  obtain ⟨h0, h1, h2, h3⟩ := Matrix4x4.aff hm ha
  exact (n_neg1 _).trans (num_neg_congr (sarrus1 h0 h2 h3 (hp 2 7 (by omega) (by omega) (by omega)) (hp 3 4 (by omega) (by omega) (by omega)) (hp 0 7 (by omega) (by omega) (by omega)) (hp 3 6 (by omega) (by omega) (by omega))))
theorem Matrix4x4.cof02_aff {m : Matrix4x4 S} (hm : AllFinite m) (ha : m.toReal 3 = ![0, 0, 0, 1]) (hp : m.Moderate) :
    num (m.cofactor 0 2) = num ((m.m[4] * m.m[9] - m.m[5] * m.m[8])) := by
  obtain ⟨h0, h1, h2, h3⟩ := Matrix4x4.aff hm ha
  exact (IEEE.num_one_mul _).trans (sarrus1 h0 h1 h3 (hp 5 11 (by omega) (by omega) (by omega)) (hp 7 8 (by omega) (by omega) (by omega)) (hp 4 11 (by omega) (by omega) (by omega)) (hp 7 9 (by omega) (by omega) (by omega)))
theorem Matrix4x4.cof12_aff {m : Matrix4x4 S} (hm : AllFinite m) (ha : m.toReal 3 = ![0, 0, 0, 1]) (hp : m.Moderate) :
    num (m.cofactor 1 2) = num (-(m.m[0] * m.m[9] - m.m[1] * m.m[8])) := by
  obtain ⟨h0, h1, h2, h3⟩ := Matrix4x4.aff hm ha
  exact (n_neg1 _).trans (num_neg_congr (sarrus1 h0 h1 h3 (hp 1 11 (by omega) (by omega) (by omega)) (hp 3 8 (by omega) (by omega) (by omega)) (hp 0 11 (by omega) (by omega) (by omega)) (hp 3 9 (by omega) (by omega) (by omega))))
theorem Matrix4x4.cof22_aff {m : Matrix4x4 S} (hm : AllFinite m) (ha : m.toReal 3 = ![0, 0, 0, 1]) (hp : m.Moderate) :
    num (m.cofactor 2 2) = num ((m.m[0] * m.m[5] - m.m[1] * m.m[4])) := by
  obtain ⟨h0, h1, h2, h3⟩ := Matrix4x4.aff hm ha
  exact (IEEE.num_one_mul _).trans (sarrus1 h0 h1 h3 (hp 1 7 (by omega) (by omega) (by omega)) (hp 3 4 (by omega) (by omega) (by omega)) (hp 0 7 (by omega) (by omega) (by omega)) (hp 3 5 (by omega) (by omega) (by omega)))
theorem Matrix4x4.cof03_aff {m : Matrix4x4 S} (hm : AllFinite m) (ha : m.toReal 3 = ![0, 0, 0, 1]) (hp : m.Moderate) :
    num (m.cofactor 0 3) = num (zero : S) := by
  obtain ⟨h0, h1, h2, h3⟩ := Matrix4x4.aff hm ha
  exact (n_neg1 _).trans ((num_neg_congr (sarrus0 h0 h1 h2 (hp 4 9 (by omega) (by omega) (by omega)) (hp 5 8 (by omega) (by omega) (by omega)) (hp 5 10 (by omega) (by omega) (by omega)) (hp 6 8 (by omega) (by omega) (by omega)) (hp 4 10 (by omega) (by omega) (by omega)) (hp 6 9 (by omega) (by omega) (by omega)))).trans n_negz)
theorem Matrix4x4.cof13_aff {m : Matrix4x4 S} (hm : AllFinite m) (ha : m.toReal 3 = ![0, 0, 0, 1]) (hp : m.Moderate) :
    num (m.cofactor 1 3) = num (zero : S) := by
  obtain ⟨h0, h1, h2, h3⟩ := Matrix4x4.aff hm ha
  exact (IEEE.num_one_mul _).trans (sarrus0 h0 h1 h2 (hp 0 9 (by omega) (by omega) (by omega)) (hp 1 8 (by omega) (by omega) (by omega)) (hp 1 10 (by omega) (by omega) (by omega)) (hp 2 8 (by omega) (by omega) (by omega)) (hp 0 10 (by omega) (by omega) (by omega)) (hp 2 9 (by omega) (by omega) (by omega)))
theorem Matrix4x4.cof23_aff {m : Matrix4x4 S} (hm : AllFinite m) (ha : m.toReal 3 = ![0, 0, 0, 1]) (hp : m.Moderate) :
    num (m.cofactor 2 3) = num (zero : S) := by
  obtain ⟨h0, h1, h2, h3⟩ := Matrix4x4.aff hm ha
  exact (n_neg1 _).trans ((num_neg_congr (sarrus0 h0 h1 h2 (hp 0 5 (by omega) (by omega) (by omega)) (hp 1 4 (by omega) (by omega) (by omega)) (hp 1 6 (by omega) (by omega) (by omega)) (hp 2 4 (by omega) (by omega) (by omega)) (hp 0 6 (by omega) (by omega) (by omega)) (hp 2 5 (by omega) (by omega) (by omega)))).trans n_negz)
theorem Matrix4x4.cof33 (m : Matrix4x4 S) : num (m.cofactor 3 3) = num m.linSarrus := IEEE.num_one_mul _
theorem Matrix4x4.det_aff {m : Matrix4x4 S} (hm : AllFinite m) (ha : m.toReal 3 = ![0, 0, 0, 1]) (hp : m.Moderate) :
    num (m.detOf m.adjugate) = num m.linDet := by
  show num (m.m[0] * m.cofactor 0 0 + m.m[1] * m.cofactor 0 1 + m.m[2] * m.cofactor 0 2 + m.m[3] * m.cofactor 0 3) = _
  have f := Matrix4x4.allFinite.1 hm
  rw [n_add0 (nz_mul (f 3 (by omega)) (cof03_aff hm ha hp))]
  exact num_add_congr (num_add_congr (num_mul_congr rfl (cof00_aff hm ha hp)) (num_mul_congr rfl (cof01_aff hm ha hp)))
    (num_mul_congr rfl (cof02_aff hm ha hp))

/-- **C108** (3D): the inverse of an affine matrix. Whether it exists, and its linear part, depend on the linear part only;
its last row is exactly `0 0 0 w`, but `w` is the quotient of two differently rounded determinants. -/
theorem C108_affine3 (m : Matrix4x4 S) (hm : AllFinite m) (ha : m.toReal 3 = ![0, 0, 0, 1]) (hp : m.Moderate) (hd : IsFinite m.linDet) :
    ((m.linDet == zero) = true → m.inverse = .error .mk) ∧
    ((m.linDet == zero) = false → ∃ n, m.inverse = .ok n ∧
      (n.m[0] == (m.m[5] * m.m[10] - m.m[6] * m.m[9]) / m.linDet) = true ∧
      (n.m[1] == -(m.m[1] * m.m[10] - m.m[2] * m.m[9]) / m.linDet) = true ∧
      (n.m[2] == (m.m[1] * m.m[6] - m.m[2] * m.m[5]) / m.linDet) = true ∧
      (n.m[4] == -(m.m[4] * m.m[10] - m.m[6] * m.m[8]) / m.linDet) = true ∧
      (n.m[5] == (m.m[0] * m.m[10] - m.m[2] * m.m[8]) / m.linDet) = true ∧
      (n.m[6] == -(m.m[0] * m.m[6] - m.m[2] * m.m[4]) / m.linDet) = true ∧
      (n.m[8] == (m.m[4] * m.m[9] - m.m[5] * m.m[8]) / m.linDet) = true ∧
      (n.m[9] == -(m.m[0] * m.m[9] - m.m[1] * m.m[8]) / m.linDet) = true ∧
      (n.m[10] == (m.m[0] * m.m[5] - m.m[1] * m.m[4]) / m.linDet) = true ∧
      (n.m[12] == zero) = true ∧ (n.m[13] == zero) = true ∧ (n.m[14] == zero) = true ∧
      (¬ IsNaN m.linSarrus → (n.m[15] == m.linSarrus / m.linDet) = true)) := by
  have ed := Matrix4x4.det_aff hm ha hp
  have hz : (m.detOf m.adjugate == zero) = (m.linDet == zero) := beq_congr ed rfl
  constructor
  · intro h
    unfold Matrix4x4.inverse
    simp only [bne, hz, h, Bool.not_true, Bool.false_eq_true, if_false]
  · intro h
    unfold Matrix4x4.inverse
    simp only [bne, hz, h, Bool.not_false, if_true]
    refine ⟨_, rfl, ?_⟩
    refine ⟨by rw [Matrix4x4.divs]; exact quot_beq (Matrix4x4.cof00_aff hm ha hp) ed (quot_not_nan (not_nan_diff (hp _ _ _ _ (by omega)) (hp _ _ _ _ (by omega))) hd h) hd h,
      by rw [Matrix4x4.divs]; exact quot_beq (Matrix4x4.cof10_aff hm ha hp) ed (quot_not_nan (by rw [isNaN_neg]; exact not_nan_diff (hp _ _ _ _ (by omega)) (hp _ _ _ _ (by omega))) hd h) hd h,
      by rw [Matrix4x4.divs]; exact quot_beq (Matrix4x4.cof20_aff hm ha hp) ed (quot_not_nan (not_nan_diff (hp _ _ _ _ (by omega)) (hp _ _ _ _ (by omega))) hd h) hd h,
      by rw [Matrix4x4.divs]; exact quot_beq (Matrix4x4.cof01_aff hm ha hp) ed (quot_not_nan (by rw [isNaN_neg]; exact not_nan_diff (hp _ _ _ _ (by omega)) (hp _ _ _ _ (by omega))) hd h) hd h,
      by rw [Matrix4x4.divs]; exact quot_beq (Matrix4x4.cof11_aff hm ha hp) ed (quot_not_nan (not_nan_diff (hp _ _ _ _ (by omega)) (hp _ _ _ _ (by omega))) hd h) hd h,
      by rw [Matrix4x4.divs]; exact quot_beq (Matrix4x4.cof21_aff hm ha hp) ed (quot_not_nan (by rw [isNaN_neg]; exact not_nan_diff (hp _ _ _ _ (by omega)) (hp _ _ _ _ (by omega))) hd h) hd h,
      by rw [Matrix4x4.divs]; exact quot_beq (Matrix4x4.cof02_aff hm ha hp) ed (quot_not_nan (not_nan_diff (hp _ _ _ _ (by omega)) (hp _ _ _ _ (by omega))) hd h) hd h,
      by rw [Matrix4x4.divs]; exact quot_beq (Matrix4x4.cof12_aff hm ha hp) ed (quot_not_nan (by rw [isNaN_neg]; exact not_nan_diff (hp _ _ _ _ (by omega)) (hp _ _ _ _ (by omega))) hd h) hd h,
      by rw [Matrix4x4.divs]; exact quot_beq (Matrix4x4.cof22_aff hm ha hp) ed (quot_not_nan (not_nan_diff (hp _ _ _ _ (by omega)) (hp _ _ _ _ (by omega))) hd h) hd h,
      by rw [Matrix4x4.divs]; exact quot_zero (Matrix4x4.cof03_aff hm ha hp) ed hd h,
      by rw [Matrix4x4.divs]; exact quot_zero (Matrix4x4.cof13_aff hm ha hp) ed hd h,
      by rw [Matrix4x4.divs]; exact quot_zero (Matrix4x4.cof23_aff hm ha hp) ed hd h,
      by rw [Matrix4x4.divs]; exact fun hs => quot_beq m.cof33 ed (quot_not_nan hs hd h) hd h⟩


/-! ### Only the linear part matters -/
theorem beq_join {x y p q : S} (h : (x == p) = true) (k : (y == q) = true) (e : num p = num q) : (x == y) = true :=
  beq_of_num' ((num_of_beq h).trans (e.trans (num_of_beq k).symm)) (IEEE.beq_iff.1 k).1
theorem Matrix3x3.linDet_congr {a b : Matrix3x3 S} (h : a.SameLinear b) : num a.linDet = num b.linDet :=
  num_sub_congr (num_mul_congr (num_of_beq (h 0 0 (by omega) (by omega))) (num_of_beq (h 1 1 (by omega) (by omega))))
    (num_mul_congr (num_of_beq (h 0 1 (by omega) (by omega))) (num_of_beq (h 1 0 (by omega) (by omega))))
/-- **C108** (2D): affine matrices with the same linear part both have no inverse, or have inverses with the same linear part. -/
theorem C108_same_linear2 (a b : Matrix3x3 S) (ha : AllFinite a) (hb : AllFinite b) (la : a.toReal 2 = ![0, 0, 1]) (lb : b.toReal 2 = ![0, 0, 1])
    (pa : a.Moderate) (pb : b.Moderate) (da : IsFinite a.linDet) (h : a.SameLinear b) :
    (a.inverse = .error .mk ∧ b.inverse = .error .mk) ∨ ∃ x y, a.inverse = .ok x ∧ b.inverse = .ok y ∧ x.SameLinear y := by
  have e := Matrix3x3.linDet_congr h
  have db : IsFinite b.linDet := finite_of_num e.symm da
  have hz : (a.linDet == zero) = (b.linDet == zero) := beq_congr e rfl
  have ka := C108_affine2 a ha la pa da
  have kb := C108_affine2 b hb lb pb db
  have n00 := num_of_beq (h 0 0 (by omega) (by omega))
  have n01 := num_of_beq (h 0 1 (by omega) (by omega))
  have n10 := num_of_beq (h 1 0 (by omega) (by omega))
  have n11 := num_of_beq (h 1 1 (by omega) (by omega))
  cases z : (a.linDet == zero) with
  | true => exact .inl ⟨ka.1 z, kb.1 (hz ▸ z)⟩
  | false =>
    obtain ⟨x, hx, ex⟩ := ka.2 z
    obtain ⟨y, hy, ey⟩ := kb.2 (hz ▸ z)
    rw [Matrix3x3.beq_iff, forall_lt_9] at ex ey
    obtain ⟨x0, x1, -, x3, x4, -⟩ := ex
    obtain ⟨y0, y1, -, y3, y4, -⟩ := ey
    refine .inr ⟨x, y, hx, hy, ?_⟩
    have v := val_ne_of da z rfl
    intro i j hi hj
    interval_cases i <;> interval_cases j
    · exact beq_join x0 y0 (num_div_congr n11 e v)
    · exact beq_join x1 y1 (num_div_congr (num_neg_congr n01) e v)
    · exact beq_join x3 y3 (num_div_congr (num_neg_congr n10) e v)
    · exact beq_join x4 y4 (num_div_congr n00 e v)
theorem Matrix4x4.linDet_congr {a b : Matrix4x4 S} (h : a.SameLinear b) : num a.linDet = num b.linDet := by
  have n (i j : ℕ) (hi : i < 3) (hj : j < 3) := num_of_beq (h i j hi hj)
  have f (i j k l p q r s : ℕ) (hi : i < 3) (hj : j < 3) (hk : k < 3) (hl : l < 3) (hp : p < 3) (hq : q < 3) (hr : r < 3) (hs : s < 3) :
      num (a.m[4 * i + j] * a.m[4 * k + l] - a.m[4 * p + q] * a.m[4 * r + s]) = num (b.m[4 * i + j] * b.m[4 * k + l] - b.m[4 * p + q] * b.m[4 * r + s]) :=
    num_sub_congr (num_mul_congr (n i j hi hj) (n k l hk hl)) (num_mul_congr (n p q hp hq) (n r s hr hs))
  exact num_add_congr (num_add_congr (num_mul_congr (n 0 0 (by omega) (by omega)) (f 1 1 2 2 1 2 2 1 (by omega) (by omega) (by omega) (by omega) (by omega) (by omega) (by omega) (by omega)))
    (num_mul_congr (n 0 1 (by omega) (by omega)) (num_neg_congr (f 1 0 2 2 1 2 2 0 (by omega) (by omega) (by omega) (by omega) (by omega) (by omega) (by omega) (by omega)))))
    (num_mul_congr (n 0 2 (by omega) (by omega)) (f 1 0 2 1 1 1 2 0 (by omega) (by omega) (by omega) (by omega) (by omega) (by omega) (by omega) (by omega)))
/-- **C108** (3D): affine matrices with the same linear part both have no inverse, or have inverses with the same linear part. -/
theorem C108_same_linear3 (a b : Matrix4x4 S) (ha : AllFinite a) (hb : AllFinite b) (la : a.toReal 3 = ![0, 0, 0, 1]) (lb : b.toReal 3 = ![0, 0, 0, 1])
    (pa : a.Moderate) (pb : b.Moderate) (da : IsFinite a.linDet) (h : a.SameLinear b) :
    (a.inverse = .error .mk ∧ b.inverse = .error .mk) ∨ ∃ x y, a.inverse = .ok x ∧ b.inverse = .ok y ∧ x.SameLinear y := by
  have e := Matrix4x4.linDet_congr h
  have db : IsFinite b.linDet := finite_of_num e.symm da
  have hz : (a.linDet == zero) = (b.linDet == zero) := beq_congr e rfl
  have ka := C108_affine3 a ha la pa da
  have kb := C108_affine3 b hb lb pb db
  have n (i j : ℕ) (hi : i < 3) (hj : j < 3) := num_of_beq (h i j hi hj)
  have f (i j k l p q r s : ℕ) (hi : i < 3) (hj : j < 3) (hk : k < 3) (hl : l < 3) (hp : p < 3) (hq : q < 3) (hr : r < 3) (hs : s < 3) :
      num (a.m[4 * i + j] * a.m[4 * k + l] - a.m[4 * p + q] * a.m[4 * r + s]) = num (b.m[4 * i + j] * b.m[4 * k + l] - b.m[4 * p + q] * b.m[4 * r + s]) :=
    num_sub_congr (num_mul_congr (n i j hi hj) (n k l hk hl)) (num_mul_congr (n p q hp hq) (n r s hr hs))
  cases z : (a.linDet == zero) with
  | true => exact .inl ⟨ka.1 z, kb.1 (hz ▸ z)⟩
  | false =>
    obtain ⟨x, hx, x0, x1, x2, x4, x5, x6, x8, x9, x10, -⟩ := ka.2 z
    obtain ⟨y, hy, y0, y1, y2, y4, y5, y6, y8, y9, y10, -⟩ := kb.2 (hz ▸ z)
    refine .inr ⟨x, y, hx, hy, ?_⟩
    have v := val_ne_of da z rfl
    intro i j hi hj
    interval_cases i <;> interval_cases j
    · exact beq_join x0 y0 (num_div_congr (f 1 1 2 2 1 2 2 1 (by omega) (by omega) (by omega) (by omega) (by omega) (by omega) (by omega) (by omega)) e v)
    · exact beq_join x1 y1 (num_div_congr (num_neg_congr (f 0 1 2 2 0 2 2 1 (by omega) (by omega) (by omega) (by omega) (by omega) (by omega) (by omega) (by omega))) e v)
    · exact beq_join x2 y2 (num_div_congr (f 0 1 1 2 0 2 1 1 (by omega) (by omega) (by omega) (by omega) (by omega) (by omega) (by omega) (by omega)) e v)
    · exact beq_join x4 y4 (num_div_congr (num_neg_congr (f 1 0 2 2 1 2 2 0 (by omega) (by omega) (by omega) (by omega) (by omega) (by omega) (by omega) (by omega))) e v)
    · exact beq_join x5 y5 (num_div_congr (f 0 0 2 2 0 2 2 0 (by omega) (by omega) (by omega) (by omega) (by omega) (by omega) (by omega) (by omega)) e v)
    · exact beq_join x6 y6 (num_div_congr (num_neg_congr (f 0 0 1 2 0 2 1 0 (by omega) (by omega) (by omega) (by omega) (by omega) (by omega) (by omega) (by omega))) e v)
    · exact beq_join x8 y8 (num_div_congr (f 1 0 2 1 1 1 2 0 (by omega) (by omega) (by omega) (by omega) (by omega) (by omega) (by omega) (by omega)) e v)
    · exact beq_join x9 y9 (num_div_congr (num_neg_congr (f 0 0 2 1 0 1 2 0 (by omega) (by omega) (by omega) (by omega) (by omega) (by omega) (by omega) (by omega))) e v)
    · exact beq_join x10 y10 (num_div_congr (f 0 0 1 1 0 1 1 0 (by omega) (by omega) (by omega) (by omega) (by omega) (by omega) (by omega) (by omega)) e v)
end

/-! ### How far from `1` the last entry can be -/
section
variable {S : Type} [Scalar S] [IEEE S] [Binary S]
omit [IEEE S] [Binary S] [Scalar S] in
theorem absDet_rows (m : Matrix (Fin 3) (Fin 3) ℝ) : absDet m = |m 0 0| * (|m 1 1| * |m 2 2| + |m 1 2| * |m 2 1|)
    + |m 0 1| * (|m 1 0| * |m 2 2| + |m 1 2| * |m 2 0|) + |m 0 2| * (|m 1 0| * |m 2 1| + |m 1 1| * |m 2 0|) := by
  rw [absDet_three]; ring
theorem Approx.minus {k : ℕ} {t : ℝ} {c : S} {x A : ℝ} (h : Approx k t c x A) : Approx k t (-c) (-x) A := by
  refine ⟨by rw [abs_neg]; exact h.1, ?_⟩
  rw [IEEE.real_neg, show -real c - -x = -(real c - x) by ring, abs_neg]; exact h.2
theorem Approx.minor {a b c d e : S} {M : ℝ} (hM : |real a| ≤ M) (h : IsFinite (a * (b * c - d * e))) :
    Approx 3 ((1 + 2 * (1 + uro S) ^ 2 * M) * tiny S) (a * (b * c - d * e)) (real a * (real b * real c - real d * real e))
      (|real a| * (|real b| * |real c| + |real d| * |real e|)) := by
  have f := (finite_of_mul h).2
  have k := Approx.exact_mul (a := a) ((Approx.prod (finite_of_sub f).1).sub (Approx.prod (finite_of_sub f).2) f) h
  refine k.mono le_rfl ?_
  have hu := uro_pos (S := S)
  have ht := tiny_pos (S := S)
  have : (1 + uro S) * (|real a| * ((1 + uro S) * (tiny S + tiny S))) ≤ (1 + uro S) * (M * ((1 + uro S) * (tiny S + tiny S))) := by gcongr
  nlinarith
theorem Approx.linDet {m : Matrix4x4 S} {M : ℝ} (hM : ∀ i j, |m.linPart i j| ≤ M) (h : IsFinite m.linDet) :
    Approx 5 (3 * (1 + uro S) ^ 2 * (1 + 2 * (1 + uro S) ^ 2 * M) * tiny S) m.linDet m.linPart.det (absDet m.linPart) := by
  have h' : IsFinite (m.m[0] * (m.m[5] * m.m[10] - m.m[6] * m.m[9]) + m.m[1] * -(m.m[4] * m.m[10] - m.m[6] * m.m[8])
    + m.m[2] * (m.m[4] * m.m[9] - m.m[5] * m.m[8])) := h
  have f1 := finite_of_add h'
  have f2 := finite_of_add f1.1
  have s1 : Same (m.m[1] * -(m.m[4] * m.m[10] - m.m[6] * m.m[8])) (-(m.m[1] * (m.m[4] * m.m[10] - m.m[6] * m.m[8]))) := by
    exact (same_mul_comm _ _).trans ((same_neg_mul _ _).trans (same_mul_comm _ _).neg)
  have f3 : IsFinite (m.m[1] * (m.m[4] * m.m[10] - m.m[6] * m.m[8])) := by
    have := f2.2; unfold IsFinite at this; rw [s1] at this; exact finite_neg.1 this
  have hM0 : 0 ≤ M := (abs_nonneg _).trans (hM 0 0)
  have t0 : 0 ≤ (1 + 2 * (1 + uro S) ^ 2 * M) * tiny S := by
    have hu := uro_pos (S := S); have ht := tiny_pos (S := S); positivity
  have a0 := Approx.minor (S := S) (a := m.m[0]) (M := M) (hM 0 0) f2.1
  have a1 := (Approx.minor (S := S) (a := m.m[1]) (M := M) (hM 0 1) f3).minus
  have a2 := Approx.minor (S := S) (a := m.m[2]) (M := M) (hM 0 2) f1.2
  have a1' : Approx 3 ((1 + 2 * (1 + uro S) ^ 2 * M) * tiny S) (m.m[1] * -(m.m[4] * m.m[10] - m.m[6] * m.m[8]))
      (-(real m.m[1] * (real m.m[4] * real m.m[10] - real m.m[6] * real m.m[8])))
      (|real m.m[1]| * (|real m.m[4]| * |real m.m[10]| + |real m.m[6]| * |real m.m[8]|)) := by
    refine ⟨a1.1, ?_⟩
    unfold IEEE.real; rw [s1]; exact a1.2
  have r := ((a0.start.acc t0 le_rfl a1' f1.1).acc t0 (by omega) a2 h')
  refine (r.congr ((Matrix.det_fin_three m.linPart).trans ?_).symm (absDet_rows m.linPart).symm).mono (by omega) (le_of_eq ?_)
  · simp only [Matrix4x4.linPart, Matrix.of_apply]
    show real m.m[0] * real m.m[5] * real m.m[10] - real m.m[0] * real m.m[6] * real m.m[9] - real m.m[1] * real m.m[4] * real m.m[10]
      + real m.m[1] * real m.m[6] * real m.m[8] + real m.m[2] * real m.m[4] * real m.m[9] - real m.m[2] * real m.m[5] * real m.m[8] =
      real m.m[0] * (real m.m[5] * real m.m[10] - real m.m[6] * real m.m[9]) + -(real m.m[1] * (real m.m[4] * real m.m[10] - real m.m[6] * real m.m[8]))
      + real m.m[2] * (real m.m[4] * real m.m[9] - real m.m[5] * real m.m[8])
    ring
  · push_cast; ring
theorem Approx.linSarrus {m : Matrix4x4 S} {M : ℝ} (hM : ∀ i j, |m.linPart i j| ≤ M) (h : IsFinite m.linSarrus) :
    Approx 7 (6 * (1 + uro S) ^ 6 * (1 + M) * tiny S) m.linSarrus m.linPart.det (absDet m.linPart) := by
  have hM0 : 0 ≤ M := (abs_nonneg _).trans (hM 0 0)
  refine (Approx.six hM0 h (hM 2 2) (hM 2 0) (hM 2 1) (hM 2 1) (hM 2 2) (hM 2 0)).congr ((Matrix.det_fin_three m.linPart).trans ?_).symm ((absDet_three m.linPart).trans ?_).symm
  · simp only [Matrix4x4.linPart, Matrix.of_apply]
    show real m.m[0] * real m.m[5] * real m.m[10] - real m.m[0] * real m.m[6] * real m.m[9] - real m.m[1] * real m.m[4] * real m.m[10]
      + real m.m[1] * real m.m[6] * real m.m[8] + real m.m[2] * real m.m[4] * real m.m[9] - real m.m[2] * real m.m[5] * real m.m[8] = _
    ring
  · rfl
/-- **C108** (3D): the last entry `w` of the inverse of an affine matrix differs from `1` by at most the relative difference of
the two computed determinants, and one rounding. -/
theorem C108_w3 (m n : Matrix4x4 S) (M : ℝ) (hm : AllFinite m) (ha : m.toReal 3 = ![0, 0, 0, 1]) (hp : m.Moderate) (hd : IsFinite m.linDet)
    (hs : IsFinite m.linSarrus) (hM : ∀ i j, |m.linPart i j| ≤ M) (h : m.inverse = .ok n) (hn : AllFinite n) :
    |n.toReal 3 3 - 1| * |real m.linDet| ≤ (1 + uro S) * twoDets S m.linPart M + (uro S + tiny S) * |real m.linDet| := by
  have k := C108_affine3 m hm ha hp hd
  cases hz : (m.linDet == zero) with
  | true => rw [k.1 hz] at h; cases h
  | false =>
    obtain ⟨n', h', -, -, -, -, -, -, -, -, -, -, -, -, e⟩ := k.2 hz
    rw [h] at h'; cases h'
    rw [Matrix4x4.allFinite] at hn
    have n0 := real_ne_of hd hz
    have e := num_of_beq (e hs.not_nan)
    have fq : IsFinite (m.linSarrus / m.linDet) := finite_of_num e.symm (hn 15 (by omega))
    have e15 : n.toReal 3 3 = real (m.linSarrus / m.linDet) := real_of_num (hn 15 (by omega)) fq e
    rw [e15]
    have er := err_div hs hd n0 fq
    have A := (Approx.linDet hM hd).2
    have B := (Approx.linSarrus hM hs).2
    set D := real m.linDet
    set P := real m.linSarrus
    set X := m.linPart.det
    have hu := uro_pos (S := S)
    have ht := tiny_pos (S := S)
    have hD : 0 < |D| := abs_pos.2 n0
    have d : |P - D| ≤ twoDets S m.linPart M := by
      have := abs_sub_le P X D
      rw [abs_sub_comm X D] at this
      unfold twoDets gam
      nlinarith
    have q : P / D = 1 + (P - D) / D := by field_simp; ring
    have q1 : |P / D| ≤ 1 + |P - D| / |D| := by
      rw [q]; refine (abs_add_le _ _).trans ?_; rw [abs_one, abs_div]
    have q2 : |real (m.linSarrus / m.linDet) - 1| ≤ uro S * (1 + |P - D| / |D|) + tiny S + |P - D| / |D| := by
      have := abs_sub_le (real (m.linSarrus / m.linDet)) (P / D) 1
      have h3 : |P / D - 1| = |P - D| / |D| := by rw [q, add_sub_cancel_left, abs_div]
      have h4 : uro S * |P / D| ≤ uro S * (1 + |P - D| / |D|) := by gcongr
      linarith
    calc _ ≤ (uro S * (1 + |P - D| / |D|) + tiny S + |P - D| / |D|) * |D| := by gcongr
      _ = (1 + uro S) * |P - D| + (uro S + tiny S) * |D| := by field_simp; ring
      _ ≤ _ := by gcongr
end

/-! ### Translations -/
section
variable {S : Type} [Scalar S] [IEEE S]

noncomputable def nneg (u : Val) : Val := u.neg.canon
theorem num_neg (a : S) : num (-a) = nneg (num a) := by
  unfold num nneg; rw [den_neg]; exact Rounding.canon_neg (by simp)
theorem num_sub_neg (a b : S) : num (a - b) = nadd (IEEE.A S) (num a) (nneg (num b)) := by
  rw [(same_sub a b).num, IEEE.num_add, num_neg]
theorem nneg_zero : nneg (.fin 0) = .fin 0 := by rw [← IEEE.num_zero (S := Ideal), ← num_neg, n_negz]
theorem nneg_nneg (a : S) : nneg (nneg (num a)) = num a := by rw [← num_neg, ← num_neg, (same_neg_neg a).num]
theorem nneg_one_mul (a : S) : nmul (IEEE.A S) (nneg (.fin 1)) (num a) = nneg (num a) := by
  rw [← IEEE.num_one (S := S), ← num_neg, ← IEEE.num_mul, n_neg1, num_neg]
theorem nneg_one_mul_neg (a : S) : nmul (IEEE.A S) (nneg (.fin 1)) (nneg (num a)) = num a := by
  rw [← num_neg, nneg_one_mul, num_neg, nneg_nneg]
theorem nneg_one_mul_zero : nmul (IEEE.A S) (nneg (.fin 1)) (.fin 0) = .fin 0 := by
  rw [← IEEE.num_zero (S := S), nneg_one_mul, IEEE.num_zero, nneg_zero]
theorem zero_nadd_nneg (a : S) : nadd (IEEE.A S) (.fin 0) (nneg (num a)) = nneg (num a) := by
  rw [← num_neg, IEEE.zero_nadd]
theorem nneg_nadd_zero (a : S) : nadd (IEEE.A S) (nneg (num a)) (.fin 0) = nneg (num a) := by
  rw [← num_neg, IEEE.nadd_zero]
theorem one_nmul_nneg (a : S) : nmul (IEEE.A S) (.fin 1) (nneg (num a)) = nneg (num a) := by
  rw [← num_neg, IEEE.one_nmul]
macro "neg_simp" "[" hs:Lean.Parser.Tactic.simpLemma,* "]" : tactic =>
  `(tactic| num_simp [num_neg, num_sub_neg, nneg_zero, nneg_nneg, nneg_one_mul, nneg_one_mul_neg, nneg_one_mul_zero, zero_nadd_nneg, nneg_nadd_zero, one_nmul_nneg, $hs,*])

/-- **C108** (2D): inverting the matrix of a translation gives exactly the opposite translation. -/
theorem C108_translate2 (v : Vector2 S) (hv : AllFinite v) :
    (∃ n, (Matrix3x3.translate v).inverse = .ok n ∧ (n == Matrix3x3.translate (-v)) = true) ∧
    ∃ t, Transform2.tryFrom (Matrix3x3.translate v) = .ok t ∧ (t == Transform2.translate v) = true := by
  rw [Vector2.allFinite] at hv
  obtain ⟨hx, hy⟩ := hv
  have d : num (Matrix3x3.translate v).det = num (one : S) := by
    unfold Matrix3x3.det
    mat_simp []
    neg_simp [hx, hy]
  have z : ((Matrix3x3.translate v).det == zero) = false := by
    rw [beq_congr d rfl, Bool.eq_false_iff]
    intro h
    rw [beq_iff, val_zero, val_one] at h
    exact one_ne_zero h.2.2
  have e : ∃ n, (Matrix3x3.translate v).inverse = .ok n ∧ (n == Matrix3x3.translate (-v)) = true := by
    unfold Matrix3x3.inverse
    simp only [bne, z, Bool.not_false, if_true]
    refine ⟨_, rfl, ?_⟩
    rw [Matrix3x3.beq_iff, forall_lt_9]
    mat_simp [Vector2.neg_x, Vector2.neg_y]
    refine ⟨?_, ?_, ?_, ?_, ?_, ?_, ?_, ?_, ?_⟩ <;>
      refine beq_of_num' (num_div_of_one ?_ d) (by first | exact not_nan_zero | exact not_nan_one | exact (finite_neg.2 hx).not_nan | exact (finite_neg.2 hy).not_nan)
    all_goals try mat_simp []
    all_goals neg_simp [hx, hy]
  refine ⟨e, ?_⟩
  obtain ⟨n, hn, en⟩ := e
  refine ⟨⟨Matrix3x3.translate v, n⟩, by unfold Transform2.tryFrom; rw [hn]; rfl, ?_⟩
  show ((Matrix3x3.translate v == Matrix3x3.translate v) && (n == Matrix3x3.translate (-v))) = true
  rw [en, Bool.and_true, Matrix3x3.beq_iff, forall_lt_9]
  refine ⟨?_, ?_, ?_, ?_, ?_, ?_, ?_, ?_, ?_⟩ <;> refine beq_of_num' rfl (by first | exact not_nan_zero | exact not_nan_one | exact hx.not_nan | exact hy.not_nan)
theorem cof_translate00 (v : Vector3 S) (hx : IsFinite v.x) (hy : IsFinite v.y) (hz : IsFinite v.z) :
    num ((Matrix4x4.translate v).cofactor 0 0) = num (one : S) := by
  show num (one * (one * one * one + zero * v.z * zero + v.y * zero * zero - one * v.z * zero - zero * zero * one - v.y * one * zero) : S) = _
  neg_simp [hx, hy, hz]
theorem cof_translate01 (v : Vector3 S) (hx : IsFinite v.x) (hy : IsFinite v.y) (hz : IsFinite v.z) :
    num ((Matrix4x4.translate v).cofactor 0 1) = num (zero : S) := by
  show num (-one * (zero * one * one + zero * v.z * zero + v.y * zero * zero - zero * v.z * zero - zero * zero * one - v.y * one * zero) : S) = _
  neg_simp [hx, hy, hz]
theorem cof_translate02 (v : Vector3 S) (hx : IsFinite v.x) (hy : IsFinite v.y) (hz : IsFinite v.z) :
    num ((Matrix4x4.translate v).cofactor 0 2) = num (zero : S) := by
  show num (one * (zero * zero * one + one * v.z * zero + v.y * zero * zero - zero * v.z * zero - one * zero * one - v.y * zero * zero) : S) = _
  neg_simp [hx, hy, hz]
theorem cof_translate03 (v : Vector3 S) (hx : IsFinite v.x) (hy : IsFinite v.y) (hz : IsFinite v.z) :
    num ((Matrix4x4.translate v).cofactor 0 3) = num (zero : S) := by
  show num (-one * (zero * zero * zero + one * one * zero + zero * zero * zero - zero * one * zero - one * zero * zero - zero * zero * zero) : S) = _
  neg_simp [hx, hy, hz]
theorem cof_translate10 (v : Vector3 S) (hx : IsFinite v.x) (hy : IsFinite v.y) (hz : IsFinite v.z) :
    num ((Matrix4x4.translate v).cofactor 1 0) = num (zero : S) := by
  show num (-one * (zero * one * one + zero * v.z * zero + v.x * zero * zero - zero * v.z * zero - zero * zero * one - v.x * one * zero) : S) = _
  neg_simp [hx, hy, hz]
theorem cof_translate11 (v : Vector3 S) (hx : IsFinite v.x) (hy : IsFinite v.y) (hz : IsFinite v.z) :
    num ((Matrix4x4.translate v).cofactor 1 1) = num (one : S) := by
  show num (one * (one * one * one + zero * v.z * zero + v.x * zero * zero - one * v.z * zero - zero * zero * one - v.x * one * zero) : S) = _
  neg_simp [hx, hy, hz]
theorem cof_translate12 (v : Vector3 S) (hx : IsFinite v.x) (hy : IsFinite v.y) (hz : IsFinite v.z) :
    num ((Matrix4x4.translate v).cofactor 1 2) = num (zero : S) := by
  show num (-one * (one * zero * one + zero * v.z * zero + v.x * zero * zero - one * v.z * zero - zero * zero * one - v.x * zero * zero) : S) = _
  neg_simp [hx, hy, hz]
theorem cof_translate13 (v : Vector3 S) (hx : IsFinite v.x) (hy : IsFinite v.y) (hz : IsFinite v.z) :
    num ((Matrix4x4.translate v).cofactor 1 3) = num (zero : S) := by
  show num (one * (one * zero * zero + zero * one * zero + zero * zero * zero - one * one * zero - zero * zero * zero - zero * zero * zero) : S) = _
  neg_simp [hx, hy, hz]
theorem cof_translate20 (v : Vector3 S) (hx : IsFinite v.x) (hy : IsFinite v.y) (hz : IsFinite v.z) :
    num ((Matrix4x4.translate v).cofactor 2 0) = num (zero : S) := by
  show num (one * (zero * zero * one + zero * v.y * zero + v.x * one * zero - zero * v.y * zero - zero * one * one - v.x * zero * zero) : S) = _
  neg_simp [hx, hy, hz]
theorem cof_translate21 (v : Vector3 S) (hx : IsFinite v.x) (hy : IsFinite v.y) (hz : IsFinite v.z) :
    num ((Matrix4x4.translate v).cofactor 2 1) = num (zero : S) := by
  show num (-one * (one * zero * one + zero * v.y * zero + v.x * zero * zero - one * v.y * zero - zero * zero * one - v.x * zero * zero) : S) = _
  neg_simp [hx, hy, hz]
theorem cof_translate22 (v : Vector3 S) (hx : IsFinite v.x) (hy : IsFinite v.y) (hz : IsFinite v.z) :
    num ((Matrix4x4.translate v).cofactor 2 2) = num (one : S) := by
  show num (one * (one * one * one + zero * v.y * zero + v.x * zero * zero - one * v.y * zero - zero * zero * one - v.x * one * zero) : S) = _
  neg_simp [hx, hy, hz]
theorem cof_translate23 (v : Vector3 S) (hx : IsFinite v.x) (hy : IsFinite v.y) (hz : IsFinite v.z) :
    num ((Matrix4x4.translate v).cofactor 2 3) = num (zero : S) := by
  show num (-one * (one * one * zero + zero * zero * zero + zero * zero * zero - one * zero * zero - zero * zero * zero - zero * one * zero) : S) = _
  neg_simp [hx, hy, hz]
theorem cof_translate30 (v : Vector3 S) (hx : IsFinite v.x) (hy : IsFinite v.y) (hz : IsFinite v.z) :
    num ((Matrix4x4.translate v).cofactor 3 0) = num (-v.x : S) := by
  show num (-one * (zero * zero * v.z + zero * v.y * zero + v.x * one * one - zero * v.y * one - zero * one * v.z - v.x * zero * zero) : S) = _
  neg_simp [hx, hy, hz]
theorem cof_translate31 (v : Vector3 S) (hx : IsFinite v.x) (hy : IsFinite v.y) (hz : IsFinite v.z) :
    num ((Matrix4x4.translate v).cofactor 3 1) = num (-v.y : S) := by
  show num (one * (one * zero * v.z + zero * v.y * zero + v.x * zero * one - one * v.y * one - zero * zero * v.z - v.x * zero * zero) : S) = _
  neg_simp [hx, hy, hz]
theorem cof_translate32 (v : Vector3 S) (hx : IsFinite v.x) (hy : IsFinite v.y) (hz : IsFinite v.z) :
    num ((Matrix4x4.translate v).cofactor 3 2) = num (-v.z : S) := by
  show num (-one * (one * one * v.z + zero * v.y * zero + v.x * zero * zero - one * v.y * zero - zero * zero * v.z - v.x * one * zero) : S) = _
  neg_simp [hx, hy, hz]
theorem cof_translate33 (v : Vector3 S) (hx : IsFinite v.x) (hy : IsFinite v.y) (hz : IsFinite v.z) :
    num ((Matrix4x4.translate v).cofactor 3 3) = num (one : S) := by
  show num (one * (one * one * one + zero * zero * zero + zero * zero * zero - one * zero * zero - zero * zero * one - zero * one * zero) : S) = _
  neg_simp [hx, hy, hz]
/-- **C108** (3D): inverting the matrix of a translation gives exactly the opposite translation. -/
theorem C108_translate3 (v : Vector3 S) (hv : AllFinite v) :
    (∃ n, (Matrix4x4.translate v).inverse = .ok n ∧ (n == Matrix4x4.translate (-v)) = true) ∧
    ∃ t, Transform3.tryFrom (Matrix4x4.translate v) = .ok t ∧ (t == Transform3.translate v) = true := by
  rw [Vector3.allFinite] at hv
  obtain ⟨hx, hy, hz⟩ := hv
  have d : num ((Matrix4x4.translate v).detOf (Matrix4x4.translate v).adjugate) = num (one : S) := by
    show num ((one : S) * (Matrix4x4.translate v).cofactor 0 0 + zero * (Matrix4x4.translate v).cofactor 0 1
      + zero * (Matrix4x4.translate v).cofactor 0 2 + v.x * (Matrix4x4.translate v).cofactor 0 3) = _
    rw [IEEE.num_add, IEEE.num_add, IEEE.num_add, IEEE.num_mul, IEEE.num_mul, IEEE.num_mul, IEEE.num_mul, cof_translate00 v hx hy hz,
      cof_translate01 v hx hy hz, cof_translate02 v hx hy hz, cof_translate03 v hx hy hz]
    neg_simp [hx]
  have z : ((Matrix4x4.translate v).detOf (Matrix4x4.translate v).adjugate == zero) = false := by
    rw [beq_congr d rfl, Bool.eq_false_iff]
    intro h
    rw [beq_iff, val_zero, val_one] at h
    exact one_ne_zero h.2.2
  have e : ∃ n, (Matrix4x4.translate v).inverse = .ok n ∧ (n == Matrix4x4.translate (-v)) = true := by
    unfold Matrix4x4.inverse
    simp only [bne, z, Bool.not_false, if_true]
    refine ⟨_, rfl, ?_⟩
    rw [Matrix4x4.beq_iff]
    intro i hi
    rw [Matrix4x4.divs]
    refine beq_of_num' (num_div_of_one ?_ d) ?_
    · interval_cases i
      · exact cof_translate00 v hx hy hz
      · exact cof_translate10 v hx hy hz
      · exact cof_translate20 v hx hy hz
      · exact cof_translate30 v hx hy hz
      · exact cof_translate01 v hx hy hz
      · exact cof_translate11 v hx hy hz
      · exact cof_translate21 v hx hy hz
      · exact cof_translate31 v hx hy hz
      · exact cof_translate02 v hx hy hz
      · exact cof_translate12 v hx hy hz
      · exact cof_translate22 v hx hy hz
      · exact cof_translate32 v hx hy hz
      · exact cof_translate03 v hx hy hz
      · exact cof_translate13 v hx hy hz
      · exact cof_translate23 v hx hy hz
      · exact cof_translate33 v hx hy hz
    · interval_cases i
      · exact finite_one.not_nan
      · exact finite_zero.not_nan
      · exact finite_zero.not_nan
      · exact (finite_neg.2 hx).not_nan
      · exact finite_zero.not_nan
      · exact finite_one.not_nan
      · exact finite_zero.not_nan
      · exact (finite_neg.2 hy).not_nan
      · exact finite_zero.not_nan
      · exact finite_zero.not_nan
      · exact finite_one.not_nan
      · exact (finite_neg.2 hz).not_nan
      · exact finite_zero.not_nan
      · exact finite_zero.not_nan
      · exact finite_zero.not_nan
      · exact finite_one.not_nan
  refine ⟨e, ?_⟩
  obtain ⟨n, hn, en⟩ := e
  refine ⟨⟨Matrix4x4.translate v, n⟩, by unfold Transform3.tryFrom; rw [hn]; rfl, ?_⟩
  show ((Matrix4x4.translate v == Matrix4x4.translate v) && (n == Matrix4x4.translate (-v))) = true
  rw [en, Bool.and_true, Matrix4x4.beq_iff]
  intro i hi
  refine beq_of_num' rfl ?_
  interval_cases i
  · exact finite_one.not_nan
  · exact finite_zero.not_nan
  · exact finite_zero.not_nan
  · exact hx.not_nan
  · exact finite_zero.not_nan
  · exact finite_one.not_nan
  · exact finite_zero.not_nan
  · exact hy.not_nan
  · exact finite_zero.not_nan
  · exact finite_zero.not_nan
  · exact finite_one.not_nan
  · exact hz.not_nan
  · exact finite_zero.not_nan
  · exact finite_zero.not_nan
  · exact finite_zero.not_nan
  · exact finite_one.not_nan
end
/-! ### A sufficient condition -/
section
variable {S : Type} [Scalar S] [IEEE S] [Binary S]
/-- Entries whose products stay below the overflow threshold are moderate. -/
theorem C108_moderate2 (m : Matrix3x3 S) (M : ℝ) (hm : AllFinite m) (h : ∀ i j, |m.toReal i j| ≤ M) (hM : M * M < overflowAt S) : m.Moderate := by
  rw [Matrix3x3.allFinite] at hm
  intro i j hi hj _
  have b : ∀ (k : ℕ) (hk : k < 9), |real m.m[k]| ≤ M := fun k hk => by
    have := h ⟨k / 3, by omega⟩ ⟨k % 3, by omega⟩
    have e : 3 * (k / 3) + k % 3 = k := by omega
    unfold Matrix3x3.toReal at this
    simp only [e] at this
    exact this
  refine (correct_mul (hm i hi) (hm j hj)).1.2 (lt_of_le_of_lt ?_ hM)
  rw [abs_mul]
  exact mul_le_mul (b i hi) (b j hj) (abs_nonneg _) ((abs_nonneg _).trans (b i hi))
/-- Entries whose products stay below the overflow threshold are moderate. -/
theorem C108_moderate3 (m : Matrix4x4 S) (M : ℝ) (hm : AllFinite m) (h : ∀ i j, |m.toReal i j| ≤ M) (hM : M * M < overflowAt S) : m.Moderate := by
  rw [Matrix4x4.allFinite] at hm
  intro i j hi hj _
  have b : ∀ (k : ℕ) (hk : k < 16), |real m.m[k]| ≤ M := fun k hk => by
    have := h ⟨k / 4, by omega⟩ ⟨k % 4, by omega⟩
    have e : 4 * (k / 4) + k % 4 = k := by omega
    unfold Matrix4x4.toReal at this
    simp only [e] at this
    exact this
  refine (correct_mul (hm i hi) (hm j hj)).1.2 (lt_of_le_of_lt ?_ hM)
  rw [abs_mul]
  exact mul_le_mul (b i hi) (b j hj) (abs_nonneg _) ((abs_nonneg _).trans (b i hi))
end
/-! ### Products that overflow -/
section
variable {S : Type} [Scalar S] [IEEE S]
theorem nan_big_mul_zero {B : S} (hB : IsFinite B) (h : ¬ IsFinite (B * B)) : IsNaN (B * B * zero) := by
  have n := isNaN_mul_finite hB hB
  unfold IsNaN IsFinite at *
  rw [den_mul]
  cases e : den (B * B) with
  | nan => exact absurd e n
  | inf s => rw [den_zero]; simp [Rounding.mul]
  | nzero => rw [e] at h; exact absurd trivial h
  | fin r => rw [e] at h; exact absurd trivial h
/-- **C108**: `Moderate` cannot be dropped. When the square of `B` overflows, the affine matrix with linear part `1 B; 0 1` and
translation `0 B`, of determinant 1, has an `Ok` inverse all of whose entries are NaN. -/
theorem C108_overflow2 (B : S) (hB : IsFinite B) (h : ¬ IsFinite (B * B)) :
    ∃ n, (Matrix3x3.new #v[one, B, zero, zero, one, B, zero, zero, one]).inverse = .ok n ∧ AllNaN n := by
  have hd : IsNaN (Matrix3x3.new #v[one, B, zero, zero, one, B, zero, zero, (one : S)]).det :=
    isNaN_sub_left (isNaN_sub_left (isNaN_sub_left (isNaN_add_left (isNaN_add_right (nan_big_mul_zero hB h)))))
  have hne : ((Matrix3x3.new #v[one, B, zero, zero, one, B, zero, zero, (one : S)]).det != zero) = true := by
    have : ¬ ((Matrix3x3.new #v[one, B, zero, zero, one, B, zero, zero, (one : S)]).det == zero) = true := fun h' => (beq_iff.1 h').1 hd
    simpa [bne] using this
  refine ⟨_, if_pos hne, ?_⟩
  intro s hs
  simp only [Comps.comps, Matrix3x3.new, Vector.mem_toList_iff] at hs
  simp at hs
  rcases hs with h | h | h | h | h | h | h | h | h <;> rw [h] <;> exact isNaN_div_right hd
end
end VecMath

NN=['(quot_not_nan (not_nan_diff (hp _ _ _ _ (by omega)) (hp _ _ _ _ (by omega))) hd h)', '(quot_not_nan (by rw [isNaN_neg]; exact not_nan_diff (hp _ _ _ _ (by omega)) (hp _ _ _ _ (by omega))) hd h)']

def ent(i,j): return f"m.m[{4*i+j}]"
lin=[];prf=[]
for i in range(3):
  for j in range(3):
    # n entry (i,j) = cof(j,i)
    r=[x for x in range(3) if x!=j]; c=[x for x in range(3) if x!=i]
    base=f"{ent(r[0],c[0])} * {ent(r[1],c[1])} - {ent(r[0],c[1])} * {ent(r[1],c[0])}"
    e=f"({base})" if (i+j)%2==0 else f"-({base})"
    lin.append((4*i+j,e,(r,c),(i+j)%2))
def cofexpr(i,j):
    r=[x for x in range(4) if x!=i]; c=[x for x in range(4) if x!=j]
    return f"(m.cofactor {i} {j})"
def args(r,c):
    # six products finite for sarrus1: x1*y2, x2*y0, x0*y2, x2*y1 with cols c0,c1,3
    cc=c+[3]
    X=[4*r[0]+k for k in cc]; Y=[4*r[1]+k for k in cc]
    f=lambda a,b: f"(hp {a} {b} (by omega) (by omega) (by omega))"
    return f"{f(X[1],Y[2])} {f(X[2],Y[0])} {f(X[0],Y[2])} {f(X[2],Y[1])}"
def args0(r):
    X=[4*r[0]+k for k in range(3)]; Y=[4*r[1]+k for k in range(3)]
    f=lambda a,b: f"(hp {a} {b} (by omega) (by omega) (by omega))"
    return f"{f(X[0],Y[1])} {f(X[1],Y[0])} {f(X[1],Y[2])} {f(X[2],Y[0])} {f(X[0],Y[2])} {f(X[2],Y[1])}"
Z={12:'h0',13:'h1',14:'h2',15:'h3'}
THREE="""end

/-! ### 3D -/
section
variable {S : Type} [Scalar S] [IEEE S]

theorem Matrix4x4.aff {m : Matrix4x4 S} (hm : AllFinite m) (ha : m.toReal 3 = ![0, 0, 0, 1]) :
    num m.m[12] = num (zero : S) ∧ num m.m[13] = num (zero : S) ∧ num m.m[14] = num (zero : S) ∧ num m.m[15] = num (one : S) := by
  rw [Matrix4x4.allFinite] at hm
  exact ⟨num_of_real (hm 12 (by omega)) finite_zero ((congrFun ha 0).trans real_zero.symm),
    num_of_real (hm 13 (by omega)) finite_zero ((congrFun ha 1).trans real_zero.symm),
    num_of_real (hm 14 (by omega)) finite_zero ((congrFun ha 2).trans real_zero.symm),
    num_of_real (hm 15 (by omega)) finite_one ((congrFun ha 3).trans real_one.symm)⟩
"""
for (k,e,(r,c),odd) in lin:
    i,j=divmod(k,4) # n[i][j] = cof(j,i)
    z0,z1=Z[12+c[0]],Z[12+c[1]]
    pf=f"(sarrus1 {z0} {z1} h3 {args(r,c)})"
    THREE+=f"""theorem Matrix4x4.cof{j}{i}_aff {{m : Matrix4x4 S}} (hm : AllFinite m) (ha : m.toReal 3 = ![0, 0, 0, 1]) (hp : m.Moderate) :
    num (m.cofactor {j} {i}) = num ({e}) := by
  obtain ⟨h0, h1, h2, h3⟩ := Matrix4x4.aff hm ha
  exact """+ (f"(n_neg1 _).trans (num_neg_congr {pf})" if odd else f"(IEEE.num_one_mul _).trans {pf}")+"\n"
for i in range(3):
    r=[x for x in range(3) if x!=i]
    pf=f"(sarrus0 h0 h1 h2 {args0(r)})"
    THREE+=f"""theorem Matrix4x4.cof{i}3_aff {{m : Matrix4x4 S}} (hm : AllFinite m) (ha : m.toReal 3 = ![0, 0, 0, 1]) (hp : m.Moderate) :
    num (m.cofactor {i} 3) = num (zero : S) := by
  obtain ⟨h0, h1, h2, h3⟩ := Matrix4x4.aff hm ha
  exact """+ (f"(n_neg1 _).trans ((num_neg_congr {pf}).trans n_negz)" if (i+3)%2 else f"(IEEE.num_one_mul _).trans {pf}")+"\n"
THREE+="""theorem Matrix4x4.cof33 (m : Matrix4x4 S) : num (m.cofactor 3 3) = num m.linSarrus := IEEE.num_one_mul _
theorem Matrix4x4.det_aff {m : Matrix4x4 S} (hm : AllFinite m) (ha : m.toReal 3 = ![0, 0, 0, 1]) (hp : m.Moderate) :
    num (m.detOf m.adjugate) = num m.linDet := by
  show num (m.m[0] * m.cofactor 0 0 + m.m[1] * m.cofactor 0 1 + m.m[2] * m.cofactor 0 2 + m.m[3] * m.cofactor 0 3) = _
  have f := Matrix4x4.allFinite.1 hm
  rw [n_add0 (nz_mul (f 3 (by omega)) (cof03_aff hm ha hp))]
  exact num_add_congr (num_add_congr (num_mul_congr rfl (cof00_aff hm ha hp)) (num_mul_congr rfl (cof01_aff hm ha hp)))
    (num_mul_congr rfl (cof02_aff hm ha hp))

/-- **C108** (3D): the inverse of an affine matrix. Whether it exists, and its linear part, depend on the linear part only;
its last row is exactly `0 0 0 w`, but `w` is the quotient of two differently rounded determinants. -/
theorem C108_affine3 (m : Matrix4x4 S) (hm : AllFinite m) (ha : m.toReal 3 = ![0, 0, 0, 1]) (hp : m.Moderate) (hd : IsFinite m.linDet) :
    ((m.linDet == zero) = true → m.inverse = .error .mk) ∧
    ((m.linDet == zero) = false → ∃ n, m.inverse = .ok n ∧
"""
for (k,e,_,odd) in lin:
    THREE+=f"      (n.m[{k}] == {e} / m.linDet) = true ∧\n"
THREE+="""      (n.m[12] == zero) = true ∧ (n.m[13] == zero) = true ∧ (n.m[14] == zero) = true ∧
      (¬ IsNaN m.linSarrus → (n.m[15] == m.linSarrus / m.linDet) = true)) := by
  have ed := Matrix4x4.det_aff hm ha hp
  have hz : (m.detOf m.adjugate == zero) = (m.linDet == zero) := beq_congr ed rfl
  constructor
  · intro h
    unfold Matrix4x4.inverse
    simp only [bne, hz, h, Bool.not_true, Bool.false_eq_true, if_false]
  · intro h
    unfold Matrix4x4.inverse
    simp only [bne, hz, h, Bool.not_false, if_true]
    refine ⟨_, rfl, ?_⟩
    refine ⟨"""
ps=[]
for (k,e,_,odd) in lin:
    i,j=divmod(k,4)
    ps.append(f"(quot_beq (Matrix4x4.cof{j}{i}_aff hm ha hp) ed {NN[odd]} hd h)")
for i in range(3):
    ps.append(f"(quot_zero (Matrix4x4.cof{i}3_aff hm ha hp) ed hd h)")
ps.append("(fun hs => quot_beq m.cof33 ed (quot_not_nan hs hd h) hd h)")
idx=[k for (k,_,_,_) in lin]+[12,13,14,15]
THREE+=",\n      ".join((f"by rw [Matrix4x4.divs]; exact {p[1:-1]}" if k!=15 else f"by rw [Matrix4x4.divs]; exact {p[1:-1]}") for k,p in zip(idx,ps))+"⟩\n"
out='''import Verif.Spec.InvAffine
import Verif.Spec.Det
import Verif.Lemmas.Mat
import Verif.Lemmas.Round
import Verif.Lemmas.Octree
/-!
# Inverting affine matrices in floating point (layer F): C108

(Generated by tools/gen.)
-/

open Classical

namespace VecMath
open Scalar IEEE

section
variable {S : Type} [Scalar S] [IEEE S]

theorem nz_mul {p r : S} (hp : IsFinite p) (hr : num r = num (zero : S)) : num (p * r) = num (zero : S) :=
  (num_mul_congr rfl hr).trans (IEEE.num_mul_zero hp)
theorem n1_mul {p r : S} (hr : num r = num (one : S)) : num (p * r) = num p := (num_mul_congr rfl hr).trans (IEEE.num_mul_one p)
theorem n_add0 {p r : S} (hr : num r = num (zero : S)) : num (p + r) = num p := (num_add_congr rfl hr).trans (IEEE.num_add_zero p)
theorem n_negz : num (-(zero : S)) = num (zero : S) := by
  rw [num_finite (finite_neg.2 finite_zero), IEEE.real_neg, real_zero, neg_zero, num_finite finite_zero, real_zero]
theorem n_sub0 {p r : S} (hr : num r = num (zero : S)) : num (p - r) = num p :=
  (num_sub_congr rfl hr).trans ((same_sub p zero).num.trans (n_add0 n_negz))
theorem n_0sub {p r : S} (hr : num p = num (zero : S)) : num (p - r) = num (-r) :=
  (num_sub_congr hr rfl).trans ((same_sub zero r).num.trans (IEEE.num_zero_add _))
theorem num_neg_congr {p r : S} (h : num p = num r) : num (-p) = num (-r) := by
  have e : ∀ x : S, num (-x) = num (zero - x) := fun x => (n_0sub rfl).symm
  rw [e, e]; exact num_sub_congr rfl h
theorem num_of_real {a b : S} (ha : IsFinite a) (hb : IsFinite b) (h : real a = real b) : num a = num b := by
  rw [num_finite ha, num_finite hb, h]
theorem real_of_num {a b : S} (ha : IsFinite a) (hb : IsFinite b) (h : num a = num b) : real a = real b := by
  rw [num_finite ha, num_finite hb] at h; exact Val.fin.inj h
theorem n_neg1 (x : S) : num (-one * x) = num (-x) := (same_neg_mul one x).num.trans (num_neg_congr (IEEE.num_one_mul x))
/-- Sarrus with last row `0 0 1`. -/
theorem sarrus1 {x0 x1 x2 y0 y1 y2 z0 z1 z2 : S} (h0 : num z0 = num (zero : S)) (h1 : num z1 = num (zero : S)) (h2 : num z2 = num (one : S))
    (f0 : IsFinite (x1 * y2)) (f1 : IsFinite (x2 * y0)) (f2 : IsFinite (x0 * y2)) (f3 : IsFinite (x2 * y1)) :
    num (x0 * y1 * z2 + x1 * y2 * z0 + x2 * y0 * z1 - x0 * y2 * z1 - x1 * y0 * z2 - x2 * y1 * z0) = num (x0 * y1 - x1 * y0) := by
  rw [n_sub0 (nz_mul f3 h0)]
  refine num_sub_congr ?_ (n1_mul h2)
  rw [n_sub0 (nz_mul f2 h1), n_add0 (nz_mul f1 h1), n_add0 (nz_mul f0 h0)]
  exact n1_mul h2
/-- Sarrus with last row `0 0 0`. -/
theorem sarrus0 {x0 x1 x2 y0 y1 y2 z0 z1 z2 : S} (h0 : num z0 = num (zero : S)) (h1 : num z1 = num (zero : S)) (h2 : num z2 = num (zero : S))
    (e0 : IsFinite (x0 * y1)) (e1 : IsFinite (x1 * y0))
    (f0 : IsFinite (x1 * y2)) (f1 : IsFinite (x2 * y0)) (f2 : IsFinite (x0 * y2)) (f3 : IsFinite (x2 * y1)) :
    num (x0 * y1 * z2 + x1 * y2 * z0 + x2 * y0 * z1 - x0 * y2 * z1 - x1 * y0 * z2 - x2 * y1 * z0) = num (zero : S) := by
  rw [n_sub0 (nz_mul f3 h0), n_sub0 (nz_mul e1 h2), n_sub0 (nz_mul f2 h1), n_add0 (nz_mul f1 h1), n_add0 (nz_mul f0 h0)]
  exact nz_mul e0 h2
theorem not_nan_diff {a b : S} (ha : IsFinite a) (hb : IsFinite b) : ¬ IsNaN (a - b) := by
  rw [(same_sub a b).isNaN]; exact isNaN_add_finite ha (finite_neg.2 hb).not_nan
theorem val_ne_of {d d' : S} (hd : IsFinite d) (h : (d == zero) = false) (e : num d' = num d) : val d' ≠ 0 := by
  rw [val_num, e, ← val_num, hd.val]
  intro h0
  have : real d = 0 := by exact_mod_cast h0
  have e0 : (d == zero) = true := beq_of_num' (num_of_real hd finite_zero (by rw [this, real_zero])) finite_zero.not_nan
  rw [e0] at h
  exact absurd h (by simp)
theorem real_ne_of {d : S} (hd : IsFinite d) (h : (d == zero) = false) : real d ≠ 0 := by
  intro h0
  have e0 : (d == zero) = true := beq_of_num' (num_of_real hd finite_zero (by rw [h0, real_zero])) finite_zero.not_nan
  rw [e0] at h
  exact absurd h (by simp)
theorem quot_not_nan {x d : S} (hx : ¬ IsNaN x) (hd : IsFinite d) (h : (d == zero) = false) : ¬ IsNaN (x / d) := by
  by_cases hf : IsFinite x
  · unfold IsNaN
    rw [den_div_fin hf hd (real_ne_of hd h)]
    exact Rounding.finish_ne_nan _ _ _
  · unfold IsNaN IsFinite at *
    rw [den_div]
    cases e : den x with
    | nan => exact absurd e hx
    | inf s => rw [Rounding.div_inf_fin _ s hd]; simp
    | nzero => rw [e] at hf; exact absurd trivial hf
    | fin r => rw [e] at hf; exact absurd trivial hf
/-- One entry of the inverse. -/
theorem quot_beq {x y d d' : S} (e : num x = num y) (ed : num d' = num d) (hy : ¬ IsNaN (y / d)) (hd : IsFinite d) (h : (d == zero) = false) :
    (x / d' == y / d) = true :=
  beq_of_num' (num_div_congr e ed (val_ne_of hd h ed)) hy
theorem quot_zero {x d d' : S} (e : num x = num (zero : S)) (ed : num d' = num d) (hd : IsFinite d) (h : (d == zero) = false) :
    (x / d' == zero) = true := by
  refine beq_of_num' ((num_div_congr e ed (val_ne_of hd h ed)).trans ?_) finite_zero.not_nan
  have q : IsFinite (zero / d : S) ∧ real (zero / d : S) = 0 := by
    unfold IsFinite real
    rw [den_div_fin finite_zero hd (real_ne_of hd h), real_zero, zero_div]
    exact ⟨by simp, by simp⟩
  exact num_of_real q.1 finite_zero (by rw [q.2, real_zero])
theorem quot_one {x d d' : S} (e : num x = num d) (ed : num d' = num d) (hd : IsFinite d) (h : (d == zero) = false) :
    (x / d' == one) = true := by
  refine beq_of_num' ((num_div_congr e ed (val_ne_of hd h ed)).trans ?_) finite_one.not_nan
  have n := real_ne_of hd h
  have q : num (d / d) = num (one / one : S) := by
    unfold num
    rw [den_div_fin hd hd n, den_div_fin finite_one finite_one (by rw [real_one]; norm_num), div_self n, real_one, div_self one_ne_zero]
    simp
  exact q.trans (IEEE.num_div_one one)
end
'''
out+='''
/-! ### 2D -/
section
variable {S : Type} [Scalar S] [IEEE S]

theorem Matrix3x3.aff {m : Matrix3x3 S} (hm : AllFinite m) (ha : m.toReal 2 = ![0, 0, 1]) :
    num m.m[6] = num (zero : S) ∧ num m.m[7] = num (zero : S) ∧ num m.m[8] = num (one : S) := by
  rw [Matrix3x3.allFinite] at hm
  exact ⟨num_of_real (hm 6 (by omega)) finite_zero ((congrFun ha 0).trans real_zero.symm),
    num_of_real (hm 7 (by omega)) finite_zero ((congrFun ha 1).trans real_zero.symm),
    num_of_real (hm 8 (by omega)) finite_one ((congrFun ha 2).trans real_one.symm)⟩
theorem Matrix3x3.det_aff {m : Matrix3x3 S} (hm : AllFinite m) (ha : m.toReal 2 = ![0, 0, 1]) (hp : m.Moderate) :
    num m.det = num m.linDet := by
  obtain ⟨h0, h1, h2⟩ := Matrix3x3.aff hm ha
  unfold Matrix3x3.det Matrix3x3.linDet
  rw [n_sub0 (nz_mul (hp 0 5 (by omega) (by omega) (by omega)) h1)]
  refine num_sub_congr ?_ (n1_mul h2)
  rw [n_sub0 (nz_mul (hp 2 4 (by omega) (by omega) (by omega)) h0), n_add0 (nz_mul (hp 2 3 (by omega) (by omega) (by omega)) h1),
    n_add0 (nz_mul (hp 1 5 (by omega) (by omega) (by omega)) h0)]
  exact n1_mul h2

/-- **C108** (2D): the inverse of an affine matrix. Whether it exists, and its linear part, depend on the linear part only,
and its last row is exactly `0 0 1`. -/
theorem C108_affine2 (m : Matrix3x3 S) (hm : AllFinite m) (ha : m.toReal 2 = ![0, 0, 1]) (hp : m.Moderate) (hd : IsFinite m.linDet) :
    ((m.linDet == zero) = true → m.inverse = .error .mk) ∧
    ((m.linDet == zero) = false → ∃ n, m.inverse = .ok n ∧
      (n == Matrix3x3.new #v[m.m[4] / m.linDet, -m.m[1] / m.linDet, (m.m[1] * m.m[5] - m.m[2] * m.m[4]) / m.linDet,
        -m.m[3] / m.linDet, m.m[0] / m.linDet, (m.m[2] * m.m[3] - m.m[0] * m.m[5]) / m.linDet, zero, zero, one]) = true) := by
  have ed := Matrix3x3.det_aff hm ha hp
  have hz : (m.det == zero) = (m.linDet == zero) := beq_congr ed rfl
  obtain ⟨h0, h1, h2⟩ := Matrix3x3.aff hm ha
  rw [Matrix3x3.allFinite] at hm
  constructor
  · intro h
    unfold Matrix3x3.inverse
    simp only [bne, hz, h, Bool.not_true, Bool.false_eq_true, if_false]
  · intro h
    unfold Matrix3x3.inverse
    simp only [bne, hz, h, Bool.not_false, if_true]
    refine ⟨_, rfl, ?_⟩
    rw [Matrix3x3.beq_iff, forall_lt_9]
    have f : ∀ (i : ℕ) (hi : i < 9), IsFinite m.m[i] := hm
    have q : ∀ (i : ℕ) (hi : i < 9), ¬ IsNaN (m.m[i] / m.linDet) := fun i hi => quot_not_nan (f i hi).not_nan hd h
    have q' : ∀ (i : ℕ) (hi : i < 9), ¬ IsNaN (-m.m[i] / m.linDet) := fun i hi => quot_not_nan (finite_neg.2 (f i hi)).not_nan hd h
    refine ⟨quot_beq ((n_sub0 (nz_mul (f 5 (by omega)) h1)).trans (n1_mul h2)) ed (q 4 (by omega)) hd h,
      quot_beq ((n_0sub (nz_mul (f 2 (by omega)) h1)).trans (num_neg_congr (n1_mul h2))) ed (q' 1 (by omega)) hd h,
      quot_beq rfl ed (quot_not_nan (not_nan_diff (hp _ _ _ _ (by omega)) (hp _ _ _ _ (by omega))) hd h) hd h,
      quot_beq ((n_0sub (nz_mul (f 5 (by omega)) h0)).trans (num_neg_congr (n1_mul h2))) ed (q' 3 (by omega)) hd h,
      quot_beq ((n_sub0 (nz_mul (f 2 (by omega)) h0)).trans (n1_mul h2)) ed (q 0 (by omega)) hd h,
      quot_beq rfl ed (quot_not_nan (not_nan_diff (hp _ _ _ _ (by omega)) (hp _ _ _ _ (by omega))) hd h) hd h,
      quot_zero ((n_sub0 (nz_mul (f 4 (by omega)) h0)).trans (nz_mul (f 3 (by omega)) h1)) ed hd h,
      quot_zero ((n_sub0 (nz_mul (f 0 (by omega)) h1)).trans (nz_mul (f 1 (by omega)) h0)) ed hd h,
      quot_one rfl ed hd h⟩
/-- **C108** (2D): so points are not divided by anything. -/
theorem C108_point2 (m n : Matrix3x3 S) (hm : AllFinite m) (ha : m.toReal 2 = ![0, 0, 1]) (hp : m.Moderate) (hd : IsFinite m.linDet)
    (h : m.inverse = .ok n) (hn : AllFinite n) :
    n.toReal 2 = ![0, 0, 1] ∧ ∀ p : Point2 S, AllFinite p →
      (NoNaN (n * p) → (n * p == Point2.new (n.m[0] * p.x + n.m[1] * p.y + n.m[2]) (n.m[3] * p.x + n.m[4] * p.y + n.m[5])) = true) := by
  have k := C108_affine2 m hm ha hp hd
  cases hz : (m.linDet == zero) with
  | true => rw [k.1 hz] at h; cases h
  | false =>
    obtain ⟨n', h', e⟩ := k.2 hz
    rw [h] at h'; cases h'
    rw [Matrix3x3.beq_iff, forall_lt_9] at e
    obtain ⟨-, -, -, -, -, -, e6, e7, e8⟩ := e
    rw [Matrix3x3.allFinite] at hn
    have n6 : num n.m[6] = num (zero : S) := num_of_beq e6
    have n7 : num n.m[7] = num (zero : S) := num_of_beq e7
    have n8 : num n.m[8] = num (one : S) := num_of_beq e8
    refine ⟨?_, fun p pf => ?_⟩
    · funext j
      fin_cases j
      · exact (real_of_num (hn 6 (by omega)) finite_zero n6).trans real_zero
      · exact (real_of_num (hn 7 (by omega)) finite_zero n7).trans real_zero
      · exact (real_of_num (hn 8 (by omega)) finite_one n8).trans real_one
    · intro nn
      rw [Point2.allFinite] at pf
      have w : num (n.m[6] * p.x + n.m[7] * p.y + n.m[8]) = num (one : S) := by
        refine (num_add_congr ?_ n8).trans (IEEE.num_zero_add one)
        exact (n_add0 ((same_mul_comm _ _).num.trans (nz_mul pf.2 n7))).trans ((same_mul_comm _ _).num.trans (nz_mul pf.1 n6))
      rw [Point2.noNaN] at nn
      have q : ∀ {a : S}, ¬ IsNaN (a / (n.m[6] * p.x + n.m[7] * p.y + n.m[8])) → (a / (n.m[6] * p.x + n.m[7] * p.y + n.m[8]) == a) = true :=
        fun {a} hn => by
          have e := num_div_of_one (a := a) rfl w
          exact beq_of_num' e (by rw [isNaN_iff_num, ← e, ← isNaN_iff_num]; exact hn)
      rw [Point2.beq_iff]
      exact ⟨q nn.1, q nn.2⟩
'''+THREE+'''
end
end VecMath
'''
open('/tmp/d/FloatInvAffine.lean','w').write(out)

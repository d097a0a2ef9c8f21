import Verif.Spec.Frame
import Verif.Props.FloatBasis
import Verif.Props.FloatInvAffine
import Verif.Props.FloatComponent
import Verif.Props.FloatLookAt
import Verif.Props.FloatLimits
import Verif.Lemmas.Near
/-!
# Layer F: frames around a direction in rounded arithmetic (C114)
-/

namespace VecMath
open Scalar IEEE

section
variable {S : Type} [Scalar S] [IEEE S]

theorem s_00 {x y : S} (hx : IsFinite x) (hy : IsFinite y) : num (x * zero - y * zero) = num (zero : S) :=
  (n_sub0 (nz_mul hy rfl)).trans (nz_mul hx rfl)
theorem s_10 {x y : S} (hy : IsFinite y) : num (x * one - y * zero) = num x := (n_sub0 (nz_mul hy rfl)).trans (n1_mul rfl)
theorem s_01 {x y : S} (hx : IsFinite x) : num (x * zero - y * one) = num (-y) :=
  (n_0sub (nz_mul hx rfl)).trans (num_neg_congr (n1_mul rfl))

theorem num_cross_axis (v : Vector3 S) (hv : AllFinite v) (d : Dimension3) :
    let w : Vector3 S := match d with
      | .X => Vector3.new zero v.z (-v.y)
      | .Y => Vector3.new (-v.z) zero v.x
      | .Z => Vector3.new v.y (-v.x) zero
    (num (Api.cross v (Vector3.axis d : Vector3 S) : Vector3 S).x = num w.x ∧ num (Api.cross v (Vector3.axis d : Vector3 S) : Vector3 S).y = num w.y ∧
     num (Api.cross v (Vector3.axis d : Vector3 S) : Vector3 S).z = num w.z) ∧ IsFinite w.x ∧ IsFinite w.y ∧ IsFinite w.z := by
  rw [Vector3.allFinite] at hv
  obtain ⟨h0, h1, h2⟩ := hv
  cases d <;> refine ⟨⟨?_, ?_, ?_⟩, ?_, ?_, ?_⟩ <;>
    first
      | exact finite_zero
      | exact h0
      | exact h1
      | exact h2
      | exact finite_neg.2 (by assumption)
      | exact s_00 (by assumption) (by assumption)
      | exact s_10 (by assumption)
      | exact s_01 (by assumption)

/-- **C114**: the cross product of a finite vector with an axis is computed without rounding. -/
theorem C114_cross_axis (v : Vector3 S) (hv : AllFinite v) :
    ((Api.cross v (Vector3.xAxis : Vector3 S) : Vector3 S) == vector3 zero v.z (-v.y)) = true ∧
    ((Api.cross v (Vector3.yAxis : Vector3 S) : Vector3 S) == vector3 (-v.z) zero v.x) = true ∧
    ((Api.cross v (Vector3.zAxis : Vector3 S) : Vector3 S) == vector3 v.y (-v.x) zero) = true := by
  obtain ⟨⟨a, b, c⟩, a', b', c'⟩ := num_cross_axis v hv .X
  obtain ⟨⟨d, e, f⟩, d', e', f'⟩ := num_cross_axis v hv .Y
  obtain ⟨⟨g, h, i⟩, g', h', i'⟩ := num_cross_axis v hv .Z
  refine ⟨?_, ?_, ?_⟩ <;> rw [Vector3.beq_iff]
  exacts [⟨beq_of_num' a a'.not_nan, beq_of_num' b b'.not_nan, beq_of_num' c c'.not_nan⟩,
    ⟨beq_of_num' d d'.not_nan, beq_of_num' e e'.not_nan, beq_of_num' f f'.not_nan⟩,
    ⟨beq_of_num' g g'.not_nan, beq_of_num' h h'.not_nan, beq_of_num' i i'.not_nan⟩]

/-- **C114**: the same against the mathematical cross product. -/
theorem C114_cross_exact (v : Vector3 S) (hv : AllFinite v) (d : Dimension3) :
    AllFinite (Api.cross v (Vector3.axis d : Vector3 S) : Vector3 S) ∧
    (Api.cross v (Vector3.axis d : Vector3 S) : Vector3 S).toReal = crossProduct v.toReal (Vector3.axis d : Vector3 S).toReal := by
  obtain ⟨⟨a, b, c⟩, a', b', c'⟩ := num_cross_axis v hv d
  have fa := finite_of_num a a'
  have fb := finite_of_num b b'
  have fc := finite_of_num c c'
  refine ⟨Vector3.allFinite.2 ⟨fa, fb, fc⟩, ?_⟩
  have ra := real_of_num fa a' a
  have rb := real_of_num fb b' b
  have rc := real_of_num fc c' c
  unfold Vector3.toReal
  rw [ra, rb, rc, cross_apply]
  cases d <;> simp [Vector3.axis, Vector3.xAxis, Vector3.yAxis, Vector3.zAxis, Vector3.new, real_zero (S := S), real_one (S := S), IEEE.real_neg]

theorem cancel_num {p q : S} (hp : ¬ IsNaN p) (e : num q = num (-p)) :
    (IsFinite p → num (p + q) = num (zero : S)) ∧ (¬ IsFinite p → IsNaN (p + q)) := by
  constructor
  · intro h
    rw [num_add_congr rfl e, num_zero, num_add, nadd_neg h]
  · intro h
    rw [isNaN_iff_num, num_add_congr rfl e, ← isNaN_iff_num]
    unfold IsNaN IsFinite at *
    rw [den_add, den_neg]
    induction hd : den p using Val.cases_inf_fin with
    | hn => exact absurd hd hp
    | hi s => cases s <;> rfl
    | hf x hx => rw [hd] at h; exact absurd hx h
theorem anti_num {a b c d : S} (ha : IsFinite a) (hb : IsFinite b) (e : num (c * d) = num (-(a * b))) {D : S} (hD : num D = num (a * b + c * d)) :
    ((D == zero) = true ↔ IsFinite (a * b)) ∧ (IsNaN D ↔ ¬ IsFinite (a * b)) := by
  obtain ⟨h1, h2⟩ := cancel_num (isNaN_mul_finite ha hb) e
  have n : IsNaN D ↔ IsNaN (a * b + c * d) := by rw [isNaN_iff_num, hD, ← isNaN_iff_num]
  by_cases f : IsFinite (a * b)
  · have z := beq_of_num' (hD.trans (h1 f)) finite_zero.not_nan
    exact ⟨⟨fun _ => f, fun _ => z⟩, ⟨fun k => absurd k (beq_iff.1 z).1, fun k => absurd f k⟩⟩
  · have z := n.2 (h2 f)
    exact ⟨⟨fun k => absurd z (beq_iff.1 k).1, fun k => absurd k f⟩, ⟨fun _ => f, fun _ => z⟩⟩
theorem num_mul_neg (a b : S) : num (a * -b) = num (-(a * b)) := (same_mul_neg a b).num
theorem num_mul_comm (a b : S) : num (a * b) = num (b * a) := (same_mul_comm a b).num

/-- **C114**: the inner product of a finite vector with its cross product with an axis is zero, not just small, unless the product
of the two other components overflows; then it is NaN. -/
theorem C114_orthogonal (v : Vector3 S) (hv : AllFinite v) :
    (((Api.dot v (Api.cross v (Vector3.xAxis : Vector3 S) : Vector3 S) : S) == zero) = true ↔ IsFinite (v.y * v.z)) ∧
    (IsNaN (Api.dot v (Api.cross v (Vector3.xAxis : Vector3 S) : Vector3 S) : S) ↔ ¬ IsFinite (v.y * v.z)) ∧
    (((Api.dot v (Api.cross v (Vector3.yAxis : Vector3 S) : Vector3 S) : S) == zero) = true ↔ IsFinite (v.z * v.x)) ∧
    (IsNaN (Api.dot v (Api.cross v (Vector3.yAxis : Vector3 S) : Vector3 S) : S) ↔ ¬ IsFinite (v.z * v.x)) ∧
    (((Api.dot v (Api.cross v (Vector3.zAxis : Vector3 S) : Vector3 S) : S) == zero) = true ↔ IsFinite (v.x * v.y)) ∧
    (IsNaN (Api.dot v (Api.cross v (Vector3.zAxis : Vector3 S) : Vector3 S) : S) ↔ ¬ IsFinite (v.x * v.y)) := by
  obtain ⟨⟨a, b, c⟩, -⟩ := num_cross_axis v hv .X
  obtain ⟨⟨d, e, f⟩, -⟩ := num_cross_axis v hv .Y
  obtain ⟨⟨g, h, i⟩, -⟩ := num_cross_axis v hv .Z
  rw [Vector3.allFinite] at hv
  obtain ⟨h0, h1, h2⟩ := hv
  have X := anti_num h1 h2 (c := v.z) (d := -v.y) ((num_mul_neg _ _).trans (num_neg_congr (num_mul_comm _ _)))
    (D := Api.dot v (Api.cross v (Vector3.xAxis : Vector3 S) : Vector3 S)) (by
      rw [Vector3.dot_def]
      refine num_add_congr ?_ (num_mul_congr rfl c)
      refine (num_add_congr (nz_mul h0 a) (num_mul_congr rfl b)).trans (IEEE.num_zero_add _))
  have Y := anti_num h0 (finite_neg.2 h2) (c := v.z) (d := v.x) (by
      rw [num_neg_congr (num_mul_neg v.x v.z), (same_neg_neg _).num]; exact num_mul_comm _ _)
    (D := Api.dot v (Api.cross v (Vector3.yAxis : Vector3 S) : Vector3 S)) (by
      rw [Vector3.dot_def]
      refine num_add_congr ?_ (num_mul_congr rfl f)
      refine (num_add_congr (num_mul_congr rfl d) (nz_mul h1 e)).trans (IEEE.num_add_zero _))
  have Z := anti_num h0 h1 (c := v.y) (d := -v.x) ((num_mul_neg _ _).trans (num_neg_congr (num_mul_comm _ _)))
    (D := Api.dot v (Api.cross v (Vector3.zAxis : Vector3 S) : Vector3 S)) (by
      rw [Vector3.dot_def]
      refine (num_add_congr (num_add_congr (num_mul_congr rfl g) (num_mul_congr rfl h)) (nz_mul h2 i)).trans (IEEE.num_add_zero _))
  have k : IsFinite (v.x * -v.z) ↔ IsFinite (v.z * v.x) := by
    have e : num (v.x * -v.z) = num (-(v.z * v.x)) := (num_mul_neg _ _).trans (num_neg_congr (num_mul_comm _ _))
    exact ⟨fun q => finite_neg.1 (finite_of_num e.symm q), fun q => finite_of_num e (finite_neg.2 q)⟩
  rw [k] at Y
  exact ⟨X.1, X.2, Y.1, Y.2, Z.1, Z.2⟩
/-- **C114**: in particular it is zero or NaN for every axis, and zero if the squares of the components do not overflow. -/
theorem C114_orthogonal_axis (v : Vector3 S) (hv : AllFinite v) (d : Dimension3) :
    ((Api.dot v (Api.cross v (Vector3.axis d : Vector3 S) : Vector3 S) : S) == zero) = true ∨
    IsNaN (Api.dot v (Api.cross v (Vector3.axis d : Vector3 S) : Vector3 S) : S) := by
  obtain ⟨a, a', b, b', c, c'⟩ := C114_orthogonal v hv
  cases d
  · exact (em _).imp a.2 a'.2
  · exact (em _).imp b.2 b'.2
  · exact (em _).imp c.2 c'.2

/-- The square of the component dropped is at most a third of the squared length. -/
theorem side_norm (v : Vector3 S) (hv : AllFinite v) :
    AllFinite v.sideways ∧ v.sideways.toReal = crossProduct v.toReal (Vector3.axis v.minDimension : Vector3 S).toReal ∧
    2 * norm2 v.toReal ^ 2 ≤ 3 * norm2 v.sideways.toReal ^ 2 ∧ norm2 v.sideways.toReal ≤ norm2 v.toReal := by
  obtain ⟨f, e⟩ := C114_cross_exact v hv v.minDimension
  obtain ⟨h, -⟩ := (C21_vector3 v hv.noNaN).1
  rw [Vector3.allFinite] at hv
  have fi : ∀ d, IsFinite (v.index d) := by intro d; cases d; exacts [hv.1, hv.2.1, hv.2.2]
  have le : ∀ d, real (v.index v.minDimension) ^ 2 ≤ real (v.index d) ^ 2 := by
    intro d
    have := h d
    rw [le_iff] at this
    have := this.2.2
    rw [(finite_abs.2 (fi _)).val, (finite_abs.2 (fi _)).val, EReal.coe_le_coe_iff, real_abs, real_abs] at this
    exact sq_le_sq.2 this
  have lx : _ ≤ real v.x ^ 2 := le .X
  have ly : _ ≤ real v.y ^ 2 := le .Y
  have lz : _ ≤ real v.z ^ 2 := le .Z
  have n1 : norm2 v.toReal ^ 2 = real v.x ^ 2 + real v.y ^ 2 + real v.z ^ 2 := norm2_sq3 _
  have n2 : norm2 v.sideways.toReal ^ 2 = real v.x ^ 2 + real v.y ^ 2 + real v.z ^ 2 - real (v.index v.minDimension) ^ 2 := by
    have e' : v.sideways.toReal = _ := e
    rw [norm2_sq3, e', cross_apply]
    cases v.minDimension <;> simp [Vector3.axis, Vector3.xAxis, Vector3.yAxis, Vector3.zAxis, Vector3.new, Vector3.toReal, Vector3.index, real_zero (S := S), real_one (S := S)] <;> ring
  refine ⟨f, e, ?_, ?_⟩
  · rw [n1, n2]; linarith
  · rw [← abs_of_nonneg (norm2_nonneg v.sideways.toReal), ← abs_of_nonneg (norm2_nonneg v.toReal), ← sq_le_sq, n1, n2]
    linarith [sq_nonneg (real (v.index v.minDimension))]

/-- **C114**: the sideways vector of a finite vector is exact, and is zero only for the zero vector: its length lies between
`√(2/3)` times the length and the length. -/
theorem C114_sideways (v : Vector3 S) (hv : AllFinite v) :
    AllFinite v.sideways ∧ v.sideways.toReal = crossProduct v.toReal (Vector3.axis v.minDimension : Vector3 S).toReal ∧
    2 * norm2 v.toReal ^ 2 ≤ 3 * norm2 v.sideways.toReal ^ 2 ∧ norm2 v.sideways.toReal ≤ norm2 v.toReal ∧
    ((v.sideways == Vector3.zero) = true ↔ (v == Vector3.zero) = true) := by
  obtain ⟨f, e, h, h'⟩ := side_norm v hv
  refine ⟨f, e, h, h', ?_⟩
  have key : ∀ w : Vector3 S, AllFinite w → ((w == Vector3.zero) = true ↔ norm2 w.toReal ^ 2 = 0) := by
    intro w hw
    rw [Vector3.allFinite] at hw
    have z : ∀ {x : S}, IsFinite x → ((x == zero) = true ↔ real x = 0) := by
      intro x hx
      rw [beq_iff, hx.val, finite_zero.val, EReal.coe_eq_coe_iff, real_zero]
      exact ⟨fun k => k.2.2, fun k => ⟨hx.not_nan, finite_zero.not_nan, k⟩⟩
    have n : norm2 w.toReal ^ 2 = real w.x ^ 2 + real w.y ^ 2 + real w.z ^ 2 := norm2_sq3 _
    rw [Vector3.beq_iff, n]
    show (w.x == zero) = true ∧ (w.y == zero) = true ∧ (w.z == zero) = true ↔ _
    rw [z hw.1, z hw.2.1, z hw.2.2]
    constructor
    · rintro ⟨a, b, c⟩; rw [a, b, c]; norm_num
    · intro k
      have a := sq_nonneg (real w.x)
      have b := sq_nonneg (real w.y)
      have c := sq_nonneg (real w.z)
      exact ⟨pow_eq_zero_iff two_ne_zero |>.1 (by linarith), pow_eq_zero_iff two_ne_zero |>.1 (by linarith), pow_eq_zero_iff two_ne_zero |>.1 (by linarith)⟩
  rw [key _ f, key _ hv]
  have a := sq_nonneg (norm2 v.toReal)
  have b := sq_nonneg (norm2 v.sideways.toReal)
  have c := pow_le_pow_left₀ (norm2_nonneg _) h' 2
  constructor
  · intro k; linarith
  · intro k; linarith
end

/-! ## 2D -/
section
variable {S : Type} [Scalar S] [IEEE S]
/-- **C114**, 2D: turning a vector by a right angle keeps its length, bit for bit, whatever the components; turning twice negates
it and turning four times gives it back. -/
theorem C114_turned_length (v : Vector2 S) : Same (Api.length v.turned) (Api.length v) ∧
    v.turned.turned = -v ∧ Same v.turned.turned.turned.turned.x v.x ∧ Same v.turned.turned.turned.turned.y v.y := by
  refine ⟨Same.sqrt ?_, rfl, same_neg_neg _, same_neg_neg _⟩
  show Same (-v.y * -v.y + v.x * v.x) (v.x * v.x + v.y * v.y)
  refine (same_add_comm _ _).trans ((Same.refl _).add ?_)
  exact (same_mul_neg _ _).trans ((same_neg_mul _ _).neg.trans (same_neg_neg _))
/-- **C114**, 2D: the inner product of a finite vector with the turned one is zero, unless the product of the components overflows;
then it is NaN. -/
theorem C114_turned (v : Vector2 S) (hv : AllFinite v) :
    (((Api.dot v v.turned : S) == zero) = true ↔ IsFinite (v.x * v.y)) ∧ (IsNaN (Api.dot v v.turned : S) ↔ ¬ IsFinite (v.x * v.y)) := by
  rw [Vector2.allFinite] at hv
  have k : IsFinite (v.x * -v.y) ↔ IsFinite (v.x * v.y) := by
    have e := num_mul_neg v.x v.y
    exact ⟨fun q => finite_neg.1 (finite_of_num e.symm q), fun q => finite_of_num e (finite_neg.2 q)⟩
  have := anti_num hv.1 (finite_neg.2 hv.2) (c := v.y) (d := v.x) (by
    rw [num_neg_congr (num_mul_neg v.x v.y), (same_neg_neg _).num]; exact num_mul_comm _ _) (D := Api.dot v v.turned) rfl
  rw [k] at this
  exact this
end

section
variable {S : Type} [Scalar S] [IEEE S] [Binary S]

theorem mul_self_real {x : S} (h : IsFinite (x * x)) : 0 ≤ real (x * x) := by
  rw [real_mul h, rnd_eq]; exact (Binary.F S).rnd_nonneg (mul_self_nonneg _)
theorem add_real_nonneg {x y : S} (h : IsFinite (x + y)) (hx : 0 ≤ real x) (hy : 0 ≤ real y) : 0 ≤ real (x + y) := by
  rw [real_add h, rnd_eq]; exact (Binary.F S).rnd_nonneg (_root_.add_nonneg hx hy)
/-- A sum of two of the terms of a finite sum of non-negative terms is finite. -/
theorem finite_part {a b c d : S} (h : IsFinite (a + b)) (hc : IsFinite c) (hd : IsFinite d) (c0 : 0 ≤ real c) (d0 : 0 ≤ real d)
    (hca : real c ≤ real a) (hdb : real d ≤ real b) : IsFinite (c + d) := by
  have f := finite_of_add h
  rw [(correct_add f.1 f.2).1] at h
  rw [(correct_add hc hd).1]
  rw [abs_of_nonneg (by linarith)] at h ⊢
  linarith
theorem le_add_right_real {a b : S} (h : IsFinite (a + b)) (hb : 0 ≤ real b) : real a ≤ real (a + b) := by
  have f := finite_of_add h
  rw [real_add h, rnd_eq]
  have e : (Binary.F S).rnd (real a) = real a := (Binary.F S).rnd_of_has (isFinite_has f.1)
  rw [← e]
  exact (Binary.F S).rnd_mono (by rw [e]; linarith)

theorem sq_parts {v : Vector3 S} (h : IsFinite (Api.length v)) :
    IsFinite (v.x * v.x) ∧ IsFinite (v.y * v.y) ∧ IsFinite (v.z * v.z) ∧
    IsFinite (v.z * v.z + v.y * v.y) ∧ IsFinite (v.z * v.z + v.x * v.x) ∧ IsFinite (v.y * v.y + v.x * v.x) := by
  have hd : IsFinite (v.x * v.x + v.y * v.y + v.z * v.z) := (finite_of_sqrt h).1
  obtain ⟨h1, hz⟩ := finite_of_add hd
  obtain ⟨hx, hy⟩ := finite_of_add h1
  have x0 := mul_self_real hx
  have y0 := mul_self_real hy
  have z0 := mul_self_real hz
  have l1 := le_add_right_real h1 y0
  have c1 : ∀ {a b : S}, IsFinite (a + b) → IsFinite (b + a) := fun {a b} k => finite_of_num (same_add_comm b a).num k
  have l2 := le_add_right_real (c1 h1) x0
  have e2 : real (v.y * v.y + v.x * v.x) = real (v.x * v.x + v.y * v.y) := real_of_num (c1 h1) h1 (same_add_comm _ _).num
  rw [e2] at l2
  exact ⟨hx, hy, hz, c1 (finite_part hd hy hz y0 z0 l2 le_rfl), c1 (finite_part hd hx hz x0 z0 l1 le_rfl), c1 h1⟩
theorem finite_sqrt_any {a : S} (ha : IsFinite a) (h0 : 0 ≤ real a) : IsFinite (Scalar.sqrt a) := by
  refine finite_sqrt_of ha h0 ?_
  have h1 := finite_lt_overflow ha
  rw [abs_of_nonneg h0] at h1
  have h2 := finite_lt_overflow (finite_one (S := S))
  rw [real_one, abs_one] at h2
  rcases le_total (real a) 1 with k | k
  · exact (Real.sqrt_le_one.2 k).trans_lt h2
  · refine lt_of_le_of_lt ?_ h1
    rw [Real.sqrt_le_left h0]; nlinarith
theorem num_sq_neg (a : S) : num (-a * -a) = num (a * a) := by
  rw [num_mul_neg, num_neg_congr (same_neg_mul a a).num, (same_neg_neg _).num]
/-- The length of the sideways vector does not overflow if that of the vector does not. -/
theorem side_length {v : Vector3 S} (h : IsFinite (Api.length v)) : IsFinite (Api.length v.sideways) := by
  have hv := allFinite_of_length h
  obtain ⟨hx, hy, hz, f1, f2, f3⟩ := sq_parts h
  have x0 := mul_self_real hx
  have y0 := mul_self_real hy
  have z0 := mul_self_real hz
  have key : ∃ c : S, IsFinite c ∧ 0 ≤ real c ∧ num (Api.dot v.sideways v.sideways : S) = num c := by
    unfold Vector3.sideways
    have sq : ∀ {a b : S}, num a = num b → num (a * a) = num (b * b) := fun k => num_mul_congr k k
    have z : ∀ {a : S}, num a = num (zero : S) → num (a * a) = num (zero : S) := fun k => (sq k).trans (IEEE.num_mul_zero finite_zero)
    obtain ⟨⟨a, b, c⟩, -⟩ := num_cross_axis v hv v.minDimension
    revert a b c
    cases v.minDimension <;> intro a b c <;> rw [Vector3.dot_def]
    · exact ⟨_, f1, add_real_nonneg f1 z0 y0, num_add_congr ((num_add_congr (z a) (sq b)).trans (IEEE.num_zero_add _)) ((sq c).trans (num_sq_neg _))⟩
    · exact ⟨_, f2, add_real_nonneg f2 z0 x0, num_add_congr ((num_add_congr ((sq a).trans (num_sq_neg _)) (z b)).trans (IEEE.num_add_zero _)) (sq c)⟩
    · exact ⟨_, f3, add_real_nonneg f3 y0 x0, (num_add_congr (num_add_congr (sq a) ((sq b).trans (num_sq_neg _))) (z c)).trans (IEEE.num_add_zero _)⟩
  obtain ⟨c, fc, c0, e⟩ := key
  have fd := finite_of_num e fc
  exact finite_sqrt_any fd (by rw [real_of_num fd fc e]; exact c0)
theorem finite_prod {a b : S} (ha : IsFinite (a * a)) (hb : IsFinite (b * b)) : IsFinite (a * b) := by
  have fa := (finite_of_mul ha).1
  have fb := (finite_of_mul hb).1
  rw [(correct_mul fa fa).1] at ha
  rw [(correct_mul fb fb).1] at hb
  rw [(correct_mul fa fb).1]
  rw [abs_mul] at *
  rcases le_total |real a| |real b| with k | k
  · exact (mul_le_mul_of_nonneg_right k (abs_nonneg _)).trans_lt hb
  · exact (mul_le_mul_of_nonneg_left k (abs_nonneg _)).trans_lt ha
/-- **C114**: if the squared length of `v` does not overflow, the inner product of `v` and its sideways vector is zero. -/
theorem C114_orthogonal_length (v : Vector3 S) (h : IsFinite (Api.length v)) (d : Dimension3) :
    ((Api.dot v (Api.cross v (Vector3.axis d : Vector3 S) : Vector3 S) : S) == zero) = true := by
  obtain ⟨hx, hy, hz, -⟩ := sq_parts h
  obtain ⟨a, -, b, -, c, -⟩ := C114_orthogonal v (allFinite_of_length h)
  cases d
  exacts [a.2 (finite_prod hy hz), b.2 (finite_prod hz hx), c.2 (finite_prod hx hy)]

/-- Two unit vectors at a right angle and their cross product. -/
theorem exact_frame {a b : Fin 3 → ℝ} (ha : norm2 a = 1) (hb : norm2 b = 1) (hab : a ⬝ᵥ b = 0) :
    a ⬝ᵥ a = 1 ∧ b ⬝ᵥ b = 1 ∧ crossProduct a b ⬝ᵥ crossProduct a b = 1 ∧ a ⬝ᵥ crossProduct a b = 0 ∧ b ⬝ᵥ crossProduct a b = 0 ∧
    norm2 (crossProduct a b) = 1 := by
  have aa : a ⬝ᵥ a = 1 := by rw [dot_self_norm2, ha, one_pow]
  have bb : b ⬝ᵥ b = 1 := by rw [dot_self_norm2, hb, one_pow]
  have cc : crossProduct a b ⬝ᵥ crossProduct a b = 1 := by
    rw [cross_dot_cross, aa, bb, hab, dotProduct_comm, hab]; norm_num
  refine ⟨aa, bb, cc, dot_self_cross _ _, dot_cross_self _ _, ?_⟩
  rw [dot_self_norm2] at cc
  exact (pow_eq_one_iff_of_nonneg (norm2_nonneg _) two_ne_zero).1 cc
theorem unit_perp (v e : Fin 3 → ℝ) : unit v ⬝ᵥ unit (crossProduct v e) = 0 := by
  rw [unit_eq, unit_eq, smul_dotProduct, dotProduct_smul, dot_self_cross, smul_zero, smul_zero]

/-- **C114**: each of the three computed vectors against the exact one. Asked for: the squared length neither overflows nor is
subnormal. -/
theorem C114_near (hS : Standard S) (v : Vector3 S) (h : IsFinite (Api.length v)) (hn : 2 * minNormal S ≤ norm2 v.toReal ^ 2) :
    let s := crossProduct v.toReal (Vector3.axis v.minDimension : Vector3 S).toReal
    (AllFinite v.frame.dir ∧ AllFinite v.frame.side ∧ AllFinite v.frame.up) ∧
    norm2 (v.frame.dir.toReal - unit v.toReal) ≤ 11 * uro S ∧
    norm2 (v.frame.side.toReal - unit s) ≤ 11 * uro S ∧
    norm2 (v.frame.up.toReal - crossProduct (unit v.toReal) (unit s)) ≤ 32 * uro S := by
  intro s
  have hu := uro_pos (S := S)
  have hu1 := hS.uro
  have mn := minNormal_pos (S := S)
  obtain ⟨fs, es, l, -⟩ := side_norm v (allFinite_of_length h)
  have hs : minNormal S ≤ norm2 v.sideways.toReal ^ 2 := by linarith
  obtain ⟨fd, ed⟩ := normalize_near3 hS h (by linarith)
  obtain ⟨ft, et⟩ := normalize_near3 hS (side_length h) hs
  rw [es] at et
  change norm2 (_ - unit s) ≤ _ at et
  have uD := norm2_unit (norm2_pos_of (S := S) (show minNormal S ≤ norm2 v.toReal ^ 2 by linarith))
  have uT : norm2 (unit s) = 1 := norm2_unit (norm2_pos_of (S := S) (show minNormal S ≤ _ by have := hs; rw [es] at this; exact this))
  have ld : norm2 v.normalize.toReal ≤ 102 / 100 := by
    have := norm2_le_add v.normalize.toReal (unit v.toReal)
    rw [uD] at this; linarith
  have lt : norm2 v.sideways.normalize.toReal ≤ 102 / 100 := by
    have := norm2_le_add v.sideways.normalize.toReal (unit s)
    rw [uT] at this; linarith
  have fc := cross_finite hS fd ft (by linarith) (by linarith)
  have ec := cross_err3 fc hS ld lt (by norm_num)
  refine ⟨⟨fd, ft, fc⟩, ed, et, ?_⟩
  refine (norm2_tri _ (crossProduct v.normalize.toReal v.sideways.normalize.toReal) _).trans ?_
  have k := cross_near (a := v.normalize.toReal) (b := v.sideways.normalize.toReal) (A := unit v.toReal) (B := unit s)
  rw [uD] at k
  have q : norm2 (v.normalize.toReal - unit v.toReal) * norm2 v.sideways.normalize.toReal ≤ 11 * uro S * (102 / 100) :=
    mul_le_mul ed lt (norm2_nonneg _) (by positivity)
  change norm2 ((Api.cross v.normalize v.sideways.normalize : Vector3 S).toReal - _) + _ ≤ _
  linarith

/-- **C114**: the computed frame is orthonormal and right-handed up to `65 u`, for every direction alike. -/
theorem C114_frame (hS : Standard S) (v : Vector3 S) (h : IsFinite (Api.length v)) (hn : 2 * minNormal S ≤ norm2 v.toReal ^ 2) :
    IsFrameUpTo (65 * uro S) v.frame.dir.toReal v.frame.side.toReal v.frame.up.toReal := by
  have hu := uro_pos (S := S)
  have hu1 := hS.uro
  have mn := minNormal_pos (S := S)
  obtain ⟨⟨fd, fs, fu⟩, ed, es, eu⟩ := C114_near hS v h hn
  obtain ⟨-, e, l, -⟩ := side_norm v (allFinite_of_length h)
  set s := crossProduct v.toReal (Vector3.axis v.minDimension : Vector3 S).toReal with hs
  have uD : norm2 (unit v.toReal) = 1 := norm2_unit (norm2_pos_of (S := S) (show minNormal S ≤ norm2 v.toReal ^ 2 by linarith))
  have uT : norm2 (unit s) = 1 := norm2_unit (norm2_pos_of (S := S) (show minNormal S ≤ _ by rw [← e]; linarith))
  have ab : unit v.toReal ⬝ᵥ unit s = 0 := unit_perp _ _
  obtain ⟨aa, bb, cc, ac, bc, uC⟩ := exact_frame uD uT ab
  have e0 : 0 ≤ 32 * uro S := by positivity
  have ed' : norm2 (v.frame.dir.toReal - unit v.toReal) ≤ 32 * uro S := by linarith
  have es' : norm2 (v.frame.side.toReal - unit s) ≤ 32 * uro S := by linarith
  have fin : ∀ {x y : ℝ}, |x - y| ≤ 2 * (32 * uro S) + (32 * uro S) ^ 2 → |x - y| ≤ 65 * uro S := fun k => by nlinarith
  have fin0 : ∀ {x : ℝ}, |x - 0| ≤ 2 * (32 * uro S) + (32 * uro S) ^ 2 → |x| ≤ 65 * uro S := fun k => by rw [sub_zero] at k; nlinarith
  refine ⟨⟨?_, ?_, ?_⟩, ⟨?_, ?_, ?_⟩, ?_⟩
  · rw [← aa]; exact fin (dot_near e0 ed' ed' uD uD)
  · rw [← bb]; exact fin (dot_near e0 es' es' uT uT)
  · rw [← cc]; exact fin (dot_near e0 eu eu uC uC)
  · refine fin0 ?_; rw [← ab]; exact dot_near e0 ed' es' uD uT
  · refine fin0 ?_; rw [← ac]; exact dot_near e0 ed' eu uD uC
  · refine fin0 ?_; rw [← bc]; exact dot_near e0 es' eu uT uC
  · have ld : norm2 v.normalize.toReal ≤ 102 / 100 := by
      have := norm2_le_add v.frame.dir.toReal (unit v.toReal)
      rw [uD] at this; exact this.trans (by linarith)
    have lt : norm2 v.sideways.normalize.toReal ≤ 102 / 100 := by
      have := norm2_le_add v.frame.side.toReal (unit s)
      rw [uT] at this; exact this.trans (by linarith)
    have := cross_err3 fu hS ld lt (by norm_num)
    rw [norm2_sub_comm]
    exact this.trans (by linarith)
end

section
variable {F : Fmt}
/-- **C114** is limited by the range: in every format there is a finite direction, not zero, whose frame collapses: the direction and
the side come out as the zero vector. -/
theorem C114_collapse : ∃ v : Vector3 (Fl F), AllFinite v ∧ (v == Vector3.zero) = false ∧
    (v.frame.dir == Vector3.zero) = true ∧ (v.frame.side == Vector3.zero) = true := by
  have hv : AllFinite (⟨Fl.big F, zero, zero⟩ : Vector3 (Fl F)) := Vector3.allFinite.2 ⟨Fl.finite_big, finite_zero, finite_zero⟩
  refine ⟨⟨Fl.big F, zero, zero⟩, hv, ?_, ?_, ?_⟩
  · rw [Bool.eq_false_iff]
    intro k
    rw [Vector3.beq_iff] at k
    have := (beq_iff.1 k.1).2.2
    have z : val (Vector3.zero : Vector3 (Fl F)).x = ((0 : ℝ) : EReal) := by rw [← real_zero (S := Fl F)]; exact finite_zero.val
    rw [z, Fl.finite_big.val, EReal.coe_eq_coe_iff, Fl.real_big] at this
    exact absurd this (by positivity)
  · exact (C13_float_huge3 _ hv (Or.inl Fl.big_sq)).2
  · obtain ⟨f, e, l, -⟩ := side_norm _ hv
    refine (C13_float_huge3 _ f ?_).2
    have bs := Fl.big_sq (F := F)
    have pos : 0 < overflowAt (Fl F) := (abs_nonneg _).trans_lt (finite_lt_overflow (finite_zero (S := Fl F)))
    have n2 : norm2 (Vector3.mk (Fl.big F) zero zero).toReal ^ 2 = real (Fl.big F) ^ 2 := by
      rw [norm2_sq3]; simp [Vector3.toReal, real_zero (S := Fl F)]
    rw [n2] at l
    generalize (Vector3.mk (Fl.big F) zero zero).sideways = w at f e l ⊢
    have e0 : real w.x = _ := congrFun e 0
    have e1 : real w.y = _ := congrFun e 1
    have e2 : real w.z = _ := congrFun e 2
    rw [cross_apply] at e0 e1 e2
    revert e0 e1 e2
    cases (Vector3.mk (Fl.big F) zero zero).minDimension <;>
      simp only [Vector3.axis, Vector3.xAxis, Vector3.yAxis, Vector3.zAxis, Vector3.new, Vector3.toReal, real_zero (S := Fl F), real_one (S := Fl F), Matrix.cons_val_zero, Matrix.cons_val_one, Matrix.cons_val, mul_zero, zero_mul, mul_one, sub_zero, zero_sub] <;> intro e0 e1 e2
    · exfalso
      rw [norm2_sq3] at l
      simp only [Vector3.toReal, Matrix.cons_val_zero, Matrix.cons_val_one, Matrix.cons_val, e0, e1, e2] at l
      linarith
    · right; right; rw [e2]; exact bs
    · right; left; rw [e1, neg_sq]; exact bs
end
end VecMath

import Verif.Props.FloatBox
/-!
# Bounding boxes in IEEE arithmetic, continued: extents, measures, center, corners, rays in face planes
-/

open Classical
set_option linter.unusedSectionVars false

namespace VecMath
open Scalar IEEE
variable {S : Type} [Scalar S] [IEEE S]

/-! ### Scalars -/

theorem extent_nonneg {l h : S} (hl : IsFinite l) (hh : IsFinite h) (hle : (l ≤? h) = true) :
    (Scalar.zero ≤? h - l) = true := by
  have nn : ¬ IsNaN (h - l) := isNaN_sub_finite hl hh.not_nan
  refine le_of_vals not_nan_zero nn ?_
  rw [le_iff, hl.val, hh.val, EReal.coe_le_coe_iff] at hle
  unfold val; rw [den_zero, sub_finite hh hl]
  simpa using Rounding.finish_nonneg (IEEE.A S) (s := (den h).neg? && !(den l).neg?) (x := real h - real l) (by linarith)

theorem mul_nonneg_val (A : Rounding) {a b : Val} (ha : a ≠ .nan) (hb : b ≠ .nan) (ha0 : 0 ≤ a.ereal)
    (hb0 : 0 ≤ b.ereal) :
    (A.mul a b = .nan ↔ (a.ereal = ⊤ ∧ b.ereal = 0) ∨ (a.ereal = 0 ∧ b.ereal = ⊤)) ∧
    (A.mul a b ≠ .nan → 0 ≤ (A.mul a b).ereal) := by
  have posinf : ∀ {s : Bool}, 0 ≤ (Val.inf s).ereal → s = false := by
    intro s h; cases s
    · rfl
    · simp at h
  have negnn : ∀ {v : Val}, v.IsFin → 0 ≤ v.ereal → v.real ≠ 0 → v.neg? = false := by
    intro v hv h h0
    refine neg?_of_pos hv.ne_nan (lt_of_le_of_ne h ?_)
    rw [hv.ereal]; intro h'; exact h0 (by exact_mod_cast h'.symm)
  induction a using Val.cases_inf_fin with
  | hn => exact absurd rfl ha
  | hi s =>
    obtain rfl := posinf ha0
    induction b using Val.cases_inf_fin with
    | hn => exact absurd rfl hb
    | hi t => obtain rfl := posinf hb0; simp
    | hf b hb' =>
      rw [Rounding.mul_inf_fin _ _ hb', hb'.ereal]
      split_ifs with h
      · simp [h]
      · have := negnn hb' hb0 h
        simp [this, h]
  | hf a ha' =>
    induction b using Val.cases_inf_fin with
    | hn => exact absurd rfl hb
    | hi t =>
      obtain rfl := posinf hb0
      rw [Rounding.mul_fin_inf _ ha', ha'.ereal]
      split_ifs with h
      · simp [h]
      · have := negnn ha' ha0 h
        simp [this, h]
    | hf b hb' =>
      rw [ha'.ereal, hb'.ereal] at *
      rw [Rounding.mul_fin _ ha' hb']
      refine ⟨by simp [Rounding.finish_ne_nan], fun _ => Rounding.finish_nonneg _ ?_⟩
      exact mul_nonneg (by exact_mod_cast ha0) (by exact_mod_cast hb0)

/-- The product of two non-negative floats: NaN exactly for infinity times zero, otherwise `>= 0`. -/
theorem mul_nonneg' {a b : S} (ha : (Scalar.zero ≤? a) = true) (hb : (Scalar.zero ≤? b) = true) :
    (IsNaN (a * b) ↔ (val a = ⊤ ∧ val b = 0) ∨ (val a = 0 ∧ val b = ⊤)) ∧
    (¬ IsNaN (a * b) → (Scalar.zero ≤? a * b) = true) := by
  rw [le_iff, val_zero] at ha hb
  have := mul_nonneg_val (IEEE.A S) ha.2.1 hb.2.1 ha.2.2 hb.2.2
  unfold IsNaN val
  rw [le_iff, den_mul]
  refine ⟨this.1, fun h => ⟨not_nan_zero, ?_, ?_⟩⟩
  · unfold IsNaN; rw [den_mul]; exact h
  · rw [val_zero]; unfold val; rw [den_mul]; exact this.2 h
theorem mul_nonneg_finite {a b : S} (ha : (Scalar.zero ≤? a) = true) (hb : (Scalar.zero ≤? b) = true)
    (fa : IsFinite a) (fb : IsFinite b) : (Scalar.zero ≤? a * b) = true := by
  refine (mul_nonneg' ha hb).2 fun h => ?_
  rw [(mul_nonneg' ha hb).1, fa.val, fb.val] at h
  simp at h
theorem add_nonneg' {a b : S} (ha : (Scalar.zero ≤? a) = true) (hb : (Scalar.zero ≤? b) = true) :
    (Scalar.zero ≤? a + b) = true := by
  rw [le_iff, val_zero] at *
  have := IEEE.add_nonneg ha.2.1 hb.2.1 ha.2.2 hb.2.2
  exact ⟨not_nan_zero, this.1, this.2⟩
theorem two_mul_nonneg {a : S} (ha : (Scalar.zero ≤? a) = true) : (Scalar.zero ≤? Scalar.two * a) = true := by
  have h2 : (Scalar.zero ≤? (Scalar.two : S)) = true := by
    refine le_of_vals not_nan_zero finite_two.not_nan ?_
    rw [finite_two.val, real_two, val_zero]; norm_cast
  refine (mul_nonneg' h2 ha).2 fun h => ?_
  rw [(mul_nonneg' h2 ha).1, finite_two.val, real_two] at h
  simp at h

/-- The center in one dimension lies in the interval, if the extent does not overflow. -/
theorem center1 {l h : S} (hl : IsFinite l) (hh : IsFinite h) (hle : (l ≤? h) = true)
    (hd : IsFinite (h - l)) : In1 l h (l + (h - l) * Scalar.half) := by
  rw [le_iff, hl.val, hh.val, EReal.coe_le_coe_iff] at hle
  have hle := hle.2.2
  have dd := sub_finite hh hl
  have dfit : (IEEE.A S).fits ((IEEE.A S).rnd (real h - real l)) := by
    have := hd; unfold IsFinite at this; rw [dd, Rounding.finish_isFin] at this; exact this
  have rd : real (h - l) = (IEEE.A S).rnd (real h - real l) := by
    unfold real; rw [dd]; exact (Rounding.finish_of_fits _ dfit).2
  have rd0 : 0 ≤ real (h - l) := by rw [rd]; exact Rounding.rnd_nonneg _ (by linarith)
  have mm := mul_finite hd (finite_half (S := S))
  have gap := (IEEE.A S).rnd_half_gap hl.rep.1 hh.rep.1 hle
  rw [← rd] at gap
  have m0 : 0 ≤ (IEEE.A S).rnd (real (h - l) * (1 / 2)) := Rounding.rnd_nonneg _ (by linarith)
  have mfit : (IEEE.A S).fits ((IEEE.A S).rnd (real (h - l) * (1 / 2))) := by
    refine (IEEE.A S).fits_rnd_mono (y := real (h - l)) ?_ ?_
    · rw [abs_mul, abs_of_nonneg (show (0:ℝ) ≤ 1 / 2 by norm_num)]; linarith [abs_nonneg (real (h - l))]
    · rw [hd.rep.1]; exact hd.rep.2
  have mf : IsFinite ((h - l) * Scalar.half) := by
    unfold IsFinite; rw [mm, real_half, Rounding.finish_isFin]; exact mfit
  have rm : real ((h - l) * Scalar.half) = (IEEE.A S).rnd (real (h - l) * (1 / 2)) := by
    conv_lhs => unfold real
    rw [mm, real_half]; exact (Rounding.finish_of_fits _ mfit).2
  have ss := add_finite hl mf
  have lo : real l ≤ (IEEE.A S).rnd (real l + real ((h - l) * Scalar.half)) := by
    conv_lhs => rw [← hl.rep.1]
    exact (IEEE.A S).rnd_mono (by rw [rm]; linarith)
  have hi : (IEEE.A S).rnd (real l + real ((h - l) * Scalar.half)) ≤ real h := by
    conv_rhs => rw [← hh.rep.1]
    exact (IEEE.A S).rnd_mono (by rw [rm]; linarith)
  have sfit : (IEEE.A S).fits ((IEEE.A S).rnd (real l + real ((h - l) * Scalar.half))) := by
    rcases le_total |real l| |real h| with hc | hc
    · refine (IEEE.A S).fits_mono (y := real h) ?_ hh.rep.2
      exact abs_le.2 ⟨by linarith [neg_abs_le (real l)], by linarith [le_abs_self (real h)]⟩
    · refine (IEEE.A S).fits_mono (y := real l) ?_ hl.rep.2
      exact abs_le.2 ⟨by linarith [neg_abs_le (real l)], by linarith [le_abs_self (real h)]⟩
  have sf : IsFinite (l + (h - l) * Scalar.half) := by
    unfold IsFinite; rw [ss, Rounding.finish_isFin]; exact sfit
  have rs : real (l + (h - l) * Scalar.half) = (IEEE.A S).rnd (real l + real ((h - l) * Scalar.half)) := by
    conv_lhs => unfold real
    rw [ss]; exact (Rounding.finish_of_fits _ sfit).2
  constructor
  · refine le_of_vals hl.not_nan sf.not_nan ?_
    rw [hl.val, sf.val, rs]; exact_mod_cast lo
  · refine le_of_vals sf.not_nan hh.not_nan ?_
    rw [hh.val, sf.val, rs]; exact_mod_cast hi

theorem zero_beq_one_false : ((Scalar.zero : S) == Scalar.one) = false := by
  rw [Bool.eq_false_iff]; intro h
  rw [IEEE.beq_iff] at h; simp at h

/-- Numerically zero over numerically zero. -/
theorem sub_div_zero_nan : IsNaN (((Scalar.zero : S) - Scalar.zero) / Scalar.zero) := by
  have h := same_sub_self (finite_zero (S := S))
  exact (Same.div h (Same.refl (Scalar.zero : S))).isNaN.2
    (zero_div_zero finite_zero finite_zero real_zero real_zero)
theorem one_div_zero : den (((Scalar.one : S) - Scalar.zero) / Scalar.zero) = .inf false := by
  have h : den ((Scalar.one : S) - Scalar.zero) = den (Scalar.one : S) := same_sub_zero _
  rw [den_div, h, den_one, den_zero, Rounding.div_fin _ (by simp) (by simp)]
  simp

/-! ## 2D boxes -/

section dim2
variable {a b c : BoundingBox2 S} {p q r : Point2 S}

/-! ### C31: extents and measures -/

/-- The accessors agree with each other. -/
theorem C31_extents2 (b : BoundingBox2 S) :
    b.width = b.max.x - b.min.x ∧ b.height = b.max.y - b.min.y ∧
    b.size = (b.width, b.height) ∧
    b.extent .X = b.width ∧ b.extent .Y = b.height ∧
    b.diagonal = ⟨b.width, b.height⟩ := by
  refine ⟨rfl, rfl, rfl, rfl, rfl, rfl⟩

/-- For a finite well-formed box no extent is negative or NaN, in every rounding. -/
theorem C31_float_nonneg2 (b : BoundingBox2 S) (hf : AllFinite b) (hb : LeAll b.min b.max) (d : Dimension2) :
    (Scalar.zero ≤? b.extent d) = true := by
  rw [BoundingBox2.allFinite, Point2.allFinite, Point2.allFinite] at hf
  rw [wf2_iff] at hb
  cases d
  · exact extent_nonneg hf.1.1 hf.2.1 hb.1
  · exact extent_nonneg hf.1.2 hf.2.2 hb.2

/-- The area is `>= 0`, or NaN exactly when one extent overflowed to infinity and the other is zero. -/
theorem C31_float_area (b : BoundingBox2 S) (hf : AllFinite b) (hb : LeAll b.min b.max) :
    ((Scalar.zero ≤? b.area) = true ∨ IsNaN b.area) ∧
    (IsNaN b.area ↔ ((b.width == infinity) = true ∧ (b.height == Scalar.zero) = true) ∨
      ((b.width == Scalar.zero) = true ∧ (b.height == infinity) = true)) ∧
    (AllFinite b.diagonal → (Scalar.zero ≤? b.area) = true) := by
  have hx : (Scalar.zero ≤? b.width) = true := C31_float_nonneg2 b hf hb .X
  have hy : (Scalar.zero ≤? b.height) = true := C31_float_nonneg2 b hf hb .Y
  have e : b.area = b.width * b.height := rfl
  rw [e]
  refine ⟨?_, ?_, fun h => ?_⟩
  · by_cases hn : IsNaN (b.width * b.height)
    · exact .inr hn
    · exact .inl ((mul_nonneg' hx hy).2 hn)
  · rw [(mul_nonneg' hx hy).1]
    simp only [IEEE.beq_iff, val_infinity, val_zero, not_nan_infinity, not_nan_zero, not_false_eq_true,
      true_and, (le_nn hx).2, (le_nn hy).2]
  · rw [Vector2.allFinite] at h
    exact mul_nonneg_finite hx hy h.1 h.2

example : AllFinite (BoundingBox2.new (Point2.new (Ideal.of 0) (Ideal.of 0)) (Point2.new (Ideal.of 1) (Ideal.of 1))) ∧
    AllFinite (BoundingBox2.new (Point2.new (Ideal.of 0) (Ideal.of 0)) (Point2.new (Ideal.of 1) (Ideal.of 1))).diagonal ∧
    LeAll (BoundingBox2.new (Point2.new (Ideal.of 0) (Ideal.of 0)) (Point2.new (Ideal.of 1) (Ideal.of 1))).min
      (BoundingBox2.new (Point2.new (Ideal.of 0) (Ideal.of 0)) (Point2.new (Ideal.of 1) (Ideal.of 1))).max := by
  simp [BoundingBox2.allFinite, Point2.allFinite, Vector2.allFinite, Point2.leAll, BoundingBox2.diagonal,
    Ideal.le_real]

/-! ### C32: center, in floats -/

/-- If no extent overflows, the computed center is inside the box, in every rounding. -/
theorem C32_float2 (b : BoundingBox2 S) (hf : AllFinite b) (hb : LeAll b.min b.max)
    (hd : AllFinite b.diagonal) : b.isInside b.center = true := by
  rw [BoundingBox2.allFinite, Point2.allFinite, Point2.allFinite] at hf
  rw [wf2_iff] at hb
  rw [Vector2.allFinite] at hd
  exact isInside2_iff.2 ⟨center1 hf.1.1 hf.2.1 hb.1 hd.1, center1 hf.1.2 hf.2.2 hb.2 hd.2⟩

/-! ### C33: corners -/

/-- Bit `i` of the index selects `max` (set) or `min` (clear) in dimension `i`; in a debug build an index
out of range panics, in a release build only the low bits count. -/
theorem C33_corner2 (b : BoundingBox2 S) (index : UInt32) :
    b.corner .release index = .ok ⟨if index.toNat.testBit (Dimension2.pos .X) then b.max.x else b.min.x, if index.toNat.testBit (Dimension2.pos .Y) then b.max.y else b.min.y⟩ ∧
    (index < 4 → b.corner .debug index = b.corner .release index) ∧
    (¬ index < 4 → b.corner .debug index = .error .debugAssert) := by
  have e : ∀ (k : ℕ) (hk : k < 3), (index &&& (UInt32.ofNat (2 ^ k)) == 0) = !index.toNat.testBit k := by
    intro k hk
    rw [Bool.eq_iff_iff, beq_iff_eq, Bool.not_eq_true', ← UInt32.toNat_inj, UInt32.toNat_and]
    have h2 : (UInt32.ofNat (2 ^ k)).toNat = 2 ^ k := by interval_cases k <;> rfl
    rw [h2]
    constructor
    · intro h
      have := congrArg (fun n => Nat.testBit n k) h
      simpa [Nat.testBit_and, Nat.testBit_two_pow_self] using this
    · intro h
      apply Nat.eq_of_testBit_eq
      intro j
      rw [Nat.testBit_and, Nat.testBit_two_pow]
      by_cases hj : k = j
      · subst hj; simp [h]
      · simp [hj]
  have e0 : (index &&& 1 == 0) = !index.toNat.testBit 0 := e 0 (by omega)
  have e1 : (index &&& 2 == 0) = !index.toNat.testBit 1 := e 1 (by omega)
  refine ⟨?_, fun h => ?_, fun h => ?_⟩
  · simp only [BoundingBox2.corner, reduceCtorEq, false_and, if_false, e0, e1, Point2.new, Dimension2.pos]
    congr 2
    · by_cases h : index.toNat.testBit 0 = true <;> simp [h]
    · by_cases h : index.toNat.testBit 1 = true <;> simp [h]
    
  · simp [BoundingBox2.corner, h]
  · simp [BoundingBox2.corner, h]

/-- Every combination of min/max per dimension is named by exactly one index in range. -/
theorem C33_enumerates2 (c : Dimension2 → Bool) :
    ∃! index : UInt32, index < 4 ∧ ∀ (b : BoundingBox2 S) (build : Build),
      b.corner build index = .ok ⟨if c .X then b.max.x else b.min.x, if c .Y then b.max.y else b.min.y⟩ := by
  have ex : ∃ index : UInt32, index < 4 ∧ ∀ d, index.toNat.testBit (Dimension2.pos d) = c d := by
    refine ⟨(if c .X then 1 else 0) + (if c .Y then 2 else 0), ?_, ?_⟩
    · cases c .X <;> cases c .Y <;> decide
    · intro d
      cases hx : c .X <;> cases hy : c .Y <;> cases d <;>
        simp only [hx, hy, Dimension2.pos] <;> decide
  obtain ⟨i, hi, hb⟩ := ex
  refine ⟨i, ⟨hi, fun b build => ?_⟩, ?_⟩
  · obtain ⟨h1, h2, -⟩ := C33_corner2 b i
    have h1 : b.corner build i = .ok ⟨if i.toNat.testBit (Dimension2.pos .X) then b.max.x else b.min.x, if i.toNat.testBit (Dimension2.pos .Y) then b.max.y else b.min.y⟩ := by
      cases build
      · exact (h2 hi).trans h1
      · exact h1
    rw [h1]; simp only [hb]
  · rintro j ⟨hj, hj'⟩
    have h1 := hj' ⟨⟨Scalar.zero, Scalar.zero⟩, ⟨Scalar.one, Scalar.one⟩⟩ .release
    rw [(C33_corner2 _ j).1] at h1
    have h1 := Except.ok.inj h1
    have key : ∀ x y : Bool, (if x then (Scalar.one : S) else Scalar.zero) = (if y then Scalar.one else Scalar.zero) → x = y := by
      have ne : (Scalar.zero : S) ≠ Scalar.one := by
        intro h
        have := zero_beq_one_false (S := S)
        rw [h, (Same.refl (Scalar.one : S)).beq not_nan_one] at this
        exact absurd this (by simp)
      intro x y h; cases x <;> cases y <;> simp_all
    simp only [Point2.mk.injEq] at h1
    have hd : ∀ d, j.toNat.testBit (Dimension2.pos d) = c d := by
      intro d; cases d
      · exact key _ _ h1.1
      · exact key _ _ h1.2
    apply UInt32.toNat_inj.1
    have hi' : i.toNat < 2 ^ 2 := by simpa [UInt32.lt_iff_toNat_lt] using hi
    have hj'' : j.toNat < 2 ^ 2 := by simpa [UInt32.lt_iff_toNat_lt] using hj
    apply Nat.eq_of_testBit_eq
    intro k
    by_cases hk : k < 2
    · have := fun d => (hd d).trans (hb d).symm
      interval_cases k
      · exact this .X
      · exact this .Y
      
    · rw [Nat.testBit_lt_two_pow (lt_of_lt_of_le hi' (Nat.pow_le_pow_right (by omega) (by omega))),
        Nat.testBit_lt_two_pow (lt_of_lt_of_le hj'' (Nat.pow_le_pow_right (by omega) (by omega)))]

theorem C33_inside2 (b : BoundingBox2 S) (hb : LeAll b.min b.max) (build : Build) (index : UInt32) (p : Point2 S)
    (h : b.corner build index = .ok p) : b.isInside p = true := by
  obtain ⟨h1, h2, h3⟩ := C33_corner2 b index
  have h1 : b.corner .release index = .ok p := by
    cases build
    · by_cases hi : index < 4
      · rw [← h2 hi]; exact h
      · rw [h3 hi] at h; cases h
    · exact h
  rw [(C33_corner2 b index).1] at h1
  obtain rfl := Except.ok.inj h1
  rw [wf2_iff] at hb
  have key : ∀ {l h : S} (t : Bool), (l ≤? h) = true → In1 l h (if t then h else l) := by
    intro l h t hlh; cases t
    · exact ⟨le_self (le_nn hlh).1, hlh⟩
    · exact ⟨hlh, le_self (le_nn hlh).2⟩
  exact isInside2_iff.2 ⟨key _ hb.1, key _ hb.2⟩

/-- A box contains a well-formed box iff it contains all its corners. -/
theorem C33_contains2 (a b : BoundingBox2 S) (ha : LeAll a.min a.max) (build : Build) :
    (∀ p, a.isInside p = true → b.isInside p = true) ↔
    ∀ (index : UInt32) (p : Point2 S), index < 4 → a.corner build index = .ok p → b.isInside p = true := by
  constructor
  · intro h i p _ hp; exact h p (C33_inside2 a ha build i p hp)
  · intro h
    have cor : ∀ i : UInt32, i < 4 → a.corner build i = a.corner .release i := by
      intro i hi; cases build
      · exact (C33_corner2 a i).2.1 hi
      · rfl
    have h0 := h 0 a.min (by decide) (by rw [cor 0 (by decide), (C33_corner2 a 0).1]; rfl)
    have h3 := h 3 a.max (by decide) (by rw [cor _ (by decide), (C33_corner2 a _).1]; rfl)
    rw [isInside2_iff] at h0 h3
    exact (subset2_iff ha).2 ⟨Point2.leAll.2 ⟨h0.1.1, h0.2.1⟩, Point2.leAll.2 ⟨h3.1.2, h3.2.2⟩⟩
example : (BoundingBox2.new (Point2.new (Ideal.of 0) (Ideal.of 0)) (Point2.new (Ideal.of 1) (Ideal.of 1))).corner .debug 3 =
    .ok (BoundingBox2.new (Point2.new (Ideal.of 0) (Ideal.of 0)) (Point2.new (Ideal.of 1) (Ideal.of 1))).max := by
  rw [(C33_corner2 _ _).2.1 (by decide), (C33_corner2 _ _).1]; rfl

/-! ### C37: a ray in a face plane -/

/-- The claim is false in every arithmetic: the ray from the corner `0` along the face `x = 0` of the
unit box lies inside the box for `t = 0` and `t = 1`, but `intersect` returns `None`. (The slab of the
parallel dimension gives `0/0 = NaN`, which `min`/`max` drop, leaving `inf`.) -/
theorem C37_face_plane_missed2 :
    ∃ (b : BoundingBox2 S) (ray : Ray2 S),
      AllFinite b ∧ LeAll b.min b.max ∧ AllFinite ray ∧
      b.isInside (ray.at Scalar.zero) = true ∧ b.isInside (ray.at Scalar.one) = true ∧
      Api.intersect b ray = none := by
  have h00 : (Scalar.zero ≤? (Scalar.zero : S)) = true := le_self not_nan_zero
  have h11 : (Scalar.one ≤? (Scalar.one : S)) = true := le_self not_nan_one
  have h01 : (Scalar.zero ≤? (Scalar.one : S)) = true := le_of_vals not_nan_zero not_nan_one (by simp)
  have z0 : den ((Scalar.zero : S) + Scalar.zero) = .fin 0 := by
    rw [den_add, den_zero, Rounding.add_fin _ (by simp) (by simp)]; simp
  have zz : den ((Scalar.zero : S) * Scalar.zero) = .fin 0 := by
    rw [den_mul, den_zero, Rounding.mul_fin _ (by simp) (by simp)]; simp
  have o1 : Same ((Scalar.one : S) * Scalar.one) Scalar.one := same_mul_one _
  have o0 : den ((Scalar.one : S) * Scalar.zero) = .fin 0 := by
    rw [den_mul, den_zero, den_one, Rounding.mul_fin _ (by simp) (by simp)]
    simp [show ¬ (1:ℝ) < 0 by norm_num]
  have zo : den ((Scalar.zero : S) * Scalar.one) = .fin 0 := by
    rw [den_mul, den_zero, den_one, Rounding.mul_fin _ (by simp) (by simp)]
    simp [show ¬ (1:ℝ) < 0 by norm_num]
  have in0 : ∀ x : S, den x = .fin 0 → In1 Scalar.zero Scalar.one (Scalar.zero + x) := by
    intro x hx
    have : Same (Scalar.zero + x) Scalar.zero := by
      show den _ = den _
      rw [den_add, hx, ← den_zero (S := S), ← den_add, z0, den_zero]
    have n := this.isNaN.not.2 not_nan_zero
    exact ⟨le_of_vals not_nan_zero n this.val.ge, le_of_vals n not_nan_one (by rw [this.val]; simp)⟩
  have in1 : ∀ x : S, Same x Scalar.one → In1 Scalar.zero Scalar.one (Scalar.zero + x) := by
    intro x hx
    have h2 : Same (Scalar.zero + x) (Scalar.zero + Scalar.one) := Same.add (Same.refl _) hx
    have h3 := IEEE.beq_iff.1 (zero_add_beq (S := S) not_nan_one)
    have n := h2.isNaN.not.2 h3.1
    have v : val (Scalar.zero + x) = 1 := by rw [h2.val, h3.2.2, val_one]
    exact ⟨le_of_vals not_nan_zero n (by rw [v]; simp), le_of_vals n not_nan_one (by rw [v]; simp)⟩
  refine ⟨⟨⟨Scalar.zero, Scalar.zero⟩, ⟨Scalar.one, Scalar.one⟩⟩, ⟨⟨Scalar.zero, Scalar.zero⟩, ⟨Scalar.zero, Scalar.one⟩⟩, ?_, ?_, ?_, ?_, ?_, ?_⟩
  · simp [BoundingBox2.allFinite, Point2.allFinite]
  · exact Point2.leAll.2 ⟨h01, h01⟩
  · simp [Ray2.allFinite, Point2.allFinite, Vector2.allFinite]
  · exact isInside2_iff.2 ⟨in0 _ zz, in0 _ o0⟩
  · exact isInside2_iff.2 ⟨in0 _ zo, in1 _ o1⟩
  · show BoundingBox2.intersectRay _ _ = none
    have nx := sub_div_zero_nan (S := S)
    have dx := one_div_zero (S := S)
    generalize hd1 : ((Scalar.zero : S) - Scalar.zero) / Scalar.zero = d1 at nx
    generalize hd2 : ((Scalar.one : S) - Scalar.zero) / Scalar.zero = d2 at dx
    have vd2 : ¬ IsNaN d2 ∧ val d2 = ⊤ := by unfold IsNaN val; rw [dx]; simp
    have s1 : ¬ IsNaN (fmax Scalar.zero (fmin d1 d2)) ∧ val (fmax Scalar.zero (fmin d1 d2)) = ⊤ := by
      have hm : Same (fmin d1 d2) d2 := min_nan_left nx
      have hn : ¬ IsNaN (fmin d1 d2) := hm.isNaN.not.2 vd2.1
      exact ⟨max_nn not_nan_zero, by rw [val_max not_nan_zero hn, hm.val, vd2.2]; simp⟩
    have t1 : ¬ IsNaN (fmin infinity (fmax d1 d2)) := min_nn not_nan_infinity
    -- the y slab is [0, 1]
    have ey : Same (((Scalar.one : S) - Scalar.zero) / Scalar.one) Scalar.one :=
      (same_div_one _).trans (same_sub_zero _)
    have ez : Same (((Scalar.zero : S) - Scalar.zero) / Scalar.one) Scalar.zero :=
      (same_div_one _).trans (same_sub_zero _)
    generalize hd3 : ((Scalar.zero : S) - Scalar.zero) / Scalar.one = d3 at ez
    generalize hd4 : ((Scalar.one : S) - Scalar.zero) / Scalar.one = d4 at ey
    have n3 : ¬ IsNaN d3 := ez.isNaN.not.2 not_nan_zero
    have n4 : ¬ IsNaN d4 := ey.isNaN.not.2 not_nan_one
    have s2 : ¬ IsNaN (fmax (fmax Scalar.zero (fmin d1 d2)) (fmin d3 d4)) ∧
        val (fmax (fmax Scalar.zero (fmin d1 d2)) (fmin d3 d4)) = ⊤ :=
      ⟨max_nn s1.1, by rw [val_max s1.1 (min_nn n3), s1.2]; simp⟩
    have t2 : ¬ IsNaN (fmin (fmin infinity (fmax d1 d2)) (fmax d3 d4)) ∧
        val (fmin (fmin infinity (fmax d1 d2)) (fmax d3 d4)) ≤ 1 :=
      ⟨min_nn t1, by
        rw [val_min t1 (max_nn n3), val_max n3 n4, ez.val, ey.val, val_zero, val_one]
        exact (min_le_right _ _).trans (by simp)⟩
    have one_lt : (1 : EReal) < ⊤ := by exact_mod_cast EReal.coe_lt_top 1
    simp only [BoundingBox2.intersectRay, Api.min, Api.max, MinMax.min, MinMax.max, hd1, hd2, hd3, hd4]
    split_ifs with g1 g2
    · rfl
    · rw [le_iff] at g2
      exact absurd (g2.2.2.trans t2.2) (by rw [s2.2]; exact not_le.2 one_lt)
    · rfl

end dim2
/-! ## 3D boxes -/

section dim3
variable {a b c : BoundingBox3 S} {p q r : Point3 S}

/-! ### C31: extents and measures -/

/-- The accessors agree with each other. -/
theorem C31_extents3 (b : BoundingBox3 S) :
    b.width = b.max.x - b.min.x ∧ b.height = b.max.y - b.min.y ∧ b.depth = b.max.z - b.min.z ∧
    b.size = (b.width, b.height, b.depth) ∧
    b.extent .X = b.width ∧ b.extent .Y = b.height ∧ b.extent .Z = b.depth ∧
    b.diagonal = ⟨b.width, b.height, b.depth⟩ := by
  refine ⟨rfl, rfl, rfl, rfl, rfl, rfl, rfl, rfl⟩

/-- For a finite well-formed box no extent is negative or NaN, in every rounding. -/
theorem C31_float_nonneg3 (b : BoundingBox3 S) (hf : AllFinite b) (hb : LeAll b.min b.max) (d : Dimension3) :
    (Scalar.zero ≤? b.extent d) = true := by
  rw [BoundingBox3.allFinite, Point3.allFinite, Point3.allFinite] at hf
  rw [wf3_iff] at hb
  cases d
  · exact extent_nonneg hf.1.1 hf.2.1 hb.1
  · exact extent_nonneg hf.1.2.1 hf.2.2.1 hb.2.1
  · exact extent_nonneg hf.1.2.2 hf.2.2.2 hb.2.2


/-- The surface area is `>= 0` if no extent overflows; the volume too, unless the product of the first
two extents overflows and the third is zero (then it is NaN). -/
theorem C31_float_measures (b : BoundingBox3 S) (hf : AllFinite b) (hb : LeAll b.min b.max)
    (hd : AllFinite b.diagonal) :
    (Scalar.zero ≤? b.surfaceArea) = true ∧
    ((Scalar.zero ≤? b.volume) = true ∨ IsNaN b.volume) ∧
    (IsNaN b.volume ↔ (b.width * b.height == infinity) = true ∧ (b.depth == Scalar.zero) = true) := by
  have hx : (Scalar.zero ≤? b.width) = true := C31_float_nonneg3 b hf hb .X
  have hy : (Scalar.zero ≤? b.height) = true := C31_float_nonneg3 b hf hb .Y
  have hz : (Scalar.zero ≤? b.depth) = true := C31_float_nonneg3 b hf hb .Z
  rw [Vector3.allFinite] at hd
  have fx : IsFinite b.width := hd.1
  have fy : IsFinite b.height := hd.2.1
  have fz : IsFinite b.depth := hd.2.2
  have hxy := mul_nonneg_finite hx hy fx fy
  have e : b.volume = b.width * b.height * b.depth := rfl
  refine ⟨?_, ?_, ?_⟩
  · exact two_mul_nonneg (add_nonneg' (add_nonneg' hxy (mul_nonneg_finite hx hz fx fz))
      (mul_nonneg_finite hy hz fy fz))
  · rw [e]
    by_cases hn : IsNaN (b.width * b.height * b.depth)
    · exact .inr hn
    · exact .inl ((mul_nonneg' hxy hz).2 hn)
  · rw [e, (mul_nonneg' hxy hz).1]
    simp only [IEEE.beq_iff, val_infinity, val_zero, not_nan_infinity, not_nan_zero, not_false_eq_true,
      true_and, (le_nn hxy).2, (le_nn hz).2]
    rw [fz.val]; simp
example : AllFinite (BoundingBox3.new (Point3.new (Ideal.of 0) (Ideal.of 0) (Ideal.of 0)) (Point3.new (Ideal.of 1) (Ideal.of 1) (Ideal.of 1))) ∧
    AllFinite (BoundingBox3.new (Point3.new (Ideal.of 0) (Ideal.of 0) (Ideal.of 0)) (Point3.new (Ideal.of 1) (Ideal.of 1) (Ideal.of 1))).diagonal ∧
    LeAll (BoundingBox3.new (Point3.new (Ideal.of 0) (Ideal.of 0) (Ideal.of 0)) (Point3.new (Ideal.of 1) (Ideal.of 1) (Ideal.of 1))).min
      (BoundingBox3.new (Point3.new (Ideal.of 0) (Ideal.of 0) (Ideal.of 0)) (Point3.new (Ideal.of 1) (Ideal.of 1) (Ideal.of 1))).max := by
  simp [BoundingBox3.allFinite, Point3.allFinite, Vector3.allFinite, Point3.leAll, BoundingBox3.diagonal,
    Ideal.le_real]

/-! ### C32: center, in floats -/

/-- If no extent overflows, the computed center is inside the box, in every rounding. -/
theorem C32_float3 (b : BoundingBox3 S) (hf : AllFinite b) (hb : LeAll b.min b.max)
    (hd : AllFinite b.diagonal) : b.isInside b.center = true := by
  rw [BoundingBox3.allFinite, Point3.allFinite, Point3.allFinite] at hf
  rw [wf3_iff] at hb
  rw [Vector3.allFinite] at hd
  exact isInside3_iff.2 ⟨center1 hf.1.1 hf.2.1 hb.1 hd.1, center1 hf.1.2.1 hf.2.2.1 hb.2.1 hd.2.1, center1 hf.1.2.2 hf.2.2.2 hb.2.2 hd.2.2⟩

/-! ### C33: corners -/

/-- Bit `i` of the index selects `max` (set) or `min` (clear) in dimension `i`; in a debug build an index
out of range panics, in a release build only the low bits count. -/
theorem C33_corner3 (b : BoundingBox3 S) (index : UInt32) :
    b.corner .release index = .ok ⟨if index.toNat.testBit (Dimension3.pos .X) then b.max.x else b.min.x, if index.toNat.testBit (Dimension3.pos .Y) then b.max.y else b.min.y, if index.toNat.testBit (Dimension3.pos .Z) then b.max.z else b.min.z⟩ ∧
    (index < 8 → b.corner .debug index = b.corner .release index) ∧
    (¬ index < 8 → b.corner .debug index = .error .debugAssert) := by
  have e : ∀ (k : ℕ) (hk : k < 3), (index &&& (UInt32.ofNat (2 ^ k)) == 0) = !index.toNat.testBit k := by
    intro k hk
    rw [Bool.eq_iff_iff, beq_iff_eq, Bool.not_eq_true', ← UInt32.toNat_inj, UInt32.toNat_and]
    have h2 : (UInt32.ofNat (2 ^ k)).toNat = 2 ^ k := by interval_cases k <;> rfl
    rw [h2]
    constructor
    · intro h
      have := congrArg (fun n => Nat.testBit n k) h
      simpa [Nat.testBit_and, Nat.testBit_two_pow_self] using this
    · intro h
      apply Nat.eq_of_testBit_eq
      intro j
      rw [Nat.testBit_and, Nat.testBit_two_pow]
      by_cases hj : k = j
      · subst hj; simp [h]
      · simp [hj]
  have e0 : (index &&& 1 == 0) = !index.toNat.testBit 0 := e 0 (by omega)
  have e1 : (index &&& 2 == 0) = !index.toNat.testBit 1 := e 1 (by omega)
  have e2 : (index &&& 4 == 0) = !index.toNat.testBit 2 := e 2 (by omega)
  refine ⟨?_, fun h => ?_, fun h => ?_⟩
  · simp only [BoundingBox3.corner, reduceCtorEq, false_and, if_false, e0, e1, e2, Point3.new, Dimension3.pos]
    congr 2
    · by_cases h : index.toNat.testBit 0 = true <;> simp [h]
    · by_cases h : index.toNat.testBit 1 = true <;> simp [h]
    · by_cases h : index.toNat.testBit 2 = true <;> simp [h]
  · simp [BoundingBox3.corner, h]
  · simp [BoundingBox3.corner, h]

/-- Every combination of min/max per dimension is named by exactly one index in range. -/
theorem C33_enumerates3 (c : Dimension3 → Bool) :
    ∃! index : UInt32, index < 8 ∧ ∀ (b : BoundingBox3 S) (build : Build),
      b.corner build index = .ok ⟨if c .X then b.max.x else b.min.x, if c .Y then b.max.y else b.min.y, if c .Z then b.max.z else b.min.z⟩ := by
  have ex : ∃ index : UInt32, index < 8 ∧ ∀ d, index.toNat.testBit (Dimension3.pos d) = c d := by
    refine ⟨(if c .X then 1 else 0) + (if c .Y then 2 else 0) + (if c .Z then 4 else 0), ?_, ?_⟩
    · cases c .X <;> cases c .Y <;> cases c .Z <;> decide
    · intro d
      cases hx : c .X <;> cases hy : c .Y <;> cases hz : c .Z <;> cases d <;>
        simp only [hx, hy, hz, Dimension3.pos] <;> decide
  obtain ⟨i, hi, hb⟩ := ex
  refine ⟨i, ⟨hi, fun b build => ?_⟩, ?_⟩
  · obtain ⟨h1, h2, -⟩ := C33_corner3 b i
    have h1 : b.corner build i = .ok ⟨if i.toNat.testBit (Dimension3.pos .X) then b.max.x else b.min.x, if i.toNat.testBit (Dimension3.pos .Y) then b.max.y else b.min.y, if i.toNat.testBit (Dimension3.pos .Z) then b.max.z else b.min.z⟩ := by
      cases build
      · exact (h2 hi).trans h1
      · exact h1
    rw [h1]; simp only [hb]
  · rintro j ⟨hj, hj'⟩
    have h1 := hj' ⟨⟨Scalar.zero, Scalar.zero, Scalar.zero⟩, ⟨Scalar.one, Scalar.one, Scalar.one⟩⟩ .release
    rw [(C33_corner3 _ j).1] at h1
    have h1 := Except.ok.inj h1
    have key : ∀ x y : Bool, (if x then (Scalar.one : S) else Scalar.zero) = (if y then Scalar.one else Scalar.zero) → x = y := by
      have ne : (Scalar.zero : S) ≠ Scalar.one := by
        intro h
        have := zero_beq_one_false (S := S)
        rw [h, (Same.refl (Scalar.one : S)).beq not_nan_one] at this
        exact absurd this (by simp)
      intro x y h; cases x <;> cases y <;> simp_all
    simp only [Point3.mk.injEq] at h1
    have hd : ∀ d, j.toNat.testBit (Dimension3.pos d) = c d := by
      intro d; cases d
      · exact key _ _ h1.1
      · exact key _ _ h1.2.1
      · exact key _ _ h1.2.2
    apply UInt32.toNat_inj.1
    have hi' : i.toNat < 2 ^ 3 := by simpa [UInt32.lt_iff_toNat_lt] using hi
    have hj'' : j.toNat < 2 ^ 3 := by simpa [UInt32.lt_iff_toNat_lt] using hj
    apply Nat.eq_of_testBit_eq
    intro k
    by_cases hk : k < 3
    · have := fun d => (hd d).trans (hb d).symm
      interval_cases k
      · exact this .X
      · exact this .Y
      · exact this .Z
    · rw [Nat.testBit_lt_two_pow (lt_of_lt_of_le hi' (Nat.pow_le_pow_right (by omega) (by omega))),
        Nat.testBit_lt_two_pow (lt_of_lt_of_le hj'' (Nat.pow_le_pow_right (by omega) (by omega)))]

theorem C33_inside3 (b : BoundingBox3 S) (hb : LeAll b.min b.max) (build : Build) (index : UInt32) (p : Point3 S)
    (h : b.corner build index = .ok p) : b.isInside p = true := by
  obtain ⟨h1, h2, h3⟩ := C33_corner3 b index
  have h1 : b.corner .release index = .ok p := by
    cases build
    · by_cases hi : index < 8
      · rw [← h2 hi]; exact h
      · rw [h3 hi] at h; cases h
    · exact h
  rw [(C33_corner3 b index).1] at h1
  obtain rfl := Except.ok.inj h1
  rw [wf3_iff] at hb
  have key : ∀ {l h : S} (t : Bool), (l ≤? h) = true → In1 l h (if t then h else l) := by
    intro l h t hlh; cases t
    · exact ⟨le_self (le_nn hlh).1, hlh⟩
    · exact ⟨hlh, le_self (le_nn hlh).2⟩
  exact isInside3_iff.2 ⟨key _ hb.1, key _ hb.2.1, key _ hb.2.2⟩

/-- A box contains a well-formed box iff it contains all its corners. -/
theorem C33_contains3 (a b : BoundingBox3 S) (ha : LeAll a.min a.max) (build : Build) :
    (∀ p, a.isInside p = true → b.isInside p = true) ↔
    ∀ (index : UInt32) (p : Point3 S), index < 8 → a.corner build index = .ok p → b.isInside p = true := by
  constructor
  · intro h i p _ hp; exact h p (C33_inside3 a ha build i p hp)
  · intro h
    have cor : ∀ i : UInt32, i < 8 → a.corner build i = a.corner .release i := by
      intro i hi; cases build
      · exact (C33_corner3 a i).2.1 hi
      · rfl
    have h0 := h 0 a.min (by decide) (by rw [cor 0 (by decide), (C33_corner3 a 0).1]; rfl)
    have h3 := h 7 a.max (by decide) (by rw [cor _ (by decide), (C33_corner3 a _).1]; rfl)
    rw [isInside3_iff] at h0 h3
    exact (subset3_iff ha).2 ⟨Point3.leAll.2 ⟨h0.1.1, h0.2.1.1, h0.2.2.1⟩, Point3.leAll.2 ⟨h3.1.2, h3.2.1.2, h3.2.2.2⟩⟩
example : (BoundingBox3.new (Point3.new (Ideal.of 0) (Ideal.of 0) (Ideal.of 0)) (Point3.new (Ideal.of 1) (Ideal.of 1) (Ideal.of 1))).corner .debug 7 =
    .ok (BoundingBox3.new (Point3.new (Ideal.of 0) (Ideal.of 0) (Ideal.of 0)) (Point3.new (Ideal.of 1) (Ideal.of 1) (Ideal.of 1))).max := by
  rw [(C33_corner3 _ _).2.1 (by decide), (C33_corner3 _ _).1]; rfl

/-! ### C37: a ray in a face plane -/

/-- The claim is false in every arithmetic: the ray from the corner `0` along the face `x = 0` of the
unit box lies inside the box for `t = 0` and `t = 1`, but `intersect` returns `None`. (The slab of the
parallel dimension gives `0/0 = NaN`, which `min`/`max` drop, leaving `inf`.) -/
theorem C37_face_plane_missed3 :
    ∃ (b : BoundingBox3 S) (ray : Ray3 S),
      AllFinite b ∧ LeAll b.min b.max ∧ AllFinite ray ∧
      b.isInside (ray.at Scalar.zero) = true ∧ b.isInside (ray.at Scalar.one) = true ∧
      Api.intersect b ray = none := by
  have h00 : (Scalar.zero ≤? (Scalar.zero : S)) = true := le_self not_nan_zero
  have h11 : (Scalar.one ≤? (Scalar.one : S)) = true := le_self not_nan_one
  have h01 : (Scalar.zero ≤? (Scalar.one : S)) = true := le_of_vals not_nan_zero not_nan_one (by simp)
  have z0 : den ((Scalar.zero : S) + Scalar.zero) = .fin 0 := by
    rw [den_add, den_zero, Rounding.add_fin _ (by simp) (by simp)]; simp
  have zz : den ((Scalar.zero : S) * Scalar.zero) = .fin 0 := by
    rw [den_mul, den_zero, Rounding.mul_fin _ (by simp) (by simp)]; simp
  have o1 : Same ((Scalar.one : S) * Scalar.one) Scalar.one := same_mul_one _
  have o0 : den ((Scalar.one : S) * Scalar.zero) = .fin 0 := by
    rw [den_mul, den_zero, den_one, Rounding.mul_fin _ (by simp) (by simp)]
    simp [show ¬ (1:ℝ) < 0 by norm_num]
  have zo : den ((Scalar.zero : S) * Scalar.one) = .fin 0 := by
    rw [den_mul, den_zero, den_one, Rounding.mul_fin _ (by simp) (by simp)]
    simp [show ¬ (1:ℝ) < 0 by norm_num]
  have in0 : ∀ x : S, den x = .fin 0 → In1 Scalar.zero Scalar.one (Scalar.zero + x) := by
    intro x hx
    have : Same (Scalar.zero + x) Scalar.zero := by
      show den _ = den _
      rw [den_add, hx, ← den_zero (S := S), ← den_add, z0, den_zero]
    have n := this.isNaN.not.2 not_nan_zero
    exact ⟨le_of_vals not_nan_zero n this.val.ge, le_of_vals n not_nan_one (by rw [this.val]; simp)⟩
  have in1 : ∀ x : S, Same x Scalar.one → In1 Scalar.zero Scalar.one (Scalar.zero + x) := by
    intro x hx
    have h2 : Same (Scalar.zero + x) (Scalar.zero + Scalar.one) := Same.add (Same.refl _) hx
    have h3 := IEEE.beq_iff.1 (zero_add_beq (S := S) not_nan_one)
    have n := h2.isNaN.not.2 h3.1
    have v : val (Scalar.zero + x) = 1 := by rw [h2.val, h3.2.2, val_one]
    exact ⟨le_of_vals not_nan_zero n (by rw [v]; simp), le_of_vals n not_nan_one (by rw [v]; simp)⟩
  refine ⟨⟨⟨Scalar.zero, Scalar.zero, Scalar.zero⟩, ⟨Scalar.one, Scalar.one, Scalar.one⟩⟩, ⟨⟨Scalar.zero, Scalar.zero, Scalar.zero⟩, ⟨Scalar.zero, Scalar.one, Scalar.zero⟩⟩, ?_, ?_, ?_, ?_, ?_, ?_⟩
  · simp [BoundingBox3.allFinite, Point3.allFinite]
  · exact Point3.leAll.2 ⟨h01, h01, h01⟩
  · simp [Ray3.allFinite, Point3.allFinite, Vector3.allFinite]
  · exact isInside3_iff.2 ⟨in0 _ zz, in0 _ o0, in0 _ zz⟩
  · exact isInside3_iff.2 ⟨in0 _ zo, in1 _ o1, in0 _ zo⟩
  · show BoundingBox3.intersectRay _ _ = none
    have nx := sub_div_zero_nan (S := S)
    have dx := one_div_zero (S := S)
    generalize hd1 : ((Scalar.zero : S) - Scalar.zero) / Scalar.zero = d1 at nx
    generalize hd2 : ((Scalar.one : S) - Scalar.zero) / Scalar.zero = d2 at dx
    have vd2 : ¬ IsNaN d2 ∧ val d2 = ⊤ := by unfold IsNaN val; rw [dx]; simp
    have s1 : ¬ IsNaN (fmax Scalar.zero (fmin d1 d2)) ∧ val (fmax Scalar.zero (fmin d1 d2)) = ⊤ := by
      have hm : Same (fmin d1 d2) d2 := min_nan_left nx
      have hn : ¬ IsNaN (fmin d1 d2) := hm.isNaN.not.2 vd2.1
      exact ⟨max_nn not_nan_zero, by rw [val_max not_nan_zero hn, hm.val, vd2.2]; simp⟩
    have t1 : ¬ IsNaN (fmin infinity (fmax d1 d2)) := min_nn not_nan_infinity
    -- the y slab is [0, 1]
    have ey : Same (((Scalar.one : S) - Scalar.zero) / Scalar.one) Scalar.one :=
      (same_div_one _).trans (same_sub_zero _)
    have ez : Same (((Scalar.zero : S) - Scalar.zero) / Scalar.one) Scalar.zero :=
      (same_div_one _).trans (same_sub_zero _)
    generalize hd3 : ((Scalar.zero : S) - Scalar.zero) / Scalar.one = d3 at ez
    generalize hd4 : ((Scalar.one : S) - Scalar.zero) / Scalar.one = d4 at ey
    have n3 : ¬ IsNaN d3 := ez.isNaN.not.2 not_nan_zero
    have n4 : ¬ IsNaN d4 := ey.isNaN.not.2 not_nan_one
    have s2 : ¬ IsNaN (fmax (fmax Scalar.zero (fmin d1 d2)) (fmin d3 d4)) ∧
        val (fmax (fmax Scalar.zero (fmin d1 d2)) (fmin d3 d4)) = ⊤ :=
      ⟨max_nn s1.1, by rw [val_max s1.1 (min_nn n3), s1.2]; simp⟩
    have t2 : ¬ IsNaN (fmin (fmin infinity (fmax d1 d2)) (fmax d3 d4)) ∧
        val (fmin (fmin infinity (fmax d1 d2)) (fmax d3 d4)) ≤ 1 :=
      ⟨min_nn t1, by
        rw [val_min t1 (max_nn n3), val_max n3 n4, ez.val, ey.val, val_zero, val_one]
        exact (min_le_right _ _).trans (by simp)⟩
    have one_lt : (1 : EReal) < ⊤ := by exact_mod_cast EReal.coe_lt_top 1
    simp only [BoundingBox3.intersectRay, Api.min, Api.max, MinMax.min, MinMax.max, hd1, hd2, hd3, hd4]
    split_ifs with g1 g2 g3
    · rfl
    · rfl
    · exact absurd (lt_iff.2 ⟨t2.1, s2.1, by rw [s2.2]; exact t2.2.trans_lt one_lt⟩) g2
    · rfl

end dim3

end VecMath

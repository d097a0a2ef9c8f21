import Verif.Spec.Sphere
import Verif.Lemmas.Num
import Verif.Lemmas.Symm
import Verif.Lemmas.Mono
import Verif.Props.FloatAxis
import Verif.Props.FloatPlane
import Verif.Lemmas.Enc
/-! # C119: rays and balls in floating point -/

open Classical

namespace VecMath
open Scalar IEEE

section
variable {S : Type} [Scalar S] [IEEE S]
theorem rootRange_some {a h k : S} {R : Range S} (e : rootRange a h k = some R) :
    (zero ≤? (h * h - a * k)) = true ∧ R = ⟨(-h - sqrt (h * h - a * k)) / a, (-h + sqrt (h * h - a * k)) / a⟩ := by
  unfold rootRange at e
  simp only at e
  split at e
  · exact ⟨by assumption, (Option.some.inj e).symm⟩
  · cases e
theorem rootRange_of {a h k : S} (e : (zero ≤? (h * h - a * k)) = true) :
    rootRange a h k = some ⟨(-h - sqrt (h * h - a * k)) / a, (-h + sqrt (h * h - a * k)) / a⟩ := if_pos e
theorem rootRange_congr {a h k a' h' k' : S} (ea : num a = num a') (eh : num h = num h') (ek : num k = num k') (h0 : val a ≠ 0) :
    (rootRange a h k = none ∧ rootRange a' h' k' = none) ∨ ∃ R R', rootRange a h k = some R ∧ rootRange a' h' k' = some R' ∧
      num R.start = num R'.start ∧ num R.stop = num R'.stop := by
  have d : num (h * h - a * k) = num (h' * h' - a' * k') := num_sub_congr (num_mul_congr eh eh) (num_mul_congr ea ek)
  have s := num_sqrt_congr d
  have n := num_neg_congr eh
  have l := le_congr (rfl : num (zero : S) = num zero) d
  unfold rootRange
  simp only
  rw [← l]
  split
  · exact .inr ⟨_, _, rfl, rfl, num_div_congr (num_sub_congr n s) ea h0, num_div_congr (num_add_congr n s) ea h0⟩
  · exact .inl ⟨rfl, rfl⟩
theorem num_neg_quot (x a : S) : num (-x / a) = num (-(x / a)) := by
  unfold num; congr 1
  rw [den_div, den_neg, den_neg, den_div, Rounding.neg_div]
theorem num_back_add (h s a : S) : num ((h - s) / a) = num (-((-h + s) / a)) := by
  refine (num_div_left a ?_).trans (num_neg_quot _ a)
  refine ((same_sub h s).num.trans (num_add_congr (same_neg_neg h).num.symm rfl)).trans (num_neg_add (-h) s)
theorem num_back_sub (h s a : S) : num ((h + s) / a) = num (-((-h - s) / a)) := by
  refine (num_div_left a ?_).trans (num_neg_quot _ a)
  refine (num_add_congr (same_neg_neg h).num.symm (same_neg_neg s).num.symm).trans ((num_neg_add (-h) (-s)).trans ?_)
  exact num_neg_congr (same_sub (-h) s).num.symm
/-- Opposite middle term: opposite roots. -/
theorem rootRange_back {a h k h' : S} (eh : num h' = num (-h)) (ha : IsFinite a) (h0 : 0 < real a) (hh : IsFinite h) :
    (rootRange a h k = none ∧ rootRange a h' k = none) ∨ ∃ R R', rootRange a h k = some R ∧ rootRange a h' k = some R' ∧
      num R'.start = num (-R.stop) ∧ num R'.stop = num (-R.start) := by
  have v0 : val a ≠ 0 := by rw [ha.val]; exact_mod_cast h0.ne'
  have q : num (h' * h') = num (h * h) := by
    refine (num_mul_congr eh eh).trans ?_
    exact ((same_neg_mul h (-h)).trans ((same_mul_neg h h).neg.trans (same_neg_neg _))).num
  have d : num (h' * h' - a * k) = num (h * h - a * k) := num_sub_congr q rfl
  have s := num_sqrt_congr d
  have n := (num_neg_congr eh).trans (same_neg_neg h).num
  have l := le_congr (rfl : num (zero : S) = num zero) d
  unfold rootRange
  simp only
  rw [l]
  split
  · refine .inr ⟨_, _, rfl, rfl, ?_, ?_⟩
    · refine (num_div_congr (num_sub_congr n s) rfl v0).trans ?_
      exact num_back_add _ _ _
    · refine (num_div_congr (num_add_congr n s) rfl v0).trans ?_
      exact num_back_sub _ _ _
  · exact .inl ⟨rfl, rfl⟩
/-- The parts of a reported range are numbers, in order. -/
theorem rootRange_ordered {a h k : S} {R : Range S} (e : rootRange a h k = some R) (ha : IsFinite a) (h0 : 0 < real a) (hh : IsFinite h) :
    (R.start ≤? R.stop) = true := by
  obtain ⟨hd, rfl⟩ := rootRange_some e
  generalize h * h - a * k = d at hd
  obtain ⟨-, nd, vd⟩ := le_iff.1 hd
  rw [val_zero] at vd
  have ns : ¬ IsNaN (sqrt d) := fun c => nd ((isNaN_sqrt_nonneg vd).1 c)
  have vs := val_sqrt_nonneg nd vd
  have fh := finite_neg.2 hh
  have n1 : ¬ IsNaN (-h - sqrt d) := fun c => isNaN_sub_finite fh ns (isNaN_sub_comm.1 c)
  have n2 : ¬ IsNaN (-h + sqrt d) := isNaN_add_finite fh ns
  have n3 : ¬ IsNaN (-h - zero) := fun c => fh.not_nan ((same_sub_zero _).isNaN.1 c)
  have n4 : ¬ IsNaN (-h + zero) := isNaN_add_finite fh finite_zero.not_nan
  have l1 : val (-h - sqrt d) ≤ val (-h - zero) := val_sub_mono le_rfl (by rw [val_zero]; exact vs) n1 n3
  have l2 : val (-h + zero) ≤ val (-h + sqrt d) := val_add_mono le_rfl (by rw [val_zero]; exact vs) n4 n2
  have l3 : val (-h - zero) = val (-h + zero) := by rw [(same_sub_zero _).val, val_num (-h + zero), num_add_zero, ← val_num]
  have l : val (-h - sqrt d) ≤ val (-h + sqrt d) := l1.trans (l3.le.trans l2)
  exact le_iff.2 ⟨not_nan_div n1 ha h0.ne', not_nan_div n2 ha h0.ne', val_div_mono l n1 n2 ha h0⟩
theorem nan_sub_iff {a b : S} (ha : ¬ IsNaN a) (hb : ¬ IsNaN b) : IsNaN (a - b) ↔ (val a = ⊤ ∧ val b = ⊤) ∨ (val a = ⊥ ∧ val b = ⊥) := by
  rw [(same_sub a b).isNaN, nan_add_iff ha (by rw [isNaN_neg]; exact hb), val_neg, EReal.neg_eq_bot_iff, EReal.neg_eq_top_iff]
theorem not_nan_scaled {a k : S} (ha : IsFinite a) (h0 : real a ≠ 0) (hk : ¬ IsNaN k) : ¬ IsNaN (a * k) := by
  unfold IsNaN IsFinite real at *
  rw [den_mul]
  induction h : den k using Val.cases_inf_fin with
  | hn => exact absurd h hk
  | hi s => rw [Rounding.mul_fin_inf _ ha, if_neg h0]; simp
  | hf x hx => rw [Rounding.mul_fin _ ha hx]; exact Rounding.finish_ne_nan _ _ _
/-- The larger `k`, the narrower the range. -/
theorem rootRange_mono {a h k k' : S} {R : Range S} (e : rootRange a h k = some R) (ha : IsFinite a) (h0 : 0 < real a) (hh : IsFinite h)
    (nk : ¬ IsNaN k) (nk' : ¬ IsNaN k') (l : val k' ≤ val k) :
    ∃ R', rootRange a h k' = some R' ∧ (R'.start ≤? R.start) = true ∧ (R.stop ≤? R'.stop) = true := by
  obtain ⟨hd, rfl⟩ := rootRange_some e
  obtain ⟨-, nd, vd⟩ := le_iff.1 hd
  rw [val_zero] at vd
  have va : 0 ≤ val a := by rw [ha.val]; exact_mod_cast h0.le
  have nm := not_nan_scaled ha h0.ne' nk
  have nm' := not_nan_scaled ha h0.ne' nk'
  have lm := val_mul_right_mono va l nm' nm
  have nq : ¬ IsNaN (h * h) := fun c => hh.not_nan (isNaN_mul_self.1 c)
  have vq := val_mul_self_nonneg h
  have nd' : ¬ IsNaN (h * h - a * k') := by
    rw [nan_sub_iff nq nm']
    rintro (⟨c1, c2⟩ | ⟨c1, c2⟩)
    · exact nd ((nan_sub_iff nq nm).2 (.inl ⟨c1, top_le_iff.1 (c2 ▸ lm)⟩))
    · rw [c1] at vq; exact absurd vq (by simp)
  have ld : val (h * h - a * k) ≤ val (h * h - a * k') := val_sub_mono le_rfl lm nd nd'
  have vd' := vd.trans ld
  refine ⟨_, rootRange_of (le_iff.2 ⟨finite_zero.not_nan, nd', by rw [val_zero]; exact vd'⟩), ?_⟩
  generalize h * h - a * k = d at *
  generalize h * h - a * k' = d' at *
  have ls := val_sqrt_mono nd nd' vd ld
  have ns : ¬ IsNaN (sqrt d) := fun c => nd ((isNaN_sqrt_nonneg vd).1 c)
  have ns' : ¬ IsNaN (sqrt d') := fun c => nd' ((isNaN_sqrt_nonneg vd').1 c)
  have fh := finite_neg.2 hh
  have n1 : ¬ IsNaN (-h - sqrt d) := fun c => isNaN_sub_finite fh ns (isNaN_sub_comm.1 c)
  have n2 : ¬ IsNaN (-h + sqrt d) := isNaN_add_finite fh ns
  have n1' : ¬ IsNaN (-h - sqrt d') := fun c => isNaN_sub_finite fh ns' (isNaN_sub_comm.1 c)
  have n2' : ¬ IsNaN (-h + sqrt d') := isNaN_add_finite fh ns'
  have l1 : val (-h - sqrt d') ≤ val (-h - sqrt d) := val_sub_mono le_rfl ls n1' n1
  have l2 : val (-h + sqrt d) ≤ val (-h + sqrt d') := val_add_mono le_rfl ls n2 n2'
  exact ⟨le_iff.2 ⟨not_nan_div n1' ha h0.ne', not_nan_div n1 ha h0.ne', val_div_mono l1 n1' n1 ha h0⟩,
    le_iff.2 ⟨not_nan_div n2 ha h0.ne', not_nan_div n2' ha h0.ne', val_div_mono l2 n2 n2' ha h0⟩⟩
end

section
variable {S : Type} [Scalar S] [IEEE S] [Binary S]
theorem abs_le_root {h d : S} (hh : IsFinite h) (hn : Normal S (real h ^ 2)) (nd : ¬ IsNaN d) (l : val (h * h) ≤ val d) :
    ((|real h| : ℝ) : EReal) ≤ val (sqrt d) := by
  have nq : ¬ IsNaN (h * h) := fun c => hh.not_nan (isNaN_mul_self.1 c)
  have vq := val_mul_self_nonneg h
  rcases lt_or_ge (real h ^ 2) (overflowAt S) with o | o
  · have f := (sq_rnd hh o).1
    obtain ⟨fs, es⟩ := sqrt_of_sq hh hn o f rfl
    rw [← es, ← fs.val]
    exact val_sqrt_mono nq nd vq l
  · have f : ¬ IsFinite (h * h) := fun f => by
      have := (correct_mul hh hh).1.1 f
      rw [← pow_two, abs_of_nonneg (sq_nonneg _)] at this
      exact absurd o (not_le.2 this)
    have t : val (h * h) = ⊤ := by
      by_contra c
      refine f (finite_iff.2 ⟨nq, c, fun c' => ?_⟩)
      rw [c'] at vq; exact absurd vq (by simp)
    have t' : val d = ⊤ := top_le_iff.1 (t ▸ l)
    have : den d = .inf false := Val.eq_inf_of_top t'
    unfold val
    rw [den_sqrt, this]
    exact le_top
theorem root_le_abs {h d : S} (hh : IsFinite h) (hn : Normal S (real h ^ 2)) (ho : real h ^ 2 < overflowAt S) (nd : ¬ IsNaN d) (v0 : 0 ≤ val d)
    (l : val d ≤ val (h * h)) : val (sqrt d) ≤ ((|real h| : ℝ) : EReal) := by
  have nq : ¬ IsNaN (h * h) := fun c => hh.not_nan (isNaN_mul_self.1 c)
  obtain ⟨fs, es⟩ := sqrt_of_sq hh hn ho (sq_rnd hh ho).1 rfl
  rw [← es, ← fs.val]
  exact val_sqrt_mono nd nq v0 l
theorem val_zero_quot {a : S} (ha : IsFinite a) (h0 : real a ≠ 0) : val (zero / a) = 0 := by
  have := zero_div_num (a := (zero : S)) ⟨finite_zero, real_zero⟩ ha h0
  rw [this.1.val, this.2]; rfl
theorem quot_nonpos {x a : S} (ha : IsFinite a) (h0 : 0 < real a) (nx : ¬ IsNaN x) (l : val x ≤ 0) : (x / a ≤? zero) = true := by
  refine le_iff.2 ⟨not_nan_div nx ha h0.ne', finite_zero.not_nan, ?_⟩
  rw [val_zero, ← val_zero_quot ha h0.ne']
  exact val_div_mono (by rw [val_zero]; exact l) nx finite_zero.not_nan ha h0
theorem quot_nonneg {x a : S} (ha : IsFinite a) (h0 : 0 < real a) (nx : ¬ IsNaN x) (l : 0 ≤ val x) : (zero ≤? x / a) = true := by
  refine le_iff.2 ⟨finite_zero.not_nan, not_nan_div nx ha h0.ne', ?_⟩
  rw [val_zero, ← val_zero_quot ha h0.ne']
  exact val_div_mono (by rw [val_zero]; exact l) finite_zero.not_nan nx ha h0
theorem val_self_sub {h : S} (hh : IsFinite h) : val (h - h) = 0 := by
  rw [(same_sub_self hh).val, val_zero]
/-- The roots lie on both sides of zero if the constant term is not positive. -/
theorem rootRange_inside {a h k : S} (ha : IsFinite a) (h0 : 0 < real a) (hh : IsFinite h) (hn : Normal S (real h ^ 2)) (nk : ¬ IsNaN k)
    (l : val k ≤ 0) : ∃ R, rootRange a h k = some R ∧ (R.start ≤? zero) = true ∧ (zero ≤? R.stop) = true := by
  have va : 0 ≤ val a := by rw [ha.val]; exact_mod_cast h0.le
  have nm := not_nan_scaled ha h0.ne' nk
  have nz := not_nan_scaled ha h0.ne' (finite_zero (S := S)).not_nan
  have lm := val_mul_right_mono va (by rw [val_zero]; exact l) nm nz
  have vz : val (a * zero) = 0 := by
    rw [(same_mul_comm a zero).val, val_num, IEEE.num_zero_mul ha, ← val_num, val_zero]
  rw [vz] at lm
  have nq : ¬ IsNaN (h * h) := fun c => hh.not_nan (isNaN_mul_self.1 c)
  have vq := val_mul_self_nonneg h
  have nd : ¬ IsNaN (h * h - a * k) := by
    rw [nan_sub_iff nq nm]
    rintro (⟨c1, c2⟩ | ⟨c1, c2⟩)
    · rw [c2] at lm; exact absurd lm (by simp)
    · rw [c1] at vq; exact absurd vq (by simp)
  have ld : val (h * h) ≤ val (h * h - a * k) := by
    rw [← (same_sub_zero (h * h)).val]
    exact val_sub_mono le_rfl (by rw [val_zero]; exact lm) (fun c => nq ((same_sub_zero _).isNaN.1 c)) nd
  have vd := vq.trans ld
  have ab := abs_le_root hh hn nd ld
  refine ⟨_, rootRange_of (le_iff.2 ⟨finite_zero.not_nan, nd, by rw [val_zero]; exact vd⟩), ?_⟩
  generalize h * h - a * k = d at *
  have ns : ¬ IsNaN (sqrt d) := fun c => nd ((isNaN_sqrt_nonneg vd).1 c)
  have fh := finite_neg.2 hh
  have n1 : ¬ IsNaN (-h - sqrt d) := fun c => isNaN_sub_finite fh ns (isNaN_sub_comm.1 c)
  have n2 : ¬ IsNaN (-h + sqrt d) := isNaN_add_finite fh ns
  refine ⟨quot_nonpos ha h0 n1 ?_, quot_nonneg ha h0 n2 ?_⟩
  · rw [← val_self_sub fh]
    refine val_sub_mono le_rfl ?_ n1 (isNaN_sub_finite fh fh.not_nan)
    rw [fh.val]
    refine le_trans ?_ ab
    rw [real_neg]; exact_mod_cast neg_le_abs _
  · rw [← val_self_sub fh, (same_sub (-h) (-h)).val]
    refine val_add_mono le_rfl ?_ (fun c => isNaN_sub_finite fh fh.not_nan ((same_sub _ _).isNaN.2 c)) n2
    rw [(same_neg_neg h).val, hh.val]
    refine le_trans ?_ ab
    exact_mod_cast le_abs_self _
/-- The roots lie on one side of zero if the constant term is not negative: behind if the middle term is not negative, ahead otherwise. -/
theorem rootRange_outside {a h k : S} {R : Range S} (e : rootRange a h k = some R) (ha : IsFinite a) (h0 : 0 < real a) (hh : IsFinite h)
    (hn : Normal S (real h ^ 2)) (ho : real h ^ 2 < overflowAt S) (nk : ¬ IsNaN k) (l : 0 ≤ val k) :
    (0 ≤ real h → (R.stop ≤? zero) = true) ∧ (real h ≤ 0 → (zero ≤? R.start) = true) := by
  obtain ⟨hd, rfl⟩ := rootRange_some e
  obtain ⟨-, nd, vd⟩ := le_iff.1 hd
  rw [val_zero] at vd
  have va : 0 ≤ val a := by rw [ha.val]; exact_mod_cast h0.le
  have nm := not_nan_scaled ha h0.ne' nk
  have vm := val_mul_nonneg va l nm
  have nq : ¬ IsNaN (h * h) := fun c => hh.not_nan (isNaN_mul_self.1 c)
  have ld : val (h * h - a * k) ≤ val (h * h) := by
    rw [← (same_sub_zero (h * h)).val]
    exact val_sub_mono le_rfl (by rw [val_zero]; exact vm) nd (fun c => nq ((same_sub_zero _).isNaN.1 c))
  have ab := root_le_abs hh hn ho nd vd ld
  generalize h * h - a * k = d at *
  have ns : ¬ IsNaN (sqrt d) := fun c => nd ((isNaN_sqrt_nonneg vd).1 c)
  have fh := finite_neg.2 hh
  have n1 : ¬ IsNaN (-h - sqrt d) := fun c => isNaN_sub_finite fh ns (isNaN_sub_comm.1 c)
  have n2 : ¬ IsNaN (-h + sqrt d) := isNaN_add_finite fh ns
  constructor
  · intro p
    refine quot_nonpos ha h0 n2 ?_
    rw [← val_self_sub fh, (same_sub (-h) (-h)).val]
    refine val_add_mono le_rfl ?_ n2 (fun c => isNaN_sub_finite fh fh.not_nan ((same_sub _ _).isNaN.2 c))
    rw [(same_neg_neg h).val, hh.val]
    rw [abs_of_nonneg p] at ab; exact ab
  · intro p
    refine quot_nonneg ha h0 n1 ?_
    rw [← val_self_sub fh]
    refine val_sub_mono le_rfl ?_ (isNaN_sub_finite fh fh.not_nan) n1
    rw [fh.val, real_neg]
    rw [abs_of_nonpos p] at ab; exact ab
end

end VecMath

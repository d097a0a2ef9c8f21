out='''import Verif.Props.FloatStep
import Verif.Props.RealEnclose
/-!
# Limited lengths and steps in exact real arithmetic (layer R): C123

(Generated by tools/gen.)
-/

namespace VecMath
open Scalar IEEE

section
variable {E : Type} [NormedAddCommGroup E] [NormedSpace ℝ E]
theorem step_dist {a b : E} {s : ℝ} (hs : 0 ≤ s) (h : s < dist a b) :
    dist (a + s • ((dist a b)⁻¹ • (b - a))) b = dist a b - s ∧ dist a (a + s • ((dist a b)⁻¹ • (b - a))) = s := by
  have d : 0 < dist a b := hs.trans_lt h
  have e : ‖b - a‖ = dist a b := by rw [← dist_eq_norm, dist_comm]
  constructor
  · rw [dist_comm, dist_eq_norm, show b - (a + s • ((dist a b)⁻¹ • (b - a))) = (1 - s * (dist a b)⁻¹) • (b - a) by
      rw [sub_smul, one_smul, smul_smul]; abel, norm_smul, e]
    have : 1 - s * (dist a b)⁻¹ = (dist a b - s) / dist a b := by field_simp
    rw [this, Real.norm_of_nonneg (div_nonneg (by linarith) d.le), div_mul_cancel₀ _ d.ne']
  · rw [dist_self_add_right, smul_smul, norm_smul, e, Real.norm_of_nonneg (by positivity), mul_assoc, inv_mul_cancel₀ d.ne', mul_one]
theorem limit_norm {v : E} {m : ℝ} (hm : 0 ≤ m) (h : m < ‖v‖) :
    ‖m • (‖v‖⁻¹ • v)‖ = m ∧ ‖m • (‖v‖⁻¹ • v) - v‖ = ‖v‖ - m := by
  have d : 0 < ‖v‖ := hm.trans_lt h
  constructor
  · rw [smul_smul, norm_smul, Real.norm_of_nonneg (by positivity), mul_assoc, inv_mul_cancel₀ d.ne', mul_one]
  · rw [norm_sub_rev, show v - m • (‖v‖⁻¹ • v) = (1 - m * ‖v‖⁻¹) • v by rw [sub_smul, one_smul, smul_smul], norm_smul]
    have : 1 - m * ‖v‖⁻¹ = (‖v‖ - m) / ‖v‖ := by field_simp
    rw [this, Real.norm_of_nonneg (div_nonneg (by linarith) d.le), div_mul_cancel₀ _ d.ne']
end
theorem repeated_succ {A : Type} (f : A → A) (n : ℕ) (x : A) : repeated f (n + 1) x = f (repeated f n x) := by
  induction n generalizing x with
  | zero => rfl
  | succ n ih => exact ih (f x)
'''
for n in (2,3):
    P=f'Point{n}'; V=f'Vector{n}'
    out+=f'''
/-! ## Dimension {n} -/
section
variable {{v w : {V} Ideal}} {{t p : {P} Ideal}} {{m s : Ideal}}
theorem {V}.toE_ne (hv : AllFinite v) (h : 0 < real (Api.length v)) : v.toReal ≠ 0 :=
  fun e => h.ne' (({V}.real_length_eq_zero hv).2 e)
theorem {V}.unit_toE (hv : AllFinite v) (hm : IsFinite m) (h : 0 < real (Api.length v)) :
    AllFinite (v.normalize * m : {V} Ideal) ∧ (v.normalize * m : {V} Ideal).toE = real m • (‖v.toE‖⁻¹ • v.toE) := by
  have n0 := {V}.toE_ne hv h
  refine ⟨{V}.fin_mul ({V}.fin_normalize hv n0) hm, ?_⟩
  unfold {V}.toE
  rw [{V}.toReal_mul ({V}.fin_normalize hv n0) hm, {V}.toReal_normalize hv n0]; rfl
theorem {V}.length_sub (hv : AllFinite v) (hw : AllFinite w) : IsFinite (Api.length (v - w)) ∧ real (Api.length (v - w)) = ‖v.toE - w.toE‖ := by
  have f := {V}.fin_sub hv hw
  refine ⟨{V}.fin_length f, ?_⟩
  rw [{V}.real_length f]
  unfold {V}.toE
  rw [{V}.toReal_sub hv hw]; rfl
/-- What limiting the length does, in the exact model. -/
theorem {V}.limit_cases (hv : AllFinite v) (hm : IsFinite m) (h0 : 0 ≤ real m) :
    (‖v.toE‖ ≤ real m ∧ v.limit m = v) ∨ (real m < ‖v.toE‖ ∧ AllFinite (v.limit m) ∧ (v.limit m).toE = real m • (‖v.toE‖⁻¹ • v.toE)) := by
  have fl := {V}.fin_length hv
  have rl := {V}.real_length hv
  cases h : (m <? Api.length v)
  · left
    refine ⟨?_, C123_unchanged{n} v m h⟩
    rw [← rl]
    by_contra k
    rw [not_le, ← Ideal.lt_real hm fl, h] at k
    exact Bool.noConfusion k
  · right
    have k := (Ideal.lt_real hm fl).1 h
    have e : v.limit m = v.normalize * m := by unfold {V}.limit; rw [h]; simp
    rw [e, ← rl]
    have u := {V}.unit_toE hv hm (h0.trans_lt k)
    exact ⟨k, u.1, by rw [u.2, rl]⟩
/-- **C123**, in exact arithmetic: the length of a limited vector is the smaller of its length and the limit, its direction is kept, no
vector within the limit is closer to the original one, and limiting twice is limiting once. -/
theorem C123_exact_limit{n} (v : {V} Ideal) (m : Ideal) (hv : AllFinite v) (hm : IsFinite m) (h0 : (zero ≤? m) = true) :
    AllFinite (v.limit m) ∧ real (Api.length (v.limit m)) = min (real (Api.length v)) (real m) ∧
    (∃ c : ℝ, 0 ≤ c ∧ c ≤ 1 ∧ (v.limit m).toReal = c • v.toReal) ∧
    (∀ w : {V} Ideal, AllFinite w → (Api.length w ≤? m) = true → (Api.length (v.limit m - v) ≤? Api.length (w - v)) = true) ∧
    (v.limit m).limit m = v.limit m := by
  rw [Ideal.le_real (finite_zero (S := Ideal)) hm, real_zero] at h0
  have fl := {V}.fin_length hv
  have rl := {V}.real_length hv
  have again : ∀ x : {V} Ideal, AllFinite x → real (Api.length x) ≤ real m → x.limit m = x := fun x hx h => by
    refine C123_unchanged{n} x m ?_
    rw [← Bool.not_eq_true, Ideal.lt_real hm ({V}.fin_length hx), not_lt]; exact h
  rcases {V}.limit_cases hv hm h0 with ⟨k, e⟩ | ⟨k, f, e⟩
  · rw [e]
    refine ⟨hv, ?_, ⟨1, zero_le_one, le_rfl, (one_smul ℝ _).symm⟩, fun w hw _ => ?_, again v hv (rl ▸ k)⟩
    · rw [rl, min_eq_left k]
    · rw [Ideal.le_real ({V}.length_sub hv hv).1 ({V}.length_sub hw hv).1, ({V}.length_sub hv hv).2, ({V}.length_sub hw hv).2, sub_self, norm_zero]
      exact norm_nonneg _
  · have d := limit_norm h0 k
    rw [← e] at d
    have l : real (Api.length (v.limit m)) = real m := by rw [{V}.real_length f, d.1]
    refine ⟨f, ?_, ⟨real m * ‖v.toE‖⁻¹, by positivity, ?_, ?_⟩, fun w hw hl => ?_, again _ f l.le⟩
    · rw [l, rl, min_eq_right k.le]
    · rw [← div_eq_mul_inv]; exact (div_le_one (h0.trans_lt k)).2 k.le
    · rw [smul_smul] at e; exact congrArg WithLp.ofLp e
    · rw [Ideal.le_real ({V}.length_sub f hv).1 ({V}.length_sub hw hv).1, ({V}.length_sub f hv).2, ({V}.length_sub hw hv).2, d.2]
      rw [Ideal.le_real ({V}.fin_length hw) hm, {V}.real_length hw] at hl
      have := norm_sub_norm_le v.toE w.toE
      rw [norm_sub_rev] at this
      linarith
/-- What a step does, in the exact model. -/
theorem {P}.towards_cases (ht : AllFinite t) (hp : AllFinite p) (hs : IsFinite s) (h0 : 0 ≤ real s) :
    (dist p.toE t.toE ≤ real s ∧ {P}.towards t s p = t) ∨ (real s < dist p.toE t.toE ∧ AllFinite ({P}.towards t s p) ∧
      dist ({P}.towards t s p).toE t.toE = dist p.toE t.toE - real s ∧ dist p.toE ({P}.towards t s p).toE = real s) := by
  have fl := {P}.fin_distance hp ht
  have rl := {P}.real_distance hp ht
  cases h : (Api.distance p t ≤? s)
  · right
    have k : real s < dist p.toE t.toE := by
      by_contra k
      rw [not_lt, ← rl, ← Ideal.le_real fl hs, h] at k
      exact Bool.noConfusion k
    have e : {P}.towards t s p = p + ((t - p : {V} Ideal).normalize * s : {V} Ideal) := by unfold {P}.towards; rw [h]; simp
    have fs := {V}.fin_subp ht hp
    have es : (t - p : {V} Ideal).toE = t.toE - p.toE := by
      unfold {V}.toE {P}.toE; rw [{V}.toReal_subp ht hp]; rfl
    have u := {V}.unit_toE fs hs (by rw [{V}.real_length fs, es, ← dist_eq_norm, dist_comm]; exact h0.trans_lt k)
    have te : ({P}.towards t s p).toE = p.toE + real s • ((dist p.toE t.toE)⁻¹ • (t.toE - p.toE)) := by
      rw [dist_comm, dist_eq_norm, ← es, ← u.2, e]
      unfold {V}.toE {P}.toE
      rw [{P}.toReal_addv hp u.1]; rfl
    refine ⟨k, e ▸ {P}.fin_addv hp u.1, ?_⟩
    rw [te]; exact step_dist h0 k
  · left
    refine ⟨by rw [← rl]; exact (Ideal.le_real fl hs).1 h, by unfold {P}.towards; rw [h]; simp⟩
/-- **C123**, in exact arithmetic: a step moves as far as it is long, straight at the target, and not beyond it. -/
theorem C123_exact_step{n} (t p : {P} Ideal) (s : Ideal) (ht : AllFinite t) (hp : AllFinite p) (hs : IsFinite s) (h0 : (zero ≤? s) = true) :
    AllFinite ({P}.towards t s p) ∧ real (Api.distance p ({P}.towards t s p)) = min (real (Api.distance p t)) (real s) ∧
    real (Api.distance ({P}.towards t s p) t) = max (real (Api.distance p t) - real s) 0 := by
  rw [Ideal.le_real (finite_zero (S := Ideal)) hs, real_zero] at h0
  rcases {P}.towards_cases ht hp hs h0 with ⟨k, e⟩ | ⟨k, f, d1, d2⟩
  · rw [e, {P}.real_distance hp ht, {P}.real_distance ht ht, dist_self, min_eq_left k, max_eq_right (by linarith)]
    exact ⟨ht, rfl, rfl⟩
  · rw [{P}.real_distance hp ht, {P}.real_distance hp f, {P}.real_distance f ht, d1, d2, min_eq_right k.le, max_eq_left (by linarith)]
    exact ⟨f, rfl, rfl⟩
/-- **C123**, in exact arithmetic: after k steps the distance is k steps smaller, or 0; and as soon as k steps are as long as the
distance, the point is the target. -/
theorem C123_exact_walk{n} (t p : {P} Ideal) (s : Ideal) (ht : AllFinite t) (hp : AllFinite p) (hs : IsFinite s) (h0 : (zero ≤? s) = true) (k : ℕ) :
    AllFinite (repeated ({P}.towards t s) k p) ∧
    real (Api.distance (repeated ({P}.towards t s) k p) t) = max (real (Api.distance p t) - k * real s) 0 ∧
    (real (Api.distance p t) ≤ k * real s → (repeated ({P}.towards t s) k p == t) = true) := by
  have main : AllFinite (repeated ({P}.towards t s) k p) ∧
      real (Api.distance (repeated ({P}.towards t s) k p) t) = max (real (Api.distance p t) - k * real s) 0 := by
    induction k with
    | zero =>
      refine ⟨hp, ?_⟩
      show real (Api.distance p t) = _
      rw [Nat.cast_zero, zero_mul, sub_zero, max_eq_left]
      rw [{P}.real_distance hp ht]; exact dist_nonneg
    | succ k ih =>
      rw [repeated_succ]
      have st := C123_exact_step{n} t _ s ht ih.1 hs h0
      refine ⟨st.1, ?_⟩
      rw [st.2.2, ih.2]
      rw [Ideal.le_real (finite_zero (S := Ideal)) hs, real_zero] at h0
      push_cast
      rcases le_total (real (Api.distance p t) - k * real s) 0 with h | h
      · rw [max_eq_right h, max_eq_right, max_eq_right] <;> linarith
      · rw [max_eq_left h]; congr 1; ring
  refine ⟨main.1, main.2, fun h => ?_⟩
  have d := main.2
  rw [max_eq_right (by linarith), {P}.real_distance main.1 ht, dist_eq_zero] at d
  exact ({P}.beq_toReal main.1 ht).2 (congrArg WithLp.ofLp d)
end
'''
out+='\nend VecMath\n'
open('/tmp/d/RealStep.lean','w').write(out)

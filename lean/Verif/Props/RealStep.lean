import Verif.Props.FloatStep
import Verif.Props.RealEnclose
/-!
# Limited lengths and steps in exact real arithmetic (layer R): C123

(Generated by tools/gen.)
-/

namespace VecMath
open Scalar IEEE

section
variable {E : Type} [NormedAddCommGroup E] [NormedSpace ℝ E]
theorem step_dist {a b : E} {s : ℝ} (hs : 0 ≤ s) (h : s < dist a b) :
    dist (a + s • ((dist a b)⁻¹ • (b - a))) b = dist a b - s ∧ dist a (a + s • ((dist a b)⁻¹ • (b - a))) = s := by
  have d : 0 < dist a b := hs.trans_lt h
  have e : ‖b - a‖ = dist a b := by rw [← dist_eq_norm, dist_comm]
  constructor
  · rw [dist_comm, dist_eq_norm, show b - (a + s • ((dist a b)⁻¹ • (b - a))) = (1 - s * (dist a b)⁻¹) • (b - a) by
      rw [sub_smul, one_smul, smul_smul]; abel, norm_smul, e]
    have : 1 - s * (dist a b)⁻¹ = (dist a b - s) / dist a b := by field_simp
    rw [this, Real.norm_of_nonneg (div_nonneg (by linarith) d.le), div_mul_cancel₀ _ d.ne']
  · rw [dist_self_add_right, smul_smul, norm_smul, e, Real.norm_of_nonneg (by positivity), mul_assoc, inv_mul_cancel₀ d.ne', mul_one]
theorem limit_norm {v : E} {m : ℝ} (hm : 0 ≤ m) (h : m < ‖v‖) :
    ‖m • (‖v‖⁻¹ • v)‖ = m ∧ ‖m • (‖v‖⁻¹ • v) - v‖ = ‖v‖ - m := by
  have d : 0 < ‖v‖ := hm.trans_lt h
  constructor
  · rw [smul_smul, norm_smul, Real.norm_of_nonneg (by positivity), mul_assoc, inv_mul_cancel₀ d.ne', mul_one]
  · rw [norm_sub_rev, show v - m • (‖v‖⁻¹ • v) = (1 - m * ‖v‖⁻¹) • v by rw [sub_smul, one_smul, smul_smul], norm_smul]
    have : 1 - m * ‖v‖⁻¹ = (‖v‖ - m) / ‖v‖ := by field_simp
    rw [this, Real.norm_of_nonneg (div_nonneg (by linarith) d.le), div_mul_cancel₀ _ d.ne']
end
theorem repeated_succ {A : Type} (f : A → A) (n : ℕ) (x : A) : repeated f (n + 1) x = f (repeated f n x) := by
  induction n generalizing x with
  | zero => rfl
  | succ n ih => exact ih (f x)

/-! ## Dimension 2 -/
section
variable {v w : Vector2 Ideal} {t p : Point2 Ideal} {m s : Ideal}
theorem Vector2.toE_ne (hv : AllFinite v) (h : 0 < real (Api.length v)) : v.toReal ≠ 0 :=
  fun e => h.ne' ((Vector2.real_length_eq_zero hv).2 e)
theorem Vector2.unit_toE (hv : AllFinite v) (hm : IsFinite m) (h : 0 < real (Api.length v)) :
    AllFinite (v.normalize * m : Vector2 Ideal) ∧ (v.normalize * m : Vector2 Ideal).toE = real m • (‖v.toE‖⁻¹ • v.toE) := by
  have n0 := Vector2.toE_ne hv h
  refine ⟨Vector2.fin_mul (Vector2.fin_normalize hv n0) hm, ?_⟩
  unfold Vector2.toE
  rw [Vector2.toReal_mul (Vector2.fin_normalize hv n0) hm, Vector2.toReal_normalize hv n0]; rfl
theorem Vector2.length_sub (hv : AllFinite v) (hw : AllFinite w) : IsFinite (Api.length (v - w)) ∧ real (Api.length (v - w)) = ‖v.toE - w.toE‖ := by
  have f := Vector2.fin_sub hv hw
  refine ⟨Vector2.fin_length f, ?_⟩
  rw [Vector2.real_length f]
  unfold Vector2.toE
  rw [Vector2.toReal_sub hv hw]; rfl
/-- What limiting the length does, in the exact model. -/
theorem Vector2.limit_cases (hv : AllFinite v) (hm : IsFinite m) (h0 : 0 ≤ real m) :
    (‖v.toE‖ ≤ real m ∧ v.limit m = v) ∨ (real m < ‖v.toE‖ ∧ AllFinite (v.limit m) ∧ (v.limit m).toE = real m • (‖v.toE‖⁻¹ • v.toE)) := by
  have fl := Vector2.fin_length hv
  have rl := Vector2.real_length hv
  cases h : (m <? Api.length v)
  · left
    refine ⟨?_, C123_unchanged2 v m h⟩
    rw [← rl]
    by_contra k
    rw [not_le, ← Ideal.lt_real hm fl, h] at k
    exact Bool.noConfusion k
  · right
    have k := (Ideal.lt_real hm fl).1 h
    have e : v.limit m = v.normalize * m := by unfold Vector2.limit; rw [h]; simp
    rw [e, ← rl]
    have u := Vector2.unit_toE hv hm (h0.trans_lt k)
    exact ⟨k, u.1, by rw [u.2, rl]⟩
/-- **C123**, in exact arithmetic: the length of a limited vector is the smaller of its length and the limit, its direction is kept, no
vector within the limit is closer to the original one, and limiting twice is limiting once. -/
theorem C123_exact_limit2 (v : Vector2 Ideal) (m : Ideal) (hv : AllFinite v) (hm : IsFinite m) (h0 : (zero ≤? m) = true) :
    AllFinite (v.limit m) ∧ real (Api.length (v.limit m)) = min (real (Api.length v)) (real m) ∧
    (∃ c : ℝ, 0 ≤ c ∧ c ≤ 1 ∧ (v.limit m).toReal = c • v.toReal) ∧
    (∀ w : Vector2 Ideal, AllFinite w → (Api.length w ≤? m) = true → (Api.length (v.limit m - v) ≤? Api.length (w - v)) = true) ∧
    (v.limit m).limit m = v.limit m := by
  rw [Ideal.le_real (finite_zero (S := Ideal)) hm, real_zero] at h0
  have fl := Vector2.fin_length hv
  have rl := Vector2.real_length hv
  have again : ∀ x : Vector2 Ideal, AllFinite x → real (Api.length x) ≤ real m → x.limit m = x := fun x hx h => by
    refine C123_unchanged2 x m ?_
    rw [← Bool.not_eq_true, Ideal.lt_real hm (Vector2.fin_length hx), not_lt]; exact h
  rcases Vector2.limit_cases hv hm h0 with ⟨k, e⟩ | ⟨k, f, e⟩
  · rw [e]
    refine ⟨hv, ?_, ⟨1, zero_le_one, le_rfl, (one_smul ℝ _).symm⟩, fun w hw _ => ?_, again v hv (rl ▸ k)⟩
    · rw [rl, min_eq_left k]
    · rw [Ideal.le_real (Vector2.length_sub hv hv).1 (Vector2.length_sub hw hv).1, (Vector2.length_sub hv hv).2, (Vector2.length_sub hw hv).2, sub_self, norm_zero]
      exact norm_nonneg _
  · have d := limit_norm h0 k
    rw [← e] at d
    have l : real (Api.length (v.limit m)) = real m := by rw [Vector2.real_length f, d.1]
    refine ⟨f, ?_, ⟨real m * ‖v.toE‖⁻¹, by positivity, ?_, ?_⟩, fun w hw hl => ?_, again _ f l.le⟩
    · rw [l, rl, min_eq_right k.le]
    · rw [← div_eq_mul_inv]; exact (div_le_one (h0.trans_lt k)).2 k.le
    · rw [smul_smul] at e; exact congrArg WithLp.ofLp e
    · rw [Ideal.le_real (Vector2.length_sub f hv).1 (Vector2.length_sub hw hv).1, (Vector2.length_sub f hv).2, (Vector2.length_sub hw hv).2, d.2]
      rw [Ideal.le_real (Vector2.fin_length hw) hm, Vector2.real_length hw] at hl
      have := norm_sub_norm_le v.toE w.toE
      rw [norm_sub_rev] at this
      linarith
/-- What a step does, in the exact model. -/
theorem Point2.towards_cases (ht : AllFinite t) (hp : AllFinite p) (hs : IsFinite s) (h0 : 0 ≤ real s) :
    (dist p.toE t.toE ≤ real s ∧ Point2.towards t s p = t) ∨ (real s < dist p.toE t.toE ∧ AllFinite (Point2.towards t s p) ∧
      dist (Point2.towards t s p).toE t.toE = dist p.toE t.toE - real s ∧ dist p.toE (Point2.towards t s p).toE = real s) := by
  have fl := Point2.fin_distance hp ht
  have rl := Point2.real_distance hp ht
  cases h : (Api.distance p t ≤? s)
  · right
    have k : real s < dist p.toE t.toE := by
      by_contra k
      rw [not_lt, ← rl, ← Ideal.le_real fl hs, h] at k
      exact Bool.noConfusion k
    have e : Point2.towards t s p = p + ((t - p : Vector2 Ideal).normalize * s : Vector2 Ideal) := by unfold Point2.towards; rw [h]; simp
    have fs := Vector2.fin_subp ht hp
    have es : (t - p : Vector2 Ideal).toE = t.toE - p.toE := by
      unfold Vector2.toE Point2.toE; rw [Vector2.toReal_subp ht hp]; rfl
    have u := Vector2.unit_toE fs hs (by rw [Vector2.real_length fs, es, ← dist_eq_norm, dist_comm]; exact h0.trans_lt k)
    have te : (Point2.towards t s p).toE = p.toE + real s • ((dist p.toE t.toE)⁻¹ • (t.toE - p.toE)) := by
      rw [dist_comm, dist_eq_norm, ← es, ← u.2, e]
      unfold Vector2.toE Point2.toE
      rw [Point2.toReal_addv hp u.1]; rfl
    refine ⟨k, e ▸ Point2.fin_addv hp u.1, ?_⟩
    rw [te]; exact step_dist h0 k
  · left
    refine ⟨by rw [← rl]; exact (Ideal.le_real fl hs).1 h, by unfold Point2.towards; rw [h]; simp⟩
/-- **C123**, in exact arithmetic: a step moves as far as it is long, straight at the target, and not beyond it. -/
theorem C123_exact_step2 (t p : Point2 Ideal) (s : Ideal) (ht : AllFinite t) (hp : AllFinite p) (hs : IsFinite s) (h0 : (zero ≤? s) = true) :
    AllFinite (Point2.towards t s p) ∧ real (Api.distance p (Point2.towards t s p)) = min (real (Api.distance p t)) (real s) ∧
    real (Api.distance (Point2.towards t s p) t) = max (real (Api.distance p t) - real s) 0 := by
  rw [Ideal.le_real (finite_zero (S := Ideal)) hs, real_zero] at h0
  rcases Point2.towards_cases ht hp hs h0 with ⟨k, e⟩ | ⟨k, f, d1, d2⟩
  · rw [e, Point2.real_distance hp ht, Point2.real_distance ht ht, dist_self, min_eq_left k, max_eq_right (by linarith)]
    exact ⟨ht, rfl, rfl⟩
  · rw [Point2.real_distance hp ht, Point2.real_distance hp f, Point2.real_distance f ht, d1, d2, min_eq_right k.le, max_eq_left (by linarith)]
    exact ⟨f, rfl, rfl⟩
/-- **C123**, in exact arithmetic: after k steps the distance is k steps smaller, or 0; and as soon as k steps are as long as the
distance, the point is the target. -/
theorem C123_exact_walk2 (t p : Point2 Ideal) (s : Ideal) (ht : AllFinite t) (hp : AllFinite p) (hs : IsFinite s) (h0 : (zero ≤? s) = true) (k : ℕ) :
    AllFinite (repeated (Point2.towards t s) k p) ∧
    real (Api.distance (repeated (Point2.towards t s) k p) t) = max (real (Api.distance p t) - k * real s) 0 ∧
    (real (Api.distance p t) ≤ k * real s → (repeated (Point2.towards t s) k p == t) = true) := by
  have main : AllFinite (repeated (Point2.towards t s) k p) ∧
      real (Api.distance (repeated (Point2.towards t s) k p) t) = max (real (Api.distance p t) - k * real s) 0 := by
    induction k with
    | zero =>
      refine ⟨hp, ?_⟩
      show real (Api.distance p t) = _
      rw [Nat.cast_zero, zero_mul, sub_zero, max_eq_left]
      rw [Point2.real_distance hp ht]; exact dist_nonneg
    | succ k ih =>
      rw [repeated_succ]
      have st := C123_exact_step2 t _ s ht ih.1 hs h0
      refine ⟨st.1, ?_⟩
      rw [st.2.2, ih.2]
      rw [Ideal.le_real (finite_zero (S := Ideal)) hs, real_zero] at h0
      push_cast
      rcases le_total (real (Api.distance p t) - k * real s) 0 with h | h
      · rw [max_eq_right h, max_eq_right, max_eq_right] <;> linarith
      · rw [max_eq_left h]; congr 1; ring
  refine ⟨main.1, main.2, fun h => ?_⟩
  have d := main.2
  rw [max_eq_right (by linarith), Point2.real_distance main.1 ht, dist_eq_zero] at d
  exact (Point2.beq_toReal main.1 ht).2 (congrArg WithLp.ofLp d)
end

/-! ## Dimension 3 -/
section
variable {v w : Vector3 Ideal} {t p : Point3 Ideal} {m s : Ideal}
theorem Vector3.toE_ne (hv : AllFinite v) (h : 0 < real (Api.length v)) : v.toReal ≠ 0 :=
  fun e => h.ne' ((Vector3.real_length_eq_zero hv).2 e)
theorem Vector3.unit_toE (hv : AllFinite v) (hm : IsFinite m) (h : 0 < real (Api.length v)) :
    AllFinite (v.normalize * m : Vector3 Ideal) ∧ (v.normalize * m : Vector3 Ideal).toE = real m • (‖v.toE‖⁻¹ • v.toE) := by
  have n0 := Vector3.toE_ne hv h
  refine ⟨Vector3.fin_mul (Vector3.fin_normalize hv n0) hm, ?_⟩
  unfold Vector3.toE
  rw [Vector3.toReal_mul (Vector3.fin_normalize hv n0) hm, Vector3.toReal_normalize hv n0]; rfl
theorem Vector3.length_sub (hv : AllFinite v) (hw : AllFinite w) : IsFinite (Api.length (v - w)) ∧ real (Api.length (v - w)) = ‖v.toE - w.toE‖ := by
  have f := Vector3.fin_sub hv hw
  refine ⟨Vector3.fin_length f, ?_⟩
  rw [Vector3.real_length f]
  unfold Vector3.toE
  rw [Vector3.toReal_sub hv hw]; rfl
/-- What limiting the length does, in the exact model. -/
theorem Vector3.limit_cases (hv : AllFinite v) (hm : IsFinite m) (h0 : 0 ≤ real m) :
    (‖v.toE‖ ≤ real m ∧ v.limit m = v) ∨ (real m < ‖v.toE‖ ∧ AllFinite (v.limit m) ∧ (v.limit m).toE = real m • (‖v.toE‖⁻¹ • v.toE)) := by
  have fl := Vector3.fin_length hv
  have rl := Vector3.real_length hv
  cases h : (m <? Api.length v)
  · left
    refine ⟨?_, C123_unchanged3 v m h⟩
    rw [← rl]
    by_contra k
    rw [not_le, ← Ideal.lt_real hm fl, h] at k
    exact Bool.noConfusion k
  · right
    have k := (Ideal.lt_real hm fl).1 h
    have e : v.limit m = v.normalize * m := by unfold Vector3.limit; rw [h]; simp
    rw [e, ← rl]
    have u := Vector3.unit_toE hv hm (h0.trans_lt k)
    exact ⟨k, u.1, by rw [u.2, rl]⟩
/-- **C123**, in exact arithmetic: the length of a limited vector is the smaller of its length and the limit, its direction is kept, no
vector within the limit is closer to the original one, and limiting twice is limiting once. -/
theorem C123_exact_limit3 (v : Vector3 Ideal) (m : Ideal) (hv : AllFinite v) (hm : IsFinite m) (h0 : (zero ≤? m) = true) :
    AllFinite (v.limit m) ∧ real (Api.length (v.limit m)) = min (real (Api.length v)) (real m) ∧
    (∃ c : ℝ, 0 ≤ c ∧ c ≤ 1 ∧ (v.limit m).toReal = c • v.toReal) ∧
    (∀ w : Vector3 Ideal, AllFinite w → (Api.length w ≤? m) = true → (Api.length (v.limit m - v) ≤? Api.length (w - v)) = true) ∧
    (v.limit m).limit m = v.limit m := by
  rw [Ideal.le_real (finite_zero (S := Ideal)) hm, real_zero] at h0
  have fl := Vector3.fin_length hv
  have rl := Vector3.real_length hv
  have again : ∀ x : Vector3 Ideal, AllFinite x → real (Api.length x) ≤ real m → x.limit m = x := fun x hx h => by
    refine C123_unchanged3 x m ?_
    rw [← Bool.not_eq_true, Ideal.lt_real hm (Vector3.fin_length hx), not_lt]; exact h
  rcases Vector3.limit_cases hv hm h0 with ⟨k, e⟩ | ⟨k, f, e⟩
  · rw [e]
    refine ⟨hv, ?_, ⟨1, zero_le_one, le_rfl, (one_smul ℝ _).symm⟩, fun w hw _ => ?_, again v hv (rl ▸ k)⟩
    · rw [rl, min_eq_left k]
    · rw [Ideal.le_real (Vector3.length_sub hv hv).1 (Vector3.length_sub hw hv).1, (Vector3.length_sub hv hv).2, (Vector3.length_sub hw hv).2, sub_self, norm_zero]
      exact norm_nonneg _
  · have d := limit_norm h0 k
    rw [← e] at d
    have l : real (Api.length (v.limit m)) = real m := by rw [Vector3.real_length f, d.1]
    refine ⟨f, ?_, ⟨real m * ‖v.toE‖⁻¹, by positivity, ?_, ?_⟩, fun w hw hl => ?_, again _ f l.le⟩
    · rw [l, rl, min_eq_right k.le]
    · rw [← div_eq_mul_inv]; exact (div_le_one (h0.trans_lt k)).2 k.le
    · rw [smul_smul] at e; exact congrArg WithLp.ofLp e
    · rw [Ideal.le_real (Vector3.length_sub f hv).1 (Vector3.length_sub hw hv).1, (Vector3.length_sub f hv).2, (Vector3.length_sub hw hv).2, d.2]
      rw [Ideal.le_real (Vector3.fin_length hw) hm, Vector3.real_length hw] at hl
      have := norm_sub_norm_le v.toE w.toE
      rw [norm_sub_rev] at this
      linarith
/-- What a step does, in the exact model. -/
theorem Point3.towards_cases (ht : AllFinite t) (hp : AllFinite p) (hs : IsFinite s) (h0 : 0 ≤ real s) :
    (dist p.toE t.toE ≤ real s ∧ Point3.towards t s p = t) ∨ (real s < dist p.toE t.toE ∧ AllFinite (Point3.towards t s p) ∧
      dist (Point3.towards t s p).toE t.toE = dist p.toE t.toE - real s ∧ dist p.toE (Point3.towards t s p).toE = real s) := by
  have fl := Point3.fin_distance hp ht
  have rl := Point3.real_distance hp ht
  cases h : (Api.distance p t ≤? s)
  · right
    have k : real s < dist p.toE t.toE := by
      by_contra k
      rw [not_lt, ← rl, ← Ideal.le_real fl hs, h] at k
      exact Bool.noConfusion k
    have e : Point3.towards t s p = p + ((t - p : Vector3 Ideal).normalize * s : Vector3 Ideal) := by unfold Point3.towards; rw [h]; simp
    have fs := Vector3.fin_subp ht hp
    have es : (t - p : Vector3 Ideal).toE = t.toE - p.toE := by
      unfold Vector3.toE Point3.toE; rw [Vector3.toReal_subp ht hp]; rfl
    have u := Vector3.unit_toE fs hs (by rw [Vector3.real_length fs, es, ← dist_eq_norm, dist_comm]; exact h0.trans_lt k)
    have te : (Point3.towards t s p).toE = p.toE + real s • ((dist p.toE t.toE)⁻¹ • (t.toE - p.toE)) := by
      rw [dist_comm, dist_eq_norm, ← es, ← u.2, e]
      unfold Vector3.toE Point3.toE
      rw [Point3.toReal_addv hp u.1]; rfl
    refine ⟨k, e ▸ Point3.fin_addv hp u.1, ?_⟩
    rw [te]; exact step_dist h0 k
  · left
    refine ⟨by rw [← rl]; exact (Ideal.le_real fl hs).1 h, by unfold Point3.towards; rw [h]; simp⟩
/-- **C123**, in exact arithmetic: a step moves as far as it is long, straight at the target, and not beyond it. -/
theorem C123_exact_step3 (t p : Point3 Ideal) (s : Ideal) (ht : AllFinite t) (hp : AllFinite p) (hs : IsFinite s) (h0 : (zero ≤? s) = true) :
    AllFinite (Point3.towards t s p) ∧ real (Api.distance p (Point3.towards t s p)) = min (real (Api.distance p t)) (real s) ∧
    real (Api.distance (Point3.towards t s p) t) = max (real (Api.distance p t) - real s) 0 := by
  rw [Ideal.le_real (finite_zero (S := Ideal)) hs, real_zero] at h0
  rcases Point3.towards_cases ht hp hs h0 with ⟨k, e⟩ | ⟨k, f, d1, d2⟩
  · rw [e, Point3.real_distance hp ht, Point3.real_distance ht ht, dist_self, min_eq_left k, max_eq_right (by linarith)]
    exact ⟨ht, rfl, rfl⟩
  · rw [Point3.real_distance hp ht, Point3.real_distance hp f, Point3.real_distance f ht, d1, d2, min_eq_right k.le, max_eq_left (by linarith)]
    exact ⟨f, rfl, rfl⟩
/-- **C123**, in exact arithmetic: after k steps the distance is k steps smaller, or 0; and as soon as k steps are as long as the
distance, the point is the target. -/
theorem C123_exact_walk3 (t p : Point3 Ideal) (s : Ideal) (ht : AllFinite t) (hp : AllFinite p) (hs : IsFinite s) (h0 : (zero ≤? s) = true) (k : ℕ) :
    AllFinite (repeated (Point3.towards t s) k p) ∧
    real (Api.distance (repeated (Point3.towards t s) k p) t) = max (real (Api.distance p t) - k * real s) 0 ∧
    (real (Api.distance p t) ≤ k * real s → (repeated (Point3.towards t s) k p == t) = true) := by
  have main : AllFinite (repeated (Point3.towards t s) k p) ∧
      real (Api.distance (repeated (Point3.towards t s) k p) t) = max (real (Api.distance p t) - k * real s) 0 := by
    induction k with
    | zero =>
      refine ⟨hp, ?_⟩
      show real (Api.distance p t) = _
      rw [Nat.cast_zero, zero_mul, sub_zero, max_eq_left]
      rw [Point3.real_distance hp ht]; exact dist_nonneg
    | succ k ih =>
      rw [repeated_succ]
      have st := C123_exact_step3 t _ s ht ih.1 hs h0
      refine ⟨st.1, ?_⟩
      rw [st.2.2, ih.2]
      rw [Ideal.le_real (finite_zero (S := Ideal)) hs, real_zero] at h0
      push_cast
      rcases le_total (real (Api.distance p t) - k * real s) 0 with h | h
      · rw [max_eq_right h, max_eq_right, max_eq_right] <;> linarith
      · rw [max_eq_left h]; congr 1; ring
  refine ⟨main.1, main.2, fun h => ?_⟩
  have d := main.2
  rw [max_eq_right (by linarith), Point3.real_distance main.1 ht, dist_eq_zero] at d
  exact (Point3.beq_toReal main.1 ht).2 (congrArg WithLp.ofLp d)
end

end VecMath

import Verif.Spec.March
import Verif.Props.RealFoot
import Verif.Props.RealShadow
import Mathlib.Topology.Order.MonotoneConvergence
/-! # Sphere tracing in exact real arithmetic (layer R): C127 -/

namespace VecMath
open Scalar IEEE Filter Topology

section
variable {f : ℝ → ℝ} {x : ℕ → ℝ}
theorem trace_step (L : ∀ s s', f s ≤ f s' + |s - s'|) (hx : ∀ n, x (n + 1) = x n + f (x n)) (h0 : 0 ≤ f (x 0)) (n : ℕ) : 0 ≤ f (x n) ∧ x n ≤ x (n + 1) := by
  induction n with
  | zero => exact ⟨h0, by rw [hx]; linarith⟩
  | succ n ih =>
    have l := L (x n) (x (n + 1))
    rw [abs_sub_comm, abs_of_nonneg (by linarith [ih.2])] at l
    have := hx n
    have k : 0 ≤ f (x (n + 1)) := by linarith
    exact ⟨k, by rw [hx (n + 1)]; linarith⟩
theorem trace_mono (L : ∀ s s', f s ≤ f s' + |s - s'|) (hx : ∀ n, x (n + 1) = x n + f (x n)) (h0 : 0 ≤ f (x 0)) : Monotone x :=
  monotone_nat_of_le_succ fun n => (trace_step L hx h0 n).2
theorem trace_safe (L : ∀ s s', f s ≤ f s' + |s - s'|) (hx : ∀ n, x (n + 1) = x n + f (x n)) (h0 : 0 ≤ f (x 0)) (n : ℕ) {s : ℝ} (hs : x 0 ≤ s) (hn : s ≤ x n) :
    0 ≤ f s := by
  induction n with
  | zero => rw [le_antisymm hn hs]; exact h0
  | succ n ih =>
    rcases le_total s (x n) with h | h
    · exact ih h
    · have l := L (x n) s
      rw [abs_sub_comm, abs_of_nonneg (by linarith)] at l
      have := hx n
      linarith
theorem trace_stop (L : ∀ s s', f s ≤ f s' + |s - s'|) (hx : ∀ n, x (n + 1) = x n + f (x n)) {s : ℝ} (hs : x 0 ≤ s) (h : f s ≤ 0) (n : ℕ) : x n ≤ s := by
  induction n with
  | zero => exact hs
  | succ n ih =>
    have l := L (x n) s
    rw [abs_sub_comm, abs_of_nonneg (by linarith)] at l
    rw [hx n]
    linarith
theorem trace_limit (L : ∀ s s', f s ≤ f s' + |s - s'|) (hx : ∀ n, x (n + 1) = x n + f (x n)) {T : ℝ} (h : Tendsto x atTop (𝓝 T)) : f T = 0 := by
  have c : Continuous f := by
    refine (LipschitzWith.of_le_add (f := f) fun s s' => ?_).continuous
    rw [Real.dist_eq]
    exact L s s'
  have h1 : Tendsto (fun n => f (x n)) atTop (𝓝 (f T)) := (c.tendsto T).comp h
  have h2 : Tendsto (fun n => x (n + 1) - x n) atTop (𝓝 (T - T)) := ((tendsto_add_atTop_iff_nat 1).2 h).sub h
  rw [sub_self] at h2
  refine tendsto_nhds_unique h1 (h2.congr fun n => ?_)
  rw [hx]; ring
theorem trace_hit (L : ∀ s s', f s ≤ f s' + |s - s'|) (hx : ∀ n, x (n + 1) = x n + f (x n)) (h0 : 0 ≤ f (x 0)) {s : ℝ} (hs : x 0 ≤ s) (h : f s ≤ 0) :
    ∃ T, x 0 ≤ T ∧ f T = 0 ∧ Tendsto x atTop (𝓝 T) ∧ ∀ s, x 0 ≤ s → f s ≤ 0 → T ≤ s := by
  rcases tendsto_of_monotone (trace_mono L hx h0) with k | ⟨T, k⟩
  · obtain ⟨n, hn⟩ := (k.eventually_gt_atTop s).exists
    exact absurd (trace_stop L hx hs h n) (not_le.2 hn)
  · exact ⟨T, (trace_mono L hx h0).ge_of_tendsto k 0, trace_limit L hx k, k, fun s' hs' h' => le_of_tendsto' k (trace_stop L hx hs' h')⟩
theorem trace_miss (L : ∀ s s', f s ≤ f s' + |s - s'|) (hx : ∀ n, x (n + 1) = x n + f (x n)) (h0 : 0 ≤ f (x 0)) (h : ∀ s, x 0 ≤ s → 0 < f s) :
    Tendsto x atTop atTop := by
  rcases tendsto_of_monotone (trace_mono L hx h0) with k | ⟨T, k⟩
  · exact k
  · exact absurd (trace_limit L hx k) (h T ((trace_mono L hx h0).ge_of_tendsto k 0)).ne'
theorem trace_loop (hx : ∀ n, x (n + 1) = x n + f (x n)) {e l : ℝ} (n : ℕ) (hn : l ≤ x 0 + n * e) : ∃ m ≤ n, f (x m) ≤ e ∨ l ≤ x m := by
  by_contra hc
  push Not at hc
  have key : ∀ m ≤ n, x 0 + m * e ≤ x m := by
    intro m hm
    induction m with
    | zero => simp
    | succ m ih =>
      have := ih (by omega)
      have := (hc m (by omega)).1
      rw [hx]
      push_cast
      linarith
  exact absurd (hn.trans (key n le_rfl)) (not_le.2 (hc n le_rfl).2)
end

/-! ## Dimension 2 -/
section
variable {r : Ray2 Ideal} {balls : List (Ball2 Ideal)}
theorem Ray2.toE_at (hr : AllFinite r) {s : Ideal} (hs : IsFinite s) : (r.at s).toE = r.origin.toE + real s • r.direction.toE := by
  unfold Point2.toE Vector2.toE
  rw [Ray2.toReal_at hr hs]; rfl
theorem Ball2.clearance_real (h0 : balls ≠ []) (hb : ∀ b ∈ balls, AllFinite b.center ∧ IsFinite b.radius) {p : Point2 Ideal} (hp : AllFinite p) :
    IsFinite (Ball2.clearance balls p) ∧ (∀ b ∈ balls, real (Ball2.clearance balls p) ≤ dist b.center.toE p.toE - real b.radius) ∧
      ∃ b ∈ balls, real (Ball2.clearance balls p) = dist b.center.toE p.toE - real b.radius := by
  have e : ∀ b ∈ balls, IsFinite (Api.distance b.center p - b.radius) ∧ real (Api.distance b.center p - b.radius) = dist b.center.toE p.toE - real b.radius := by
    intro b h
    obtain ⟨h1, h2⟩ := hb b h
    have f := Point2.fin_distance h1 hp
    exact ⟨Ideal.finite_sub f h2, by rw [Ideal.real_sub f h2, Point2.real_distance h1 hp]⟩
  obtain ⟨a, b, d, hd, c⟩ := lowest_real (ds := balls.map fun b => Api.distance b.center p - b.radius) (by simpa using h0) (by
    intro d hd
    obtain ⟨b, h, rfl⟩ := List.mem_map.1 hd
    exact (e b h).1)
  refine ⟨a, fun b' h => ?_, ?_⟩
  · rw [← (e b' h).2]
    exact b _ (List.mem_map.2 ⟨b', h, rfl⟩)
  · obtain ⟨b', h, rfl⟩ := List.mem_map.1 hd
    exact ⟨b', h, by rw [← (e b' h).2]; exact c⟩
theorem Ball2.clearance_lip (h0 : balls ≠ []) (hb : ∀ b ∈ balls, AllFinite b.center ∧ IsFinite b.radius) {p q : Point2 Ideal} (hp : AllFinite p) (hq : AllFinite q) :
    real (Ball2.clearance balls p) ≤ real (Ball2.clearance balls q) + dist p.toE q.toE := by
  obtain ⟨-, a, -⟩ := Ball2.clearance_real h0 hb hp
  obtain ⟨-, -, b, h, e⟩ := Ball2.clearance_real h0 hb hq
  have := a b h
  have := dist_triangle_right b.center.toE p.toE q.toE
  rw [e]
  linarith
/-- The clearance along the ray. -/
noncomputable def Ray2.clear (r : Ray2 Ideal) (balls : List (Ball2 Ideal)) (s : ℝ) : ℝ := real (Ball2.clearance balls (r.at (Ideal.of s)))
theorem Ray2.clear_at (hr : AllFinite r) (h0 : balls ≠ []) (hb : ∀ b ∈ balls, AllFinite b.center ∧ IsFinite b.radius) {s : Ideal} (hs : IsFinite s) :
    real (Ball2.clearance balls (r.at s)) = r.clear balls (real s) := by
  have f := Ray2.fin_at hr hs
  have g := Ray2.fin_at hr (Ideal.finite_of (real s))
  have e : dist (r.at s).toE (r.at (Ideal.of (real s))).toE = 0 := by
    rw [Ray2.toE_at hr hs, Ray2.toE_at hr (Ideal.finite_of _), Ideal.real_of, dist_self]
  have a := Ball2.clearance_lip h0 hb f g
  have b := Ball2.clearance_lip h0 hb g f
  rw [dist_comm] at b
  rw [e, add_zero] at a b
  exact le_antisymm a b
theorem Ray2.clear_lip (hr : AllFinite r) (hu : (Api.length r.direction == (one : Ideal)) = true) (h0 : balls ≠ [])
    (hb : ∀ b ∈ balls, AllFinite b.center ∧ IsFinite b.radius) (s s' : ℝ) : r.clear balls s ≤ r.clear balls s' + |s - s'| := by
  have hd := ((Ray2.allFinite).1 hr).2
  have n1 : ‖r.direction.toE‖ = 1 := by
    rw [← Vector2.real_length hd, (Ideal.beq_real (Vector2.fin_length hd) finite_one).1 hu, real_one]
  have := Ball2.clearance_lip h0 hb (Ray2.fin_at hr (Ideal.finite_of s)) (Ray2.fin_at hr (Ideal.finite_of s'))
  rw [Ray2.toE_at hr (Ideal.finite_of _), Ray2.toE_at hr (Ideal.finite_of _), Ideal.real_of, Ideal.real_of, dist_add_left, dist_eq_norm, ← sub_smul, norm_smul, n1,
    mul_one, Real.norm_eq_abs] at this
  exact this
theorem Ray2.march_real (hr : AllFinite r) (h0 : balls ≠ []) (hb : ∀ b ∈ balls, AllFinite b.center ∧ IsFinite b.radius) (n : ℕ) :
    IsFinite (r.march balls n) ∧ real (r.march balls (n + 1)) = real (r.march balls n) + r.clear balls (real (r.march balls n)) := by
  have step : ∀ n, IsFinite (r.march balls n) → IsFinite (r.march balls (n + 1)) ∧
      real (r.march balls (n + 1)) = real (r.march balls n) + r.clear balls (real (r.march balls n)) := by
    intro n f
    have c := (Ball2.clearance_real h0 hb (Ray2.fin_at hr f)).1
    exact ⟨Ideal.finite_add f c, by rw [← Ray2.clear_at hr h0 hb f, ← Ideal.real_add f c]; rfl⟩
  have fin : ∀ n, IsFinite (r.march balls n) := by
    intro n
    induction n with
    | zero => exact finite_zero
    | succ n ih => exact (step n ih).1
  exact ⟨fin n, (step n (fin n)).2⟩
theorem Ray2.clear_nonneg (hr : AllFinite r) (h0 : balls ≠ []) (hb : ∀ b ∈ balls, AllFinite b.center ∧ IsFinite b.radius) {s : Ideal} (hs : IsFinite s) :
    0 ≤ r.clear balls (real s) ↔ ∀ b ∈ balls, (b.radius ≤? Api.distance b.center (r.at s)) = true := by
  obtain ⟨-, a, b, h, e⟩ := Ball2.clearance_real h0 hb (Ray2.fin_at hr hs)
  have k : ∀ b ∈ balls, (b.radius ≤? Api.distance b.center (r.at s)) = true ↔ real b.radius ≤ dist b.center.toE (r.at s).toE := fun b h => by
    rw [Ideal.le_real (hb b h).2 (Point2.fin_distance (hb b h).1 (Ray2.fin_at hr hs)), Point2.real_distance (hb b h).1 (Ray2.fin_at hr hs)]
  rw [← Ray2.clear_at hr h0 hb hs]
  constructor
  · intro h b' h'
    rw [k b' h']
    linarith [a b' h']
  · intro h'
    have := (k b h).1 (h' b h)
    rw [e]
    linarith
theorem Ray2.clear_nonpos (hr : AllFinite r) (h0 : balls ≠ []) (hb : ∀ b ∈ balls, AllFinite b.center ∧ IsFinite b.radius) {s : Ideal} (hs : IsFinite s) :
    r.clear balls (real s) ≤ 0 ↔ ∃ b ∈ balls, b.has (r.at s) = true := by
  obtain ⟨-, a, b, h, e⟩ := Ball2.clearance_real h0 hb (Ray2.fin_at hr hs)
  have k : ∀ b ∈ balls, b.has (r.at s) = true ↔ dist b.center.toE (r.at s).toE ≤ real b.radius := fun b h => by
    rw [Ball2.has, Ideal.le_real (Point2.fin_distance (hb b h).1 (Ray2.fin_at hr hs)) (hb b h).2, Point2.real_distance (hb b h).1 (Ray2.fin_at hr hs)]
  rw [← Ray2.clear_at hr h0 hb hs]
  constructor
  · intro h'
    rw [e] at h'
    exact ⟨b, h, (k b h).2 (by linarith)⟩
  · rintro ⟨b', h', w⟩
    have := (k b' h').1 w
    linarith [a b' h']
theorem Ray2.clear_start (hr : AllFinite r) (h0 : balls ≠ []) (hb : ∀ b ∈ balls, AllFinite b.center ∧ IsFinite b.radius)
    (hs : ∀ b ∈ balls, (b.radius ≤? Api.distance b.center r.origin) = true) : 0 ≤ r.clear balls (real (r.march balls 0)) := by
  have hz : IsFinite (zero : Ideal) := finite_zero
  have ho := ((Ray2.allFinite).1 hr).1
  refine (Ray2.clear_nonneg hr h0 hb hz).2 fun b h => ?_
  have := hs b h
  rw [Ideal.le_real (hb b h).2 (Point2.fin_distance (hb b h).1 ho), Point2.real_distance (hb b h).1 ho] at this
  rw [Ideal.le_real (hb b h).2 (Point2.fin_distance (hb b h).1 (Ray2.fin_at hr hz)), Point2.real_distance (hb b h).1 (Ray2.fin_at hr hz), Ray2.toE_at hr hz, real_zero,
    zero_smul, add_zero]
  exact this
/-- **C127**: no step goes back, and none goes through a ball: everything on the ray up to where the march is lies outside all balls. -/
theorem C127_safe2 (r : Ray2 Ideal) (balls : List (Ball2 Ideal)) (hr : AllFinite r) (hu : (Api.length r.direction == (one : Ideal)) = true)
    (h0 : balls ≠ []) (hb : ∀ b ∈ balls, AllFinite b.center ∧ IsFinite b.radius) (hs : ∀ b ∈ balls, (b.radius ≤? Api.distance b.center r.origin) = true) (n : ℕ) :
    IsFinite (r.march balls n) ∧ (r.march balls n ≤? r.march balls (n + 1)) = true ∧
      ∀ s : Ideal, IsFinite s → (zero ≤? s) = true → (s ≤? r.march balls n) = true → ∀ b ∈ balls, (b.radius ≤? Api.distance b.center (r.at s)) = true := by
  have L := Ray2.clear_lip hr hu h0 hb
  have M := fun n => Ray2.march_real hr h0 hb n
  have st := Ray2.clear_start hr h0 hb hs
  have nn : ∀ s : Ideal, IsFinite s → ((zero ≤? s) = true ↔ real (r.march balls 0) ≤ real s) := fun s fs => Ideal.le_real finite_zero fs
  refine ⟨(M n).1, (Ideal.le_real (M n).1 (M (n + 1)).1).2 (trace_step L (x := fun n => real (r.march balls n)) (fun n => (M n).2) st n).2, fun s fs s0 sn => ?_⟩
  refine (Ray2.clear_nonneg hr h0 hb fs).1 (trace_safe L (x := fun n => real (r.march balls n)) (fun n => (M n).2) st n ?_ ?_)
  · exact (nn s fs).1 s0
  · exact (Ideal.le_real fs (M n).1).1 sn
/-- **C127**: the march never passes a point of a ball. -/
theorem C127_stop2 (r : Ray2 Ideal) (balls : List (Ball2 Ideal)) (hr : AllFinite r) (hu : (Api.length r.direction == (one : Ideal)) = true)
    (h0 : balls ≠ []) (hb : ∀ b ∈ balls, AllFinite b.center ∧ IsFinite b.radius) (s : Ideal) (fs : IsFinite s) (s0 : (zero ≤? s) = true)
    (hit : ∃ b ∈ balls, b.has (r.at s) = true) (n : ℕ) : (r.march balls n ≤? s) = true := by
  have M := fun n => Ray2.march_real hr h0 hb n
  refine (Ideal.le_real (M n).1 fs).2 ?_
  exact trace_stop (Ray2.clear_lip hr hu h0 hb) (x := fun n => real (r.march balls n)) (fun n => (M n).2) ((Ideal.le_real finite_zero fs).1 s0)
    ((Ray2.clear_nonpos hr h0 hb fs).2 hit) n
/-- **C127**: if the ray meets a ball, the march converges to the first point where it does. -/
theorem C127_hit2 (r : Ray2 Ideal) (balls : List (Ball2 Ideal)) (hr : AllFinite r) (hu : (Api.length r.direction == (one : Ideal)) = true)
    (h0 : balls ≠ []) (hb : ∀ b ∈ balls, AllFinite b.center ∧ IsFinite b.radius) (hs : ∀ b ∈ balls, (b.radius ≤? Api.distance b.center r.origin) = true)
    (hit : ∃ s : Ideal, IsFinite s ∧ (zero ≤? s) = true ∧ ∃ b ∈ balls, b.has (r.at s) = true) :
    ∃ T : Ideal, IsFinite T ∧ (zero ≤? T) = true ∧ (∃ b ∈ balls, b.has (r.at T) = true) ∧
      (∀ s : Ideal, IsFinite s → (zero ≤? s) = true → (∃ b ∈ balls, b.has (r.at s) = true) → (T ≤? s) = true) ∧
      Tendsto (fun n => real (r.march balls n)) atTop (𝓝 (real T)) := by
  have M := fun n => Ray2.march_real hr h0 hb n
  have st := Ray2.clear_start hr h0 hb hs
  have nn : ∀ s : Ideal, IsFinite s → ((zero ≤? s) = true ↔ real (r.march balls 0) ≤ real s) := fun s fs => Ideal.le_real finite_zero fs
  obtain ⟨s, fs, s0, h⟩ := hit
  obtain ⟨T, T0, e, lim, first⟩ := trace_hit (Ray2.clear_lip hr hu h0 hb) (x := fun n => real (r.march balls n)) (fun n => (M n).2) st
    ((nn s fs).1 s0) ((Ray2.clear_nonpos hr h0 hb fs).2 h)
  obtain ⟨U, fT, eT⟩ : ∃ U : Ideal, IsFinite U ∧ real U = T := ⟨Ideal.of T, Ideal.finite_of T, Ideal.real_of T⟩
  subst eT
  exact ⟨U, fT, (nn U fT).2 T0, (Ray2.clear_nonpos hr h0 hb fT).1 e.le, fun s fs s0 h =>
    (Ideal.le_real fT fs).2 (first _ ((nn s fs).1 s0) ((Ray2.clear_nonpos hr h0 hb fs).2 h)), lim⟩
/-- **C127**: if the ray meets no ball, the march goes on without bound. -/
theorem C127_miss2 (r : Ray2 Ideal) (balls : List (Ball2 Ideal)) (hr : AllFinite r) (hu : (Api.length r.direction == (one : Ideal)) = true)
    (h0 : balls ≠ []) (hb : ∀ b ∈ balls, AllFinite b.center ∧ IsFinite b.radius)
    (miss : ∀ s : Ideal, IsFinite s → (zero ≤? s) = true → ∀ b ∈ balls, b.has (r.at s) = false) :
    Tendsto (fun n => real (r.march balls n)) atTop atTop := by
  have M := fun n => Ray2.march_real hr h0 hb n
  have pos : ∀ s, real (zero : Ideal) ≤ s → 0 < r.clear balls s := by
    intro s hs
    have f : IsFinite (Ideal.of s) := Ideal.finite_of s
    have e : real (Ideal.of s) = s := Ideal.real_of s
    by_contra hc
    rw [not_lt, ← e] at hc
    obtain ⟨b, h, w⟩ := (Ray2.clear_nonpos hr h0 hb f).1 hc
    rw [miss _ f ((Ideal.le_real finite_zero f).2 (by rw [e]; exact hs)) b h] at w
    exact absurd w (by decide)
  exact trace_miss (Ray2.clear_lip hr hu h0 hb) (x := fun n => real (r.march balls n)) (fun n => (M n).2) (pos _ le_rfl).le pos
/-- **C127**: a loop that ends when the nearest ball is within `e`, or when the limit `l` is reached, takes at most `l / e` steps. -/
theorem C127_loop2 (r : Ray2 Ideal) (balls : List (Ball2 Ideal)) (hr : AllFinite r) (h0 : balls ≠ [])
    (hb : ∀ b ∈ balls, AllFinite b.center ∧ IsFinite b.radius) (e l : Ideal) (he : IsFinite e) (hl : IsFinite l) (n : ℕ) (hn : real l ≤ n * real e) :
    ∃ m ≤ n, (Ball2.clearance balls (r.at (r.march balls m)) ≤? e) = true ∨ (l ≤? r.march balls m) = true := by
  have M := fun n => Ray2.march_real hr h0 hb n
  obtain ⟨m, hm, h⟩ := trace_loop (x := fun n => real (r.march balls n)) (f := r.clear balls) (fun n => (M n).2) (e := real e) (l := real l) n
    (by rw [show real (r.march balls 0) = 0 from real_zero]; linarith)
  refine ⟨m, hm, h.imp (fun h => ?_) fun h => (Ideal.le_real hl (M m).1).2 h⟩
  rw [Ideal.le_real (Ball2.clearance_real h0 hb (Ray2.fin_at hr (M m).1)).1 he, Ray2.clear_at hr h0 hb (M m).1]
  exact h
end

/-! ## Dimension 3 -/
section
variable {r : Ray3 Ideal} {balls : List (Ball3 Ideal)}
theorem Ray3.toE_at (hr : AllFinite r) {s : Ideal} (hs : IsFinite s) : (r.at s).toE = r.origin.toE + real s • r.direction.toE := by
  unfold Point3.toE Vector3.toE
  rw [Ray3.toReal_at hr hs]; rfl
theorem Ball3.clearance_real (h0 : balls ≠ []) (hb : ∀ b ∈ balls, AllFinite b.center ∧ IsFinite b.radius) {p : Point3 Ideal} (hp : AllFinite p) :
    IsFinite (Ball3.clearance balls p) ∧ (∀ b ∈ balls, real (Ball3.clearance balls p) ≤ dist b.center.toE p.toE - real b.radius) ∧
      ∃ b ∈ balls, real (Ball3.clearance balls p) = dist b.center.toE p.toE - real b.radius := by
  have e : ∀ b ∈ balls, IsFinite (Api.distance b.center p - b.radius) ∧ real (Api.distance b.center p - b.radius) = dist b.center.toE p.toE - real b.radius := by
    intro b h
    obtain ⟨h1, h2⟩ := hb b h
    have f := Point3.fin_distance h1 hp
    exact ⟨Ideal.finite_sub f h2, by rw [Ideal.real_sub f h2, Point3.real_distance h1 hp]⟩
  obtain ⟨a, b, d, hd, c⟩ := lowest_real (ds := balls.map fun b => Api.distance b.center p - b.radius) (by simpa using h0) (by
    intro d hd
    obtain ⟨b, h, rfl⟩ := List.mem_map.1 hd
    exact (e b h).1)
  refine ⟨a, fun b' h => ?_, ?_⟩
  · rw [← (e b' h).2]
    exact b _ (List.mem_map.2 ⟨b', h, rfl⟩)
  · obtain ⟨b', h, rfl⟩ := List.mem_map.1 hd
    exact ⟨b', h, by rw [← (e b' h).2]; exact c⟩
theorem Ball3.clearance_lip (h0 : balls ≠ []) (hb : ∀ b ∈ balls, AllFinite b.center ∧ IsFinite b.radius) {p q : Point3 Ideal} (hp : AllFinite p) (hq : AllFinite q) :
    real (Ball3.clearance balls p) ≤ real (Ball3.clearance balls q) + dist p.toE q.toE := by
  obtain ⟨-, a, -⟩ := Ball3.clearance_real h0 hb hp
  obtain ⟨-, -, b, h, e⟩ := Ball3.clearance_real h0 hb hq
  have := a b h
  have := dist_triangle_right b.center.toE p.toE q.toE
  rw [e]
  linarith
/-- The clearance along the ray. -/
noncomputable def Ray3.clear (r : Ray3 Ideal) (balls : List (Ball3 Ideal)) (s : ℝ) : ℝ := real (Ball3.clearance balls (r.at (Ideal.of s)))
theorem Ray3.clear_at (hr : AllFinite r) (h0 : balls ≠ []) (hb : ∀ b ∈ balls, AllFinite b.center ∧ IsFinite b.radius) {s : Ideal} (hs : IsFinite s) :
    real (Ball3.clearance balls (r.at s)) = r.clear balls (real s) := by
  have f := Ray3.fin_at hr hs
  have g := Ray3.fin_at hr (Ideal.finite_of (real s))
  have e : dist (r.at s).toE (r.at (Ideal.of (real s))).toE = 0 := by
    rw [Ray3.toE_at hr hs, Ray3.toE_at hr (Ideal.finite_of _), Ideal.real_of, dist_self]
  have a := Ball3.clearance_lip h0 hb f g
  have b := Ball3.clearance_lip h0 hb g f
  rw [dist_comm] at b
  rw [e, add_zero] at a b
  exact le_antisymm a b
theorem Ray3.clear_lip (hr : AllFinite r) (hu : (Api.length r.direction == (one : Ideal)) = true) (h0 : balls ≠ [])
    (hb : ∀ b ∈ balls, AllFinite b.center ∧ IsFinite b.radius) (s s' : ℝ) : r.clear balls s ≤ r.clear balls s' + |s - s'| := by
  have hd := ((Ray3.allFinite).1 hr).2
  have n1 : ‖r.direction.toE‖ = 1 := by
    rw [← Vector3.real_length hd, (Ideal.beq_real (Vector3.fin_length hd) finite_one).1 hu, real_one]
  have := Ball3.clearance_lip h0 hb (Ray3.fin_at hr (Ideal.finite_of s)) (Ray3.fin_at hr (Ideal.finite_of s'))
  rw [Ray3.toE_at hr (Ideal.finite_of _), Ray3.toE_at hr (Ideal.finite_of _), Ideal.real_of, Ideal.real_of, dist_add_left, dist_eq_norm, ← sub_smul, norm_smul, n1,
    mul_one, Real.norm_eq_abs] at this
  exact this
theorem Ray3.march_real (hr : AllFinite r) (h0 : balls ≠ []) (hb : ∀ b ∈ balls, AllFinite b.center ∧ IsFinite b.radius) (n : ℕ) :
    IsFinite (r.march balls n) ∧ real (r.march balls (n + 1)) = real (r.march balls n) + r.clear balls (real (r.march balls n)) := by
  have step : ∀ n, IsFinite (r.march balls n) → IsFinite (r.march balls (n + 1)) ∧
      real (r.march balls (n + 1)) = real (r.march balls n) + r.clear balls (real (r.march balls n)) := by
    intro n f
    have c := (Ball3.clearance_real h0 hb (Ray3.fin_at hr f)).1
    exact ⟨Ideal.finite_add f c, by rw [← Ray3.clear_at hr h0 hb f, ← Ideal.real_add f c]; rfl⟩
  have fin : ∀ n, IsFinite (r.march balls n) := by
    intro n
    induction n with
    | zero => exact finite_zero
    | succ n ih => exact (step n ih).1
  exact ⟨fin n, (step n (fin n)).2⟩
theorem Ray3.clear_nonneg (hr : AllFinite r) (h0 : balls ≠ []) (hb : ∀ b ∈ balls, AllFinite b.center ∧ IsFinite b.radius) {s : Ideal} (hs : IsFinite s) :
    0 ≤ r.clear balls (real s) ↔ ∀ b ∈ balls, (b.radius ≤? Api.distance b.center (r.at s)) = true := by
  obtain ⟨-, a, b, h, e⟩ := Ball3.clearance_real h0 hb (Ray3.fin_at hr hs)
  have k : ∀ b ∈ balls, (b.radius ≤? Api.distance b.center (r.at s)) = true ↔ real b.radius ≤ dist b.center.toE (r.at s).toE := fun b h => by
    rw [Ideal.le_real (hb b h).2 (Point3.fin_distance (hb b h).1 (Ray3.fin_at hr hs)), Point3.real_distance (hb b h).1 (Ray3.fin_at hr hs)]
  rw [← Ray3.clear_at hr h0 hb hs]
  constructor
  · intro h b' h'
    rw [k b' h']
    linarith [a b' h']
  · intro h'
    have := (k b h).1 (h' b h)
    rw [e]
    linarith
theorem Ray3.clear_nonpos (hr : AllFinite r) (h0 : balls ≠ []) (hb : ∀ b ∈ balls, AllFinite b.center ∧ IsFinite b.radius) {s : Ideal} (hs : IsFinite s) :
    r.clear balls (real s) ≤ 0 ↔ ∃ b ∈ balls, b.has (r.at s) = true := by
  obtain ⟨-, a, b, h, e⟩ := Ball3.clearance_real h0 hb (Ray3.fin_at hr hs)
  have k : ∀ b ∈ balls, b.has (r.at s) = true ↔ dist b.center.toE (r.at s).toE ≤ real b.radius := fun b h => by
    rw [Ball3.has, Ideal.le_real (Point3.fin_distance (hb b h).1 (Ray3.fin_at hr hs)) (hb b h).2, Point3.real_distance (hb b h).1 (Ray3.fin_at hr hs)]
  rw [← Ray3.clear_at hr h0 hb hs]
  constructor
  · intro h'
    rw [e] at h'
    exact ⟨b, h, (k b h).2 (by linarith)⟩
  · rintro ⟨b', h', w⟩
    have := (k b' h').1 w
    linarith [a b' h']
theorem Ray3.clear_start (hr : AllFinite r) (h0 : balls ≠ []) (hb : ∀ b ∈ balls, AllFinite b.center ∧ IsFinite b.radius)
    (hs : ∀ b ∈ balls, (b.radius ≤? Api.distance b.center r.origin) = true) : 0 ≤ r.clear balls (real (r.march balls 0)) := by
  have hz : IsFinite (zero : Ideal) := finite_zero
  have ho := ((Ray3.allFinite).1 hr).1
  refine (Ray3.clear_nonneg hr h0 hb hz).2 fun b h => ?_
  have := hs b h
  rw [Ideal.le_real (hb b h).2 (Point3.fin_distance (hb b h).1 ho), Point3.real_distance (hb b h).1 ho] at this
  rw [Ideal.le_real (hb b h).2 (Point3.fin_distance (hb b h).1 (Ray3.fin_at hr hz)), Point3.real_distance (hb b h).1 (Ray3.fin_at hr hz), Ray3.toE_at hr hz, real_zero,
    zero_smul, add_zero]
  exact this
/-- **C127**: no step goes back, and none goes through a ball: everything on the ray up to where the march is lies outside all balls. -/
theorem C127_safe3 (r : Ray3 Ideal) (balls : List (Ball3 Ideal)) (hr : AllFinite r) (hu : (Api.length r.direction == (one : Ideal)) = true)
    (h0 : balls ≠ []) (hb : ∀ b ∈ balls, AllFinite b.center ∧ IsFinite b.radius) (hs : ∀ b ∈ balls, (b.radius ≤? Api.distance b.center r.origin) = true) (n : ℕ) :
    IsFinite (r.march balls n) ∧ (r.march balls n ≤? r.march balls (n + 1)) = true ∧
      ∀ s : Ideal, IsFinite s → (zero ≤? s) = true → (s ≤? r.march balls n) = true → ∀ b ∈ balls, (b.radius ≤? Api.distance b.center (r.at s)) = true := by
  have L := Ray3.clear_lip hr hu h0 hb
  have M := fun n => Ray3.march_real hr h0 hb n
  have st := Ray3.clear_start hr h0 hb hs
  have nn : ∀ s : Ideal, IsFinite s → ((zero ≤? s) = true ↔ real (r.march balls 0) ≤ real s) := fun s fs => Ideal.le_real finite_zero fs
  refine ⟨(M n).1, (Ideal.le_real (M n).1 (M (n + 1)).1).2 (trace_step L (x := fun n => real (r.march balls n)) (fun n => (M n).2) st n).2, fun s fs s0 sn => ?_⟩
  refine (Ray3.clear_nonneg hr h0 hb fs).1 (trace_safe L (x := fun n => real (r.march balls n)) (fun n => (M n).2) st n ?_ ?_)
  · exact (nn s fs).1 s0
  · exact (Ideal.le_real fs (M n).1).1 sn
/-- **C127**: the march never passes a point of a ball. -/
theorem C127_stop3 (r : Ray3 Ideal) (balls : List (Ball3 Ideal)) (hr : AllFinite r) (hu : (Api.length r.direction == (one : Ideal)) = true)
    (h0 : balls ≠ []) (hb : ∀ b ∈ balls, AllFinite b.center ∧ IsFinite b.radius) (s : Ideal) (fs : IsFinite s) (s0 : (zero ≤? s) = true)
    (hit : ∃ b ∈ balls, b.has (r.at s) = true) (n : ℕ) : (r.march balls n ≤? s) = true := by
  have M := fun n => Ray3.march_real hr h0 hb n
  refine (Ideal.le_real (M n).1 fs).2 ?_
  exact trace_stop (Ray3.clear_lip hr hu h0 hb) (x := fun n => real (r.march balls n)) (fun n => (M n).2) ((Ideal.le_real finite_zero fs).1 s0)
    ((Ray3.clear_nonpos hr h0 hb fs).2 hit) n
/-- **C127**: if the ray meets a ball, the march converges to the first point where it does. -/
theorem C127_hit3 (r : Ray3 Ideal) (balls : List (Ball3 Ideal)) (hr : AllFinite r) (hu : (Api.length r.direction == (one : Ideal)) = true)
    (h0 : balls ≠ []) (hb : ∀ b ∈ balls, AllFinite b.center ∧ IsFinite b.radius) (hs : ∀ b ∈ balls, (b.radius ≤? Api.distance b.center r.origin) = true)
    (hit : ∃ s : Ideal, IsFinite s ∧ (zero ≤? s) = true ∧ ∃ b ∈ balls, b.has (r.at s) = true) :
    ∃ T : Ideal, IsFinite T ∧ (zero ≤? T) = true ∧ (∃ b ∈ balls, b.has (r.at T) = true) ∧
      (∀ s : Ideal, IsFinite s → (zero ≤? s) = true → (∃ b ∈ balls, b.has (r.at s) = true) → (T ≤? s) = true) ∧
      Tendsto (fun n => real (r.march balls n)) atTop (𝓝 (real T)) := by
  have M := fun n => Ray3.march_real hr h0 hb n
  have st := Ray3.clear_start hr h0 hb hs
  have nn : ∀ s : Ideal, IsFinite s → ((zero ≤? s) = true ↔ real (r.march balls 0) ≤ real s) := fun s fs => Ideal.le_real finite_zero fs
  obtain ⟨s, fs, s0, h⟩ := hit
  obtain ⟨T, T0, e, lim, first⟩ := trace_hit (Ray3.clear_lip hr hu h0 hb) (x := fun n => real (r.march balls n)) (fun n => (M n).2) st
    ((nn s fs).1 s0) ((Ray3.clear_nonpos hr h0 hb fs).2 h)
  obtain ⟨U, fT, eT⟩ : ∃ U : Ideal, IsFinite U ∧ real U = T := ⟨Ideal.of T, Ideal.finite_of T, Ideal.real_of T⟩
  subst eT
  exact ⟨U, fT, (nn U fT).2 T0, (Ray3.clear_nonpos hr h0 hb fT).1 e.le, fun s fs s0 h =>
    (Ideal.le_real fT fs).2 (first _ ((nn s fs).1 s0) ((Ray3.clear_nonpos hr h0 hb fs).2 h)), lim⟩
/-- **C127**: if the ray meets no ball, the march goes on without bound. -/
theorem C127_miss3 (r : Ray3 Ideal) (balls : List (Ball3 Ideal)) (hr : AllFinite r) (hu : (Api.length r.direction == (one : Ideal)) = true)
    (h0 : balls ≠ []) (hb : ∀ b ∈ balls, AllFinite b.center ∧ IsFinite b.radius)
    (miss : ∀ s : Ideal, IsFinite s → (zero ≤? s) = true → ∀ b ∈ balls, b.has (r.at s) = false) :
    Tendsto (fun n => real (r.march balls n)) atTop atTop := by
  have M := fun n => Ray3.march_real hr h0 hb n
  have pos : ∀ s, real (zero : Ideal) ≤ s → 0 < r.clear balls s := by
    intro s hs
    have f : IsFinite (Ideal.of s) := Ideal.finite_of s
    have e : real (Ideal.of s) = s := Ideal.real_of s
    by_contra hc
    rw [not_lt, ← e] at hc
    obtain ⟨b, h, w⟩ := (Ray3.clear_nonpos hr h0 hb f).1 hc
    rw [miss _ f ((Ideal.le_real finite_zero f).2 (by rw [e]; exact hs)) b h] at w
    exact absurd w (by decide)
  exact trace_miss (Ray3.clear_lip hr hu h0 hb) (x := fun n => real (r.march balls n)) (fun n => (M n).2) (pos _ le_rfl).le pos
/-- **C127**: a loop that ends when the nearest ball is within `e`, or when the limit `l` is reached, takes at most `l / e` steps. -/
theorem C127_loop3 (r : Ray3 Ideal) (balls : List (Ball3 Ideal)) (hr : AllFinite r) (h0 : balls ≠ [])
    (hb : ∀ b ∈ balls, AllFinite b.center ∧ IsFinite b.radius) (e l : Ideal) (he : IsFinite e) (hl : IsFinite l) (n : ℕ) (hn : real l ≤ n * real e) :
    ∃ m ≤ n, (Ball3.clearance balls (r.at (r.march balls m)) ≤? e) = true ∨ (l ≤? r.march balls m) = true := by
  have M := fun n => Ray3.march_real hr h0 hb n
  obtain ⟨m, hm, h⟩ := trace_loop (x := fun n => real (r.march balls n)) (f := r.clear balls) (fun n => (M n).2) (e := real e) (l := real l) n
    (by rw [show real (r.march balls 0) = 0 from real_zero]; linarith)
  refine ⟨m, hm, h.imp (fun h => ?_) fun h => (Ideal.le_real hl (M m).1).2 h⟩
  rw [Ideal.le_real (Ball3.clearance_real h0 hb (Ray3.fin_at hr (M m).1)).1 he, Ray3.clear_at hr h0 hb (M m).1]
  exact h
end

end VecMath
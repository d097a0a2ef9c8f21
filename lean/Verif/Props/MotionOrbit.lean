import Verif.Props.MotionGrid
/-! # C129: a spring of stiffness 1 in steps of 1 swings with the period 6, in floating point for ever -/

namespace VecMath
open Scalar IEEE

/-- The position seen from the fixed end, and the velocity, after `n` steps. -/
def orbit : ℕ → ℝ × ℝ → ℝ × ℝ
  | 0, s => s
  | n + 1, s => ((orbit n s).2, (orbit n s).2 - (orbit n s).1)
theorem orbit_six (n : ℕ) (s : ℝ × ℝ) : orbit (6 * n) s = s := by
  induction n with
  | zero => rfl
  | succ n ih =>
    rw [show 6 * (n + 1) = 6 * n + 1 + 1 + 1 + 1 + 1 + 1 by ring]
    simp only [orbit, ih]
    ext <;> simp
section
variable {S : Type} [Scalar S] [IEEE S] [Binary S]
theorem Exactly.times_one {e : ℤ} {N : ℕ} (hF : Fits S e N) {a k : S} {x : ℝ} (ha : Exactly a x) (gx : OnGrid e N x) (hk : Exactly k 1) : Exactly (a * k) x := by
  have := correct_mul ha.1 hk.1
  rw [ha.2, hk.2, mul_one] at this
  exact this.grid gx hF
theorem swing_component {e : ℤ} {M : ℕ} (hF : Fits S e (4 * M)) {p v c k t : S} {c0 x0 v0 : ℝ} (hc : Exactly c c0) (kc : OnGrid e M c0) (hk : Exactly k 1)
    (ht : Exactly t 1) (hp : Exactly p (c0 + x0)) (hv : Exactly v v0) (g1 : OnGrid e (3 * M) x0) (g2 : OnGrid e (3 * M) v0) (g3 : OnGrid e (3 * M) (v0 - x0)) :
    Exactly (p + (v - (p - c) * k * t) * t) (c0 + v0) ∧ Exactly (v - (p - c) * k * t) (v0 - x0) := by
  have f3 : Fits S e (3 * M) := hF.mono (by omega)
  have d : Exactly (p - c) x0 := by
    have := correct_sub hp.1 hc.1
    rw [hp.2, hc.2, add_sub_cancel_left] at this
    exact this.grid g1 f3
  have m := (d.times_one f3 g1 hk).times_one f3 g1 ht
  have w : Exactly (v - (p - c) * k * t) (v0 - x0) := by
    have := correct_sub hv.1 m.1
    rw [hv.2, m.2] at this
    exact this.grid g3 f3
  have q := w.times_one f3 g3 ht
  refine ⟨?_, w⟩
  have := correct_add hp.1 q.1
  rw [hp.2, q.2, show c0 + x0 + (v0 - x0) = c0 + v0 by ring] at this
  exact this.grid ((kc.add g2).mono (by omega)) hF
/-- The orbit stays on the grid. -/
theorem orbit_grid {e : ℤ} {N : ℕ} {s : ℝ × ℝ} (g1 : OnGrid e N s.1) (g2 : OnGrid e N s.2) (g3 : OnGrid e N (s.2 - s.1)) (n : ℕ) :
    OnGrid e N (orbit n s).1 ∧ OnGrid e N (orbit n s).2 ∧ OnGrid e N ((orbit n s).2 - (orbit n s).1) := by
  induction n with
  | zero => exact ⟨g1, g2, g3⟩
  | succ n ih =>
    obtain ⟨a, b, c⟩ := ih
    refine ⟨b, c, ?_⟩
    rw [show (orbit (n + 1) s).2 - (orbit (n + 1) s).1 = -(orbit n s).1 by simp [orbit]]
    obtain ⟨z, h, e⟩ := a
    exact ⟨-z, by rwa [abs_neg], by rw [e]; push_cast; ring⟩
theorem orbit_start {e : ℤ} {M : ℕ} {p c v : ℝ} (gp : OnGrid e M p) (gc : OnGrid e M c) (gv : OnGrid e M v) (n : ℕ) :
    OnGrid e (3 * M) (orbit n (p - c, v)).1 ∧ OnGrid e (3 * M) (orbit n (p - c, v)).2 ∧
    OnGrid e (3 * M) ((orbit n (p - c, v)).2 - (orbit n (p - c, v)).1) :=
  orbit_grid ((gp.sub gc).mono (by omega)) (gv.mono (by omega)) ((gv.sub (gp.sub gc)).mono (by omega)) n
end

/-! ## Dimension 2 -/
section
variable {S : Type} [Scalar S] [IEEE S] [Binary S]
theorem Body2.orbits {e : ℤ} {M : ℕ} (hF : Fits S e (4 * M)) {b : Body2 S} {c : Point2 S} {k dt : S} (hk : Exactly k 1) (ht : Exactly dt 1)
    (hp : AllFinite b.position ∧ ∀ i, OnGrid e M (b.position.toReal i)) (hv : AllFinite b.velocity ∧ ∀ i, OnGrid e M (b.velocity.toReal i))
    (hc : AllFinite c ∧ ∀ i, OnGrid e M (c.toReal i)) (n : ℕ) :
    (Exactly (stepped (Body2.swing c k dt) n b).position.x (real c.x + (orbit n (real b.position.x - real c.x, real b.velocity.x)).1) ∧ Exactly (stepped (Body2.swing c k dt) n b).position.y (real c.y + (orbit n (real b.position.y - real c.y, real b.velocity.y)).1)) ∧
    Exactly (stepped (Body2.swing c k dt) n b).velocity.x (orbit n (real b.position.x - real c.x, real b.velocity.x)).2 ∧ Exactly (stepped (Body2.swing c k dt) n b).velocity.y (orbit n (real b.position.y - real c.y, real b.velocity.y)).2 := by
  have cf := Point2.allFinite.1 hc.1
  have vf := Vector2.allFinite.1 hv.1
  have pf := Point2.allFinite.1 hp.1
  induction n with
  | zero => exact ⟨⟨⟨pf.1, by simp [orbit, stepped_zero]⟩, ⟨pf.2, by simp [orbit, stepped_zero]⟩⟩, ⟨vf.1, rfl⟩, ⟨vf.2, rfl⟩⟩
  | succ n ih =>
    rw [stepped_succ]
    obtain ⟨⟨px, py⟩, vx, vy⟩ := ih
    obtain ⟨Ax, Bx, Cx⟩ := orbit_start (hp.2 0) (hc.2 0) (hv.2 0) n
    have hx := swing_component hF ⟨cf.1, rfl⟩ (hc.2 0) hk ht px vx Ax Bx Cx
    obtain ⟨Ay, By, Cy⟩ := orbit_start (hp.2 1) (hc.2 1) (hv.2 1) n
    have hy := swing_component hF ⟨cf.2, rfl⟩ (hc.2 1) hk ht py vy Ay By Cy
    exact ⟨⟨hx.1, hy.1⟩, hx.2, hy.2⟩
/-- **C129**: a body on a spring of stiffness 1, in steps of 1, is back where it began after every six steps, in every binary format and for ever, if its numbers
are integers, or multiples of a power of two, and the format has room for four times the largest. -/
theorem C129_orbit2 {e : ℤ} {M : ℕ} (b : Body2 S) (c : Point2 S) (k dt : S) (hF : Fits S e (4 * M)) (hk : Exactly k 1) (ht : Exactly dt 1)
    (hp : AllFinite b.position ∧ ∀ i, OnGrid e M (b.position.toReal i)) (hv : AllFinite b.velocity ∧ ∀ i, OnGrid e M (b.velocity.toReal i))
    (hc : AllFinite c ∧ ∀ i, OnGrid e M (c.toReal i)) (n : ℕ) :
    (stepped (Body2.swing c k dt) (6 * n) b).Finite ∧ (stepped (Body2.swing c k dt) (6 * n) b).Same b := by
  obtain ⟨⟨px, py⟩, vx, vy⟩ := Body2.orbits hF hk ht hp hv hc (6 * n)
  simp only [orbit_six] at px vx py vy
  refine ⟨⟨Point2.allFinite.2 ⟨px.1, py.1⟩, Vector2.allFinite.2 ⟨vx.1, vy.1⟩⟩, ?_, ?_⟩
  · funext i
    fin_cases i
    exacts [px.2.trans (add_sub_cancel _ _), py.2.trans (add_sub_cancel _ _)]
  · funext i
    fin_cases i
    exacts [vx.2, vy.2]
end

/-! ## Dimension 3 -/
section
variable {S : Type} [Scalar S] [IEEE S] [Binary S]
theorem Body3.orbits {e : ℤ} {M : ℕ} (hF : Fits S e (4 * M)) {b : Body3 S} {c : Point3 S} {k dt : S} (hk : Exactly k 1) (ht : Exactly dt 1)
    (hp : AllFinite b.position ∧ ∀ i, OnGrid e M (b.position.toReal i)) (hv : AllFinite b.velocity ∧ ∀ i, OnGrid e M (b.velocity.toReal i))
    (hc : AllFinite c ∧ ∀ i, OnGrid e M (c.toReal i)) (n : ℕ) :
    (Exactly (stepped (Body3.swing c k dt) n b).position.x (real c.x + (orbit n (real b.position.x - real c.x, real b.velocity.x)).1) ∧ Exactly (stepped (Body3.swing c k dt) n b).position.y (real c.y + (orbit n (real b.position.y - real c.y, real b.velocity.y)).1) ∧ Exactly (stepped (Body3.swing c k dt) n b).position.z (real c.z + (orbit n (real b.position.z - real c.z, real b.velocity.z)).1)) ∧
    Exactly (stepped (Body3.swing c k dt) n b).velocity.x (orbit n (real b.position.x - real c.x, real b.velocity.x)).2 ∧ Exactly (stepped (Body3.swing c k dt) n b).velocity.y (orbit n (real b.position.y - real c.y, real b.velocity.y)).2 ∧ Exactly (stepped (Body3.swing c k dt) n b).velocity.z (orbit n (real b.position.z - real c.z, real b.velocity.z)).2 := by
  have cf := Point3.allFinite.1 hc.1
  have vf := Vector3.allFinite.1 hv.1
  have pf := Point3.allFinite.1 hp.1
  induction n with
  | zero => exact ⟨⟨⟨pf.1, by simp [orbit, stepped_zero]⟩, ⟨pf.2.1, by simp [orbit, stepped_zero]⟩, ⟨pf.2.2, by simp [orbit, stepped_zero]⟩⟩, ⟨vf.1, rfl⟩, ⟨vf.2.1, rfl⟩, ⟨vf.2.2, rfl⟩⟩
  | succ n ih =>
    rw [stepped_succ]
    obtain ⟨⟨px, py, pz⟩, vx, vy, vz⟩ := ih
    obtain ⟨Ax, Bx, Cx⟩ := orbit_start (hp.2 0) (hc.2 0) (hv.2 0) n
    have hx := swing_component hF ⟨cf.1, rfl⟩ (hc.2 0) hk ht px vx Ax Bx Cx
    obtain ⟨Ay, By, Cy⟩ := orbit_start (hp.2 1) (hc.2 1) (hv.2 1) n
    have hy := swing_component hF ⟨cf.2.1, rfl⟩ (hc.2 1) hk ht py vy Ay By Cy
    obtain ⟨Az, Bz, Cz⟩ := orbit_start (hp.2 2) (hc.2 2) (hv.2 2) n
    have hz := swing_component hF ⟨cf.2.2, rfl⟩ (hc.2 2) hk ht pz vz Az Bz Cz
    exact ⟨⟨hx.1, hy.1, hz.1⟩, hx.2, hy.2, hz.2⟩
/-- **C129**: a body on a spring of stiffness 1, in steps of 1, is back where it began after every six steps, in every binary format and for ever, if its numbers
are integers, or multiples of a power of two, and the format has room for four times the largest. -/
theorem C129_orbit3 {e : ℤ} {M : ℕ} (b : Body3 S) (c : Point3 S) (k dt : S) (hF : Fits S e (4 * M)) (hk : Exactly k 1) (ht : Exactly dt 1)
    (hp : AllFinite b.position ∧ ∀ i, OnGrid e M (b.position.toReal i)) (hv : AllFinite b.velocity ∧ ∀ i, OnGrid e M (b.velocity.toReal i))
    (hc : AllFinite c ∧ ∀ i, OnGrid e M (c.toReal i)) (n : ℕ) :
    (stepped (Body3.swing c k dt) (6 * n) b).Finite ∧ (stepped (Body3.swing c k dt) (6 * n) b).Same b := by
  obtain ⟨⟨px, py, pz⟩, vx, vy, vz⟩ := Body3.orbits hF hk ht hp hv hc (6 * n)
  simp only [orbit_six] at px vx py vy pz vz
  refine ⟨⟨Point3.allFinite.2 ⟨px.1, py.1, pz.1⟩, Vector3.allFinite.2 ⟨vx.1, vy.1, vz.1⟩⟩, ?_, ?_⟩
  · funext i
    fin_cases i
    exacts [px.2.trans (add_sub_cancel _ _), py.2.trans (add_sub_cancel _ _), pz.2.trans (add_sub_cancel _ _)]
  · funext i
    fin_cases i
    exacts [vx.2, vy.2, vz.2]
end

/-- In `f32`: the body at (3, 0) with the velocity (0, 1), on a spring fixed at (0, 0), is back there after 6000000 steps. -/
example : (stepped (Body2.swing (pt2 0 0 : Point2 F32) (int32 1) (int32 1)) 6000000 ⟨pt2 3 0, vec2 0 1⟩).Same ⟨pt2 3 0, vec2 0 1⟩ := by
  have one : Exactly (int32 1 : F32) 1 := ⟨finite_int32, by rw [real_int32]; norm_num⟩
  have hF : Fits F32 0 (4 * 3) := by refine ⟨?_, ?_, ?_⟩ <;> decide
  refine (C129_orbit2 (e := 0) (M := 3) ⟨pt2 3 0, vec2 0 1⟩ (pt2 0 0 : Point2 F32) (int32 1) (int32 1) hF one one ⟨finite_pt2, fun i => ?_⟩ ⟨finite_vec2, fun i => ?_⟩
    ⟨finite_pt2, fun i => ?_⟩ 1000000).2
  · fin_cases i
    · exact ⟨3, by norm_num, by simp [Point2.toReal, pt2, real_int32]⟩
    · exact ⟨0, by norm_num, by simp [Point2.toReal, pt2, real_int32]⟩
  · fin_cases i
    · exact ⟨0, by norm_num, by simp [Vector2.toReal, vec2, real_int32]⟩
    · exact ⟨1, by norm_num, by simp [Vector2.toReal, vec2, real_int32]⟩
  · fin_cases i <;> exact ⟨0, by norm_num, by simp [Point2.toReal, pt2, real_int32]⟩

end VecMath

import Verif.Props.FloatMotion
import Verif.Props.FloatArea
import Verif.Props.MotionEx
/-! # C129: a falling body on a grid of numbers is simulated without error, and the way back is exact -/

namespace VecMath
open Scalar IEEE

section
variable {S : Type} [Scalar S] [IEEE S] [Binary S]
/-- The velocity and the position after `n` steps, in exact arithmetic. -/
noncomputable def fallVelocity (v g t : ℝ) (n : ℕ) : ℝ := v + n * t * g
noncomputable def fallPosition (p v g t : ℝ) (n : ℕ) : ℝ := p + n * t * v + n * (n + 1) / 2 * t ^ 2 * g
theorem fallVelocity_succ (v g t : ℝ) (n : ℕ) : fallVelocity v g t (n + 1) = fallVelocity v g t n + g * t := by
  simp only [fallVelocity]; push_cast; ring
theorem fallPosition_succ (p v g t : ℝ) (n : ℕ) : fallPosition p v g t (n + 1) = fallPosition p v g t n + fallVelocity v g t (n + 1) * t := by
  simp only [fallPosition, fallVelocity]; push_cast; ring
theorem fallVelocity_grid {e f : ℤ} {G T V : ℕ} {v g t : ℝ} (hv : OnGrid (e + f) V v) (hg : OnGrid e G g) (ht : OnGrid f T t) (n : ℕ) :
    OnGrid (e + f) (V + n * (G * T)) (fallVelocity v g t n) := by
  induction n with
  | zero => simpa [fallVelocity] using hv
  | succ n ih => rw [fallVelocity_succ]; exact (ih.add (hg.mul ht)).mono (by nlinarith)
theorem fallPosition_grid {e f : ℤ} {G T V P : ℕ} {p v g t : ℝ} (hp : OnGrid (e + f + f) P p) (hv : OnGrid (e + f) V v) (hg : OnGrid e G g) (ht : OnGrid f T t)
    (n : ℕ) : ∀ k ≤ n, OnGrid (e + f + f) (P + k * ((V + n * (G * T)) * T)) (fallPosition p v g t k) := by
  intro k
  induction k with
  | zero => intro _; simpa [fallPosition] using hp
  | succ k ih =>
    intro hk
    rw [fallPosition_succ]
    have a := ((fallVelocity_grid hv hg ht (k + 1)).mono (show V + (k + 1) * (G * T) ≤ V + n * (G * T) from Nat.add_le_add_left (Nat.mul_le_mul_right _ hk) _)).mul ht
    exact ((ih (by omega)).add a).mono (by rw [add_mul k 1, one_mul, add_assoc])
theorem fall_component {e f : ℤ} {G T V P n k : ℕ} {p v g t : S} {p0 v0 g0 t0 : ℝ} (f1 : Fits S (e + f) (V + n * (G * T)))
    (f2 : Fits S (e + f + f) (P + n * ((V + n * (G * T)) * T))) (hg : Exactly g g0) (ht : Exactly t t0) (kg : OnGrid e G g0) (kt : OnGrid f T t0)
    (kv : OnGrid (e + f) V v0) (kp : OnGrid (e + f + f) P p0) (hk : k + 1 ≤ n)
    (hv : Exactly v (fallVelocity v0 g0 t0 k)) (hp : Exactly p (fallPosition p0 v0 g0 t0 k)) :
    Exactly (v + g * t) (fallVelocity v0 g0 t0 (k + 1)) ∧ Exactly (p + (v + g * t) * t) (fallPosition p0 v0 g0 t0 (k + 1)) := by
  have h1 : (k + 1) * (G * T) ≤ n * (G * T) := Nat.mul_le_mul_right _ hk
  have h2 : (k + 1) * ((V + n * (G * T)) * T) ≤ n * ((V + n * (G * T)) * T) := Nat.mul_le_mul_right _ hk
  have gv := (fallVelocity_grid kv kg kt (k + 1)).mono (show V + (k + 1) * (G * T) ≤ V + n * (G * T) by omega)
  have gp := fallPosition_grid kp kv kg kt n (k + 1) hk
  have h5 : G * T ≤ n * (G * T) := Nat.le_mul_of_pos_left _ (by omega)
  have h6 : (V + n * (G * T)) * T ≤ n * ((V + n * (G * T)) * T) := Nat.le_mul_of_pos_left _ (by omega)
  have m1 := hg.prod (f1.mono (by omega)) kg ht kt
  have a1 : Exactly (v + g * t) (fallVelocity v0 g0 t0 (k + 1)) := by
    have := correct_add hv.1 m1.1.1
    rw [hv.2, m1.1.2, ← fallVelocity_succ] at this
    exact this.grid gv f1
  have m2 := a1.prod (f2.mono (by omega)) gv ht kt
  refine ⟨a1, ?_⟩
  have := correct_add hp.1 m2.1.1
  rw [hp.2, m2.1.2, ← fallPosition_succ] at this
  exact this.grid gp (f2.mono (by omega))
theorem rise_component {e f : ℤ} {G T V P n k : ℕ} {p v g t : S} {p0 v0 g0 t0 : ℝ} (f1 : Fits S (e + f) (V + n * (G * T)))
    (f2 : Fits S (e + f + f) (P + n * ((V + n * (G * T)) * T))) (hg : Exactly g g0) (ht : Exactly t t0) (kg : OnGrid e G g0) (kt : OnGrid f T t0)
    (kv : OnGrid (e + f) V v0) (kp : OnGrid (e + f + f) P p0) (hk : k + 1 ≤ n)
    (hv : Exactly v (fallVelocity v0 g0 t0 (k + 1))) (hp : Exactly p (fallPosition p0 v0 g0 t0 (k + 1))) :
    Exactly (v - g * t) (fallVelocity v0 g0 t0 k) ∧ Exactly (p - v * t) (fallPosition p0 v0 g0 t0 k) := by
  have h1 : (k + 1) * (G * T) ≤ n * (G * T) := Nat.mul_le_mul_right _ hk
  have h2 : (k + 1) * ((V + n * (G * T)) * T) ≤ n * ((V + n * (G * T)) * T) := Nat.mul_le_mul_right _ hk
  have h3 : k * (G * T) ≤ n * (G * T) := Nat.mul_le_mul_right _ (by omega)
  have h4 : k * ((V + n * (G * T)) * T) ≤ n * ((V + n * (G * T)) * T) := Nat.mul_le_mul_right _ (by omega)
  have gv := (fallVelocity_grid kv kg kt (k + 1)).mono (show V + (k + 1) * (G * T) ≤ V + n * (G * T) by omega)
  have h5 : G * T ≤ n * (G * T) := Nat.le_mul_of_pos_left _ (by omega)
  have h6 : (V + n * (G * T)) * T ≤ n * ((V + n * (G * T)) * T) := Nat.le_mul_of_pos_left _ (by omega)
  have m1 := hg.prod (f1.mono (by omega)) kg ht kt
  have m2 := hv.prod (f2.mono (by omega)) gv ht kt
  constructor
  · have := correct_sub hv.1 m1.1.1
    rw [hv.2, m1.1.2, show fallVelocity v0 g0 t0 (k + 1) - g0 * t0 = fallVelocity v0 g0 t0 k by rw [fallVelocity_succ]; ring] at this
    exact this.grid (fallVelocity_grid kv kg kt k) (f1.mono (by omega))
  · have := correct_sub hp.1 m2.1.1
    rw [hp.2, m2.1.2, show fallPosition p0 v0 g0 t0 (k + 1) - fallVelocity v0 g0 t0 (k + 1) * t0 = fallPosition p0 v0 g0 t0 k by rw [fallPosition_succ]; ring] at this
    exact this.grid (fallPosition_grid kp kv kg kt n k (by omega)) (f2.mono (by omega))
end

/-! ## Dimension 2 -/
section
variable {S : Type} [Scalar S] [IEEE S] [Binary S]
/-- All components of the body are those after `k` steps. -/
def Body2.After (b : Body2 S) (g : Vector2 S) (dt : S) (k : ℕ) (r : Body2 S) : Prop :=
  (Exactly r.velocity.x (fallVelocity (real b.velocity.x) (real g.x) (real dt) k) ∧ Exactly r.velocity.y (fallVelocity (real b.velocity.y) (real g.y) (real dt) k)) ∧
  Exactly r.position.x (fallPosition (real b.position.x) (real b.velocity.x) (real g.x) (real dt) k) ∧ Exactly r.position.y (fallPosition (real b.position.y) (real b.velocity.y) (real g.y) (real dt) k)
/-- The numbers of the start are on the grid. -/
theorem Body2.after {e f : ℤ} {G T V P n k : ℕ} {b : Body2 S} {g : Vector2 S} {dt : S} (f1 : Fits S (e + f) (V + n * (G * T)))
    (f2 : Fits S (e + f + f) (P + n * ((V + n * (G * T)) * T))) (hg : AllFinite g ∧ ∀ i, OnGrid e G (g.toReal i)) (ht : IsFinite dt ∧ OnGrid f T (real dt))
    (hv : AllFinite b.velocity ∧ ∀ i, OnGrid (e + f) V (b.velocity.toReal i)) (hp : AllFinite b.position ∧ ∀ i, OnGrid (e + f + f) P (b.position.toReal i))
    (hk : k ≤ n) : b.After g dt k (stepped (Body2.fall g dt) k b) := by
  have gf := Vector2.allFinite.1 hg.1
  have vf := Vector2.allFinite.1 hv.1
  have pf := Point2.allFinite.1 hp.1
  induction k with
  | zero =>
    refine ⟨⟨⟨vf.1, by simp [fallVelocity, stepped_zero]⟩, ⟨vf.2, by simp [fallVelocity, stepped_zero]⟩⟩, ⟨pf.1, by simp [fallPosition, stepped_zero]⟩, ⟨pf.2, by simp [fallPosition, stepped_zero]⟩⟩
  | succ k ih =>
    rw [stepped_succ]
    obtain ⟨⟨vx, vy⟩, px, py⟩ := ih (by omega)
    have hx := fall_component f1 f2 ⟨gf.1, rfl⟩ ⟨ht.1, rfl⟩ (hg.2 0) ht.2 (hv.2 0) (hp.2 0) hk vx px
    have hy := fall_component f1 f2 ⟨gf.2, rfl⟩ ⟨ht.1, rfl⟩ (hg.2 1) ht.2 (hv.2 1) (hp.2 1) hk vy py
    exact ⟨⟨hx.1, hy.1⟩, hx.2, hy.2⟩
theorem Body2.before {e f : ℤ} {G T V P n : ℕ} {b : Body2 S} {g : Vector2 S} {dt : S} (f1 : Fits S (e + f) (V + n * (G * T)))
    (f2 : Fits S (e + f + f) (P + n * ((V + n * (G * T)) * T))) (hg : AllFinite g ∧ ∀ i, OnGrid e G (g.toReal i)) (ht : IsFinite dt ∧ OnGrid f T (real dt))
    (hv : AllFinite b.velocity ∧ ∀ i, OnGrid (e + f) V (b.velocity.toReal i)) (hp : AllFinite b.position ∧ ∀ i, OnGrid (e + f + f) P (b.position.toReal i))
    (j k : ℕ) (hk : j + k = n) : b.After g dt k (stepped (Body2.rise g dt) j (stepped (Body2.fall g dt) n b)) := by
  have gf := Vector2.allFinite.1 hg.1
  induction j generalizing k with
  | zero => obtain rfl : k = n := by omega
            exact Body2.after f1 f2 hg ht hv hp le_rfl
  | succ j ih =>
    rw [stepped_succ]
    obtain ⟨⟨vx, vy⟩, px, py⟩ := ih (k + 1) (by omega)
    have hx := rise_component f1 f2 ⟨gf.1, rfl⟩ ⟨ht.1, rfl⟩ (hg.2 0) ht.2 (hv.2 0) (hp.2 0) (show k + 1 ≤ n by omega) vx px
    have hy := rise_component f1 f2 ⟨gf.2, rfl⟩ ⟨ht.1, rfl⟩ (hg.2 1) ht.2 (hv.2 1) (hp.2 1) (show k + 1 ≤ n by omega) vy py
    exact ⟨⟨hx.1, hy.1⟩, hx.2, hy.2⟩
/-- **C129**: a falling body whose numbers are integers, or multiples of powers of two, is simulated without error as long as the numbers of the last step fit
into the format: the velocity and the position after `n` steps are exactly those of the closed form. -/
theorem C129_exact2 {e f : ℤ} {G T V P : ℕ} (b : Body2 S) (g : Vector2 S) (dt : S) (n : ℕ) (f1 : Fits S (e + f) (V + n * (G * T)))
    (f2 : Fits S (e + f + f) (P + n * ((V + n * (G * T)) * T))) (hg : AllFinite g ∧ ∀ i, OnGrid e G (g.toReal i)) (ht : IsFinite dt ∧ OnGrid f T (real dt))
    (hv : AllFinite b.velocity ∧ ∀ i, OnGrid (e + f) V (b.velocity.toReal i)) (hp : AllFinite b.position ∧ ∀ i, OnGrid (e + f + f) P (b.position.toReal i)) :
    (stepped (Body2.fall g dt) n b).Finite ∧ ∀ i,
    (stepped (Body2.fall g dt) n b).velocity.toReal i = b.velocity.toReal i + n * real dt * g.toReal i ∧
    (stepped (Body2.fall g dt) n b).position.toReal i = b.position.toReal i + n * real dt * b.velocity.toReal i + n * (n + 1) / 2 * real dt ^ 2 * g.toReal i := by
  obtain ⟨⟨vx, vy⟩, px, py⟩ := Body2.after (k := n) f1 f2 hg ht hv hp le_rfl
  refine ⟨⟨Point2.allFinite.2 ⟨px.1, py.1⟩, Vector2.allFinite.2 ⟨vx.1, vy.1⟩⟩, fun i => ?_⟩
  fin_cases i
  exacts [⟨vx.2, px.2⟩, ⟨vy.2, py.2⟩]
/-- **C129**: and then the steps taken back lead exactly to the beginning. -/
theorem C129_exact_back2 {e f : ℤ} {G T V P : ℕ} (b : Body2 S) (g : Vector2 S) (dt : S) (n : ℕ) (f1 : Fits S (e + f) (V + n * (G * T)))
    (f2 : Fits S (e + f + f) (P + n * ((V + n * (G * T)) * T))) (hg : AllFinite g ∧ ∀ i, OnGrid e G (g.toReal i)) (ht : IsFinite dt ∧ OnGrid f T (real dt))
    (hv : AllFinite b.velocity ∧ ∀ i, OnGrid (e + f) V (b.velocity.toReal i)) (hp : AllFinite b.position ∧ ∀ i, OnGrid (e + f + f) P (b.position.toReal i)) :
    (stepped (Body2.rise g dt) n (stepped (Body2.fall g dt) n b)).Finite ∧
    (stepped (Body2.rise g dt) n (stepped (Body2.fall g dt) n b)).Same b := by
  obtain ⟨⟨vx, vy⟩, px, py⟩ := Body2.before f1 f2 hg ht hv hp n 0 (by omega)
  refine ⟨⟨Point2.allFinite.2 ⟨px.1, py.1⟩, Vector2.allFinite.2 ⟨vx.1, vy.1⟩⟩, ?_, ?_⟩
  · funext i
    fin_cases i
    exacts [px.2.trans (by simp [fallPosition, Point2.toReal]), py.2.trans (by simp [fallPosition, Point2.toReal])]
  · funext i
    fin_cases i
    exacts [vx.2.trans (by simp [fallVelocity, Vector2.toReal]), vy.2.trans (by simp [fallVelocity, Vector2.toReal])]
end

/-! ## Dimension 3 -/
section
variable {S : Type} [Scalar S] [IEEE S] [Binary S]
/-- All components of the body are those after `k` steps. -/
def Body3.After (b : Body3 S) (g : Vector3 S) (dt : S) (k : ℕ) (r : Body3 S) : Prop :=
  (Exactly r.velocity.x (fallVelocity (real b.velocity.x) (real g.x) (real dt) k) ∧ Exactly r.velocity.y (fallVelocity (real b.velocity.y) (real g.y) (real dt) k) ∧ Exactly r.velocity.z (fallVelocity (real b.velocity.z) (real g.z) (real dt) k)) ∧
  Exactly r.position.x (fallPosition (real b.position.x) (real b.velocity.x) (real g.x) (real dt) k) ∧ Exactly r.position.y (fallPosition (real b.position.y) (real b.velocity.y) (real g.y) (real dt) k) ∧ Exactly r.position.z (fallPosition (real b.position.z) (real b.velocity.z) (real g.z) (real dt) k)
/-- The numbers of the start are on the grid. -/
theorem Body3.after {e f : ℤ} {G T V P n k : ℕ} {b : Body3 S} {g : Vector3 S} {dt : S} (f1 : Fits S (e + f) (V + n * (G * T)))
    (f2 : Fits S (e + f + f) (P + n * ((V + n * (G * T)) * T))) (hg : AllFinite g ∧ ∀ i, OnGrid e G (g.toReal i)) (ht : IsFinite dt ∧ OnGrid f T (real dt))
    (hv : AllFinite b.velocity ∧ ∀ i, OnGrid (e + f) V (b.velocity.toReal i)) (hp : AllFinite b.position ∧ ∀ i, OnGrid (e + f + f) P (b.position.toReal i))
    (hk : k ≤ n) : b.After g dt k (stepped (Body3.fall g dt) k b) := by
  have gf := Vector3.allFinite.1 hg.1
  have vf := Vector3.allFinite.1 hv.1
  have pf := Point3.allFinite.1 hp.1
  induction k with
  | zero =>
    refine ⟨⟨⟨vf.1, by simp [fallVelocity, stepped_zero]⟩, ⟨vf.2.1, by simp [fallVelocity, stepped_zero]⟩, ⟨vf.2.2, by simp [fallVelocity, stepped_zero]⟩⟩, ⟨pf.1, by simp [fallPosition, stepped_zero]⟩, ⟨pf.2.1, by simp [fallPosition, stepped_zero]⟩, ⟨pf.2.2, by simp [fallPosition, stepped_zero]⟩⟩
  | succ k ih =>
    rw [stepped_succ]
    obtain ⟨⟨vx, vy, vz⟩, px, py, pz⟩ := ih (by omega)
    have hx := fall_component f1 f2 ⟨gf.1, rfl⟩ ⟨ht.1, rfl⟩ (hg.2 0) ht.2 (hv.2 0) (hp.2 0) hk vx px
    have hy := fall_component f1 f2 ⟨gf.2.1, rfl⟩ ⟨ht.1, rfl⟩ (hg.2 1) ht.2 (hv.2 1) (hp.2 1) hk vy py
    have hz := fall_component f1 f2 ⟨gf.2.2, rfl⟩ ⟨ht.1, rfl⟩ (hg.2 2) ht.2 (hv.2 2) (hp.2 2) hk vz pz
    exact ⟨⟨hx.1, hy.1, hz.1⟩, hx.2, hy.2, hz.2⟩
theorem Body3.before {e f : ℤ} {G T V P n : ℕ} {b : Body3 S} {g : Vector3 S} {dt : S} (f1 : Fits S (e + f) (V + n * (G * T)))
    (f2 : Fits S (e + f + f) (P + n * ((V + n * (G * T)) * T))) (hg : AllFinite g ∧ ∀ i, OnGrid e G (g.toReal i)) (ht : IsFinite dt ∧ OnGrid f T (real dt))
    (hv : AllFinite b.velocity ∧ ∀ i, OnGrid (e + f) V (b.velocity.toReal i)) (hp : AllFinite b.position ∧ ∀ i, OnGrid (e + f + f) P (b.position.toReal i))
    (j k : ℕ) (hk : j + k = n) : b.After g dt k (stepped (Body3.rise g dt) j (stepped (Body3.fall g dt) n b)) := by
  have gf := Vector3.allFinite.1 hg.1
  induction j generalizing k with
  | zero => obtain rfl : k = n := by omega
            exact Body3.after f1 f2 hg ht hv hp le_rfl
  | succ j ih =>
    rw [stepped_succ]
    obtain ⟨⟨vx, vy, vz⟩, px, py, pz⟩ := ih (k + 1) (by omega)
    have hx := rise_component f1 f2 ⟨gf.1, rfl⟩ ⟨ht.1, rfl⟩ (hg.2 0) ht.2 (hv.2 0) (hp.2 0) (show k + 1 ≤ n by omega) vx px
    have hy := rise_component f1 f2 ⟨gf.2.1, rfl⟩ ⟨ht.1, rfl⟩ (hg.2 1) ht.2 (hv.2 1) (hp.2 1) (show k + 1 ≤ n by omega) vy py
    have hz := rise_component f1 f2 ⟨gf.2.2, rfl⟩ ⟨ht.1, rfl⟩ (hg.2 2) ht.2 (hv.2 2) (hp.2 2) (show k + 1 ≤ n by omega) vz pz
    exact ⟨⟨hx.1, hy.1, hz.1⟩, hx.2, hy.2, hz.2⟩
/-- **C129**: a falling body whose numbers are integers, or multiples of powers of two, is simulated without error as long as the numbers of the last step fit
into the format: the velocity and the position after `n` steps are exactly those of the closed form. -/
theorem C129_exact3 {e f : ℤ} {G T V P : ℕ} (b : Body3 S) (g : Vector3 S) (dt : S) (n : ℕ) (f1 : Fits S (e + f) (V + n * (G * T)))
    (f2 : Fits S (e + f + f) (P + n * ((V + n * (G * T)) * T))) (hg : AllFinite g ∧ ∀ i, OnGrid e G (g.toReal i)) (ht : IsFinite dt ∧ OnGrid f T (real dt))
    (hv : AllFinite b.velocity ∧ ∀ i, OnGrid (e + f) V (b.velocity.toReal i)) (hp : AllFinite b.position ∧ ∀ i, OnGrid (e + f + f) P (b.position.toReal i)) :
    (stepped (Body3.fall g dt) n b).Finite ∧ ∀ i,
    (stepped (Body3.fall g dt) n b).velocity.toReal i = b.velocity.toReal i + n * real dt * g.toReal i ∧
    (stepped (Body3.fall g dt) n b).position.toReal i = b.position.toReal i + n * real dt * b.velocity.toReal i + n * (n + 1) / 2 * real dt ^ 2 * g.toReal i := by
  obtain ⟨⟨vx, vy, vz⟩, px, py, pz⟩ := Body3.after (k := n) f1 f2 hg ht hv hp le_rfl
  refine ⟨⟨Point3.allFinite.2 ⟨px.1, py.1, pz.1⟩, Vector3.allFinite.2 ⟨vx.1, vy.1, vz.1⟩⟩, fun i => ?_⟩
  fin_cases i
  exacts [⟨vx.2, px.2⟩, ⟨vy.2, py.2⟩, ⟨vz.2, pz.2⟩]
/-- **C129**: and then the steps taken back lead exactly to the beginning. -/
theorem C129_exact_back3 {e f : ℤ} {G T V P : ℕ} (b : Body3 S) (g : Vector3 S) (dt : S) (n : ℕ) (f1 : Fits S (e + f) (V + n * (G * T)))
    (f2 : Fits S (e + f + f) (P + n * ((V + n * (G * T)) * T))) (hg : AllFinite g ∧ ∀ i, OnGrid e G (g.toReal i)) (ht : IsFinite dt ∧ OnGrid f T (real dt))
    (hv : AllFinite b.velocity ∧ ∀ i, OnGrid (e + f) V (b.velocity.toReal i)) (hp : AllFinite b.position ∧ ∀ i, OnGrid (e + f + f) P (b.position.toReal i)) :
    (stepped (Body3.rise g dt) n (stepped (Body3.fall g dt) n b)).Finite ∧
    (stepped (Body3.rise g dt) n (stepped (Body3.fall g dt) n b)).Same b := by
  obtain ⟨⟨vx, vy, vz⟩, px, py, pz⟩ := Body3.before f1 f2 hg ht hv hp n 0 (by omega)
  refine ⟨⟨Point3.allFinite.2 ⟨px.1, py.1, pz.1⟩, Vector3.allFinite.2 ⟨vx.1, vy.1, vz.1⟩⟩, ?_, ?_⟩
  · funext i
    fin_cases i
    exacts [px.2.trans (by simp [fallPosition, Point3.toReal]), py.2.trans (by simp [fallPosition, Point3.toReal]), pz.2.trans (by simp [fallPosition, Point3.toReal])]
  · funext i
    fin_cases i
    exacts [vx.2.trans (by simp [fallVelocity, Vector3.toReal]), vy.2.trans (by simp [fallVelocity, Vector3.toReal]), vz.2.trans (by simp [fallVelocity, Vector3.toReal])]
end

noncomputable def motionThrow : Body2 F32 := ⟨pt2 0 0, vec2 0 10⟩
/-- In `f32`, a body at (0, 0) with the velocity (0, 10) and the acceleration (0, -1), in steps of 1/2: after 100 steps it is at (0, -762.5), and back after
100 steps back. -/
example : (stepped (Body2.fall motionGravity half) 100 motionThrow).position.toReal = ![0, -762.5] ∧
    (stepped (Body2.rise motionGravity half) 100 (stepped (Body2.fall motionGravity half) 100 motionThrow)).Same motionThrow := by
  have f1 : Fits F32 (0 + -1) (20 + 100 * (1 * 1)) := by refine ⟨?_, ?_, ?_⟩ <;> decide
  have f2 : Fits F32 (0 + -1 + -1) (0 + 100 * ((20 + 100 * (1 * 1)) * 1)) := by refine ⟨?_, ?_, ?_⟩ <;> decide
  have hg : AllFinite motionGravity ∧ ∀ i, OnGrid 0 1 (motionGravity.toReal i) := ⟨finite_vec2, fun i => by
    fin_cases i
    · exact ⟨0, by norm_num, by simp [motionGravity, Vector2.toReal, vec2, real_int32]⟩
    · exact ⟨-1, by norm_num, by simp [motionGravity, Vector2.toReal, vec2, real_int32]⟩⟩
  have ht : IsFinite (half : F32) ∧ OnGrid (-1) 1 (real (half : F32)) := ⟨exactly_half.1, 1, by norm_num, by rw [exactly_half.2]; norm_num⟩
  have hv : AllFinite (vec2 0 10 : Vector2 F32) ∧ ∀ i, OnGrid (0 + -1) 20 ((vec2 0 10 : Vector2 F32).toReal i) := ⟨finite_vec2, fun i => by
    fin_cases i
    · exact ⟨0, by norm_num, by simp [Vector2.toReal, vec2, real_int32]⟩
    · exact ⟨20, by norm_num, by simp [Vector2.toReal, vec2, real_int32]; norm_num⟩⟩
  have hp : AllFinite (pt2 0 0 : Point2 F32) ∧ ∀ i, OnGrid (0 + -1 + -1) 0 ((pt2 0 0 : Point2 F32).toReal i) := ⟨finite_pt2, fun i => by
    fin_cases i <;> exact ⟨0, by norm_num, by simp [Point2.toReal, pt2, real_int32]⟩⟩
  refine ⟨?_, (C129_exact_back2 motionThrow motionGravity half 100 f1 f2 hg ht hv hp).2⟩
  have := (C129_exact2 motionThrow motionGravity half 100 f1 f2 hg ht hv hp).2
  funext i
  rw [(this i).2, exactly_half.2]
  fin_cases i <;> simp [motionGravity, Point2.toReal, Vector2.toReal, motionThrow, pt2, vec2, real_int32] <;> norm_num

end VecMath

import Verif.Spec.Motion
import Verif.Lemmas.Real
import Mathlib.LinearAlgebra.Matrix.DotProduct
/-!
# Simulated motion in exact real arithmetic (layer R): C129
-/

namespace VecMath
open Scalar IEEE

theorem stepped_succ {B : Type} (step : B → B) (n : ℕ) (b : B) : stepped step (n + 1) b = step (stepped step n b) := Function.iterate_succ_apply' step n b
theorem stepped_zero {B : Type} (step : B → B) (b : B) : stepped step 0 b = b := rfl
/-- Steps taken back one by one lead to the beginning, if taking a step back does. -/
theorem stepped_back {B : Type} {P : B → Prop} {R : B → B → Prop} (step back : B → B) (hs : ∀ b, P b → P (step b)) (ht : ∀ a b c, R a b → R b c → R a c) (hr : ∀ b, P b → R b b)
    (hb : ∀ b, P b → R (back (step b)) b) (hP : ∀ b, P b → P (back b)) (hc : ∀ a b, P a → P b → R a b → R (back a) (back b)) (n : ℕ) (b : B) (h : P b) :
    R (stepped back n (stepped step n b)) b := by
  have all : ∀ n b, P b → P (stepped step n b) := by
    intro n b h
    induction n with
    | zero => exact h
    | succ n ih => rw [stepped_succ]; exact hs _ ih
  have many : ∀ n b, P b → P (stepped back n b) := by
    intro n b h
    induction n with
    | zero => exact h
    | succ n ih => rw [stepped_succ]; exact hP _ ih
  have cong : ∀ n a b, P a → P b → R a b → R (stepped back n a) (stepped back n b) := by
    intro n a b ha hb h
    induction n with
    | zero => exact h
    | succ n ih => rw [stepped_succ, stepped_succ]; exact hc _ _ (many n a ha) (many n b hb) ih
  induction n with
  | zero => exact hr b h
  | succ n ih =>
    rw [stepped_succ step]
    have e : stepped back (n + 1) (step (stepped step n b)) = stepped back n (back (step (stepped step n b))) := Function.iterate_succ_apply back n _
    rw [e]
    exact ht _ _ _ (cong n _ _ (hP _ (hs _ (all n b h))) (all n b h) (hb _ (all n b h))) ih

section
variable {m : ℕ}
theorem spring_keeps (k h : ℝ) (x v : Fin m → ℝ) : springEnergy k h (x + h • (v - h • (k • x))) (v - h • (k • x)) = springEnergy k h x v := by
  simp only [springEnergy, add_dotProduct, dotProduct_add, sub_dotProduct, dotProduct_sub, smul_dotProduct, dotProduct_smul, smul_eq_mul, dotProduct_comm v x]
  ring
theorem spring_grows (k h : ℝ) (x v : Fin m → ℝ) :
    (v - h • (k • x)) ⬝ᵥ (v - h • (k • x)) + k * ((x + h • v) ⬝ᵥ (x + h • v)) = (1 + k * h ^ 2) * (v ⬝ᵥ v + k * (x ⬝ᵥ x)) := by
  simp only [add_dotProduct, dotProduct_add, sub_dotProduct, dotProduct_sub, smul_dotProduct, dotProduct_smul, smul_eq_mul, dotProduct_comm v x]
  ring
theorem spring_bound {k h : ℝ} (hk : 0 < k) (hs : k * h ^ 2 < 4) (x v : Fin m → ℝ) : x ⬝ᵥ x ≤ springEnergy k h x v / (k * (1 - k * h ^ 2 / 4)) := by
  have p : 0 < k * (1 - k * h ^ 2 / 4) := mul_pos hk (by linarith)
  rw [le_div_iff₀ p]
  have e : springEnergy k h x v = (v - (k * h / 2) • x) ⬝ᵥ (v - (k * h / 2) • x) + x ⬝ᵥ x * (k * (1 - k * h ^ 2 / 4)) := by
    simp only [springEnergy, sub_dotProduct, dotProduct_sub, smul_dotProduct, dotProduct_smul, smul_eq_mul, dotProduct_comm v x]
    ring
  have : 0 ≤ (v - (k * h / 2) • x) ⬝ᵥ (v - (k * h / 2) • x) := Finset.sum_nonneg fun i _ => mul_self_nonneg _
  linarith
end

/-! ## Dimension 2 -/
section
variable {b : Body2 Ideal} {g : Vector2 Ideal} {c : Point2 Ideal} {k dt : Ideal}
theorem Body2.fall_real (hb : b.Finite) (hg : AllFinite g) (ht : IsFinite dt) : (b.fall g dt).Finite ∧
    (b.fall g dt).velocity.toReal = b.velocity.toReal + real dt • g.toReal ∧
    (b.fall g dt).position.toReal = b.position.toReal + real dt • (b.velocity.toReal + real dt • g.toReal) := by
  have f1 := Vector2.fin_mul hg ht
  have f2 := Vector2.fin_add hb.2 f1
  have f3 := Vector2.fin_mul f2 ht
  refine ⟨⟨Point2.fin_addv hb.1 f3, f2⟩, ?_, ?_⟩
  · exact (Vector2.toReal_add hb.2 f1).trans (by rw [Vector2.toReal_mul hg ht])
  · exact (Point2.toReal_addv hb.1 f3).trans (by rw [Vector2.toReal_mul f2 ht, Vector2.toReal_add hb.2 f1, Vector2.toReal_mul hg ht])
theorem Body2.rise_real (hb : b.Finite) (hg : AllFinite g) (ht : IsFinite dt) : (b.rise g dt).Finite ∧
    (b.rise g dt).velocity.toReal = b.velocity.toReal - real dt • g.toReal ∧ (b.rise g dt).position.toReal = b.position.toReal - real dt • b.velocity.toReal := by
  have f1 := Vector2.fin_mul hg ht
  have f2 := Vector2.fin_mul hb.2 ht
  refine ⟨⟨Point2.fin_subv hb.1 f2, Vector2.fin_sub hb.2 f1⟩, ?_, ?_⟩
  · exact (Vector2.toReal_sub hb.2 f1).trans (by rw [Vector2.toReal_mul hg ht])
  · exact (Point2.toReal_subv hb.1 f2).trans (by rw [Vector2.toReal_mul hb.2 ht])
theorem pull_real2 {p : Point2 Ideal} (hp : AllFinite p) (hc : AllFinite c) (hk : IsFinite k) (ht : IsFinite dt) :
    AllFinite ((p - c : Vector2 Ideal) * k * dt) ∧ ((p - c : Vector2 Ideal) * k * dt).toReal = real dt • (real k • (p.toReal - c.toReal)) := by
  have f1 := Vector2.fin_subp hp hc
  have f2 := Vector2.fin_mul f1 hk
  refine ⟨Vector2.fin_mul f2 ht, ?_⟩
  rw [Vector2.toReal_mul f2 ht, Vector2.toReal_mul f1 hk, Vector2.toReal_subp hp hc]
theorem Body2.swing_real (hb : b.Finite) (hc : AllFinite c) (hk : IsFinite k) (ht : IsFinite dt) : (b.swing c k dt).Finite ∧
    (b.swing c k dt).velocity.toReal = b.velocity.toReal - real dt • (real k • (b.position.toReal - c.toReal)) ∧
    (b.swing c k dt).position.toReal = b.position.toReal + real dt • (b.velocity.toReal - real dt • (real k • (b.position.toReal - c.toReal))) := by
  obtain ⟨f1, e1⟩ := pull_real2 (k := k) (dt := dt) hb.1 hc hk ht
  have f2 := Vector2.fin_sub hb.2 f1
  have f3 := Vector2.fin_mul f2 ht
  refine ⟨⟨Point2.fin_addv hb.1 f3, f2⟩, ?_, ?_⟩
  · exact (Vector2.toReal_sub hb.2 f1).trans (by rw [e1])
  · exact (Point2.toReal_addv hb.1 f3).trans (by rw [Vector2.toReal_mul f2 ht, Vector2.toReal_sub hb.2 f1, e1])
theorem Body2.swingBack_real (hb : b.Finite) (hc : AllFinite c) (hk : IsFinite k) (ht : IsFinite dt) : (b.swingBack c k dt).Finite ∧
    (b.swingBack c k dt).velocity.toReal = b.velocity.toReal + real dt • (real k • (b.position.toReal - real dt • b.velocity.toReal - c.toReal)) ∧
    (b.swingBack c k dt).position.toReal = b.position.toReal - real dt • b.velocity.toReal := by
  have f1 := Vector2.fin_mul hb.2 ht
  have f2 := Point2.fin_subv hb.1 f1
  have e2 : (b.position - b.velocity * dt : Point2 Ideal).toReal = b.position.toReal - real dt • b.velocity.toReal :=
    (Point2.toReal_subv hb.1 f1).trans (by rw [Vector2.toReal_mul hb.2 ht])
  obtain ⟨f3, e3⟩ := pull_real2 (k := k) (dt := dt) f2 hc hk ht
  exact ⟨⟨f2, Vector2.fin_add hb.2 f3⟩, (Vector2.toReal_add hb.2 f3).trans (by rw [e3, e2]), e2⟩
theorem Body2.swingOld_real (hb : b.Finite) (hc : AllFinite c) (hk : IsFinite k) (ht : IsFinite dt) : (b.swingOld c k dt).Finite ∧
    (b.swingOld c k dt).velocity.toReal = b.velocity.toReal - real dt • (real k • (b.position.toReal - c.toReal)) ∧
    (b.swingOld c k dt).position.toReal = b.position.toReal + real dt • b.velocity.toReal := by
  obtain ⟨f1, e1⟩ := pull_real2 (k := k) (dt := dt) hb.1 hc hk ht
  have f2 := Vector2.fin_mul hb.2 ht
  refine ⟨⟨Point2.fin_addv hb.1 f2, Vector2.fin_sub hb.2 f1⟩, ?_, ?_⟩
  · exact (Vector2.toReal_sub hb.2 f1).trans (by rw [e1])
  · exact (Point2.toReal_addv hb.1 f2).trans (by rw [Vector2.toReal_mul hb.2 ht])
end
/-- **C129**: in exact arithmetic, after n steps of free fall, the velocity has changed by n dt g, and the position by n dt times the velocity plus
n (n + 1) / 2 times dt^2 g: the parabola and half a step more. -/
theorem C129_parabola2 (b : Body2 Ideal) (g : Vector2 Ideal) (dt : Ideal) (hb : b.Finite) (hg : AllFinite g) (ht : IsFinite dt) (n : ℕ) (i : Fin 2) :
    (stepped (Body2.fall g dt) n b).Finite ∧
    (stepped (Body2.fall g dt) n b).velocity.toReal i = b.velocity.toReal i + n * real dt * g.toReal i ∧
    (stepped (Body2.fall g dt) n b).position.toReal i = b.position.toReal i + n * real dt * b.velocity.toReal i + n * (n + 1) / 2 * real dt ^ 2 * g.toReal i := by
  induction n with
  | zero => exact ⟨hb, by simp [stepped_zero], by simp [stepped_zero]⟩
  | succ n ih =>
    obtain ⟨h1, h2, h3⟩ := ih
    obtain ⟨a, e1, e2⟩ := Body2.fall_real h1 hg ht
    rw [stepped_succ]
    refine ⟨a, ?_, ?_⟩
    · rw [e1, Pi.add_apply, Pi.smul_apply, h2, smul_eq_mul]; push_cast; ring
    · rw [e2, Pi.add_apply, Pi.smul_apply, Pi.add_apply, Pi.smul_apply, h2, h3, smul_eq_mul, smul_eq_mul]; push_cast; ring
/-- **C129**: in exact arithmetic n steps of free fall, taken back one by one, lead to the beginning. -/
theorem C129_rise2 (b : Body2 Ideal) (g : Vector2 Ideal) (dt : Ideal) (hb : b.Finite) (hg : AllFinite g) (ht : IsFinite dt) (n : ℕ) :
    (stepped (Body2.rise g dt) n (stepped (Body2.fall g dt) n b)).Same b := by
  refine stepped_back (P := Body2.Finite) (R := Body2.Same) _ _ (fun b h => (Body2.fall_real h hg ht).1) (fun a b c h h' => ⟨h.1.trans h'.1, h.2.trans h'.2⟩)
    (fun b _ => ⟨rfl, rfl⟩) ?_ (fun b h => (Body2.rise_real h hg ht).1) ?_ n b hb
  · intro b h
    obtain ⟨a, e1, e2⟩ := Body2.fall_real h hg ht
    obtain ⟨-, e3, e4⟩ := Body2.rise_real a hg ht
    refine ⟨?_, ?_⟩
    · rw [e4, e1, e2]; abel
    · rw [e3, e1]; abel
  · intro a b ha hb h
    obtain ⟨-, e1, e2⟩ := Body2.rise_real ha hg ht
    obtain ⟨-, e3, e4⟩ := Body2.rise_real hb hg ht
    exact ⟨by rw [e2, e4, h.1, h.2], by rw [e1, e3, h.2]⟩
/-- **C129**: in exact arithmetic n steps on a spring, taken back one by one, lead to the beginning. -/
theorem C129_swingBack2 (b : Body2 Ideal) (c : Point2 Ideal) (k dt : Ideal) (hb : b.Finite) (hc : AllFinite c) (hk : IsFinite k) (ht : IsFinite dt) (n : ℕ) :
    (stepped (Body2.swingBack c k dt) n (stepped (Body2.swing c k dt) n b)).Same b := by
  refine stepped_back (P := Body2.Finite) (R := Body2.Same) _ _ (fun b h => (Body2.swing_real h hc hk ht).1) (fun a b c h h' => ⟨h.1.trans h'.1, h.2.trans h'.2⟩)
    (fun b _ => ⟨rfl, rfl⟩) ?_ (fun b h => (Body2.swingBack_real h hc hk ht).1) ?_ n b hb
  · intro b h
    obtain ⟨a, e1, e2⟩ := Body2.swing_real h hc hk ht
    obtain ⟨-, e3, e4⟩ := Body2.swingBack_real a hc hk ht
    have e5 : (b.swing c k dt).position.toReal - real dt • (b.swing c k dt).velocity.toReal = b.position.toReal := by rw [e1, e2]; abel
    refine ⟨by rw [e4, e5], ?_⟩
    rw [e3, e5, e1]; abel
  · intro a b ha hb h
    obtain ⟨-, e1, e2⟩ := Body2.swingBack_real ha hc hk ht
    obtain ⟨-, e3, e4⟩ := Body2.swingBack_real hb hc hk ht
    exact ⟨by rw [e2, e4, h.1, h.2], by rw [e1, e3, h.1, h.2]⟩
/-- **C129**: in exact arithmetic the simulated spring keeps the number |v|^2 + k |x|^2 - k dt (x . v) for ever, x being the position seen from the fixed end. -/
theorem C129_energy2 (b : Body2 Ideal) (c : Point2 Ideal) (k dt : Ideal) (hb : b.Finite) (hc : AllFinite c) (hk : IsFinite k) (ht : IsFinite dt) (n : ℕ) :
    let r := stepped (Body2.swing c k dt) n b
    r.Finite ∧ springEnergy (real k) (real dt) (r.position.toReal - c.toReal) r.velocity.toReal
      = springEnergy (real k) (real dt) (b.position.toReal - c.toReal) b.velocity.toReal := by
  induction n with
  | zero => exact ⟨hb, rfl⟩
  | succ n ih =>
    obtain ⟨h1, h2⟩ := ih
    obtain ⟨a, e1, e2⟩ := Body2.swing_real h1 hc hk ht
    show (stepped _ (n + 1) b).Finite ∧ _
    rw [stepped_succ]
    refine ⟨a, ?_⟩
    rw [← h2, e1, e2, add_sub_right_comm]
    exact spring_keeps _ _ _ _
/-- **C129**: so for a positive stiffness with k dt^2 < 4 the body stays within a bounded distance of the fixed end for ever. -/
theorem C129_bounded2 (b : Body2 Ideal) (c : Point2 Ideal) (k dt : Ideal) (hb : b.Finite) (hc : AllFinite c) (hk : IsFinite k) (ht : IsFinite dt)
    (h0 : 0 < real k) (h4 : real k * real dt ^ 2 < 4) (n : ℕ) :
    let r := stepped (Body2.swing c k dt) n b
    (r.position.toReal - c.toReal) ⬝ᵥ (r.position.toReal - c.toReal)
      ≤ springEnergy (real k) (real dt) (b.position.toReal - c.toReal) b.velocity.toReal / (real k * (1 - real k * real dt ^ 2 / 4)) := by
  intro r
  rw [← (C129_energy2 b c k dt hb hc hk ht n).2]
  exact spring_bound h0 h4 _ _
/-- **C129**: with the old velocity the energy |v|^2 + k |x|^2 of the spring is multiplied by 1 + k dt^2 in every step. -/
theorem C129_grows2 (b : Body2 Ideal) (c : Point2 Ideal) (k dt : Ideal) (hb : b.Finite) (hc : AllFinite c) (hk : IsFinite k) (ht : IsFinite dt) (n : ℕ) :
    let r := stepped (Body2.swingOld c k dt) n b
    r.Finite ∧ r.velocity.toReal ⬝ᵥ r.velocity.toReal + real k * ((r.position.toReal - c.toReal) ⬝ᵥ (r.position.toReal - c.toReal))
      = (1 + real k * real dt ^ 2) ^ n * (b.velocity.toReal ⬝ᵥ b.velocity.toReal + real k * ((b.position.toReal - c.toReal) ⬝ᵥ (b.position.toReal - c.toReal))) := by
  induction n with
  | zero => exact ⟨hb, by rw [pow_zero, one_mul]; rfl⟩
  | succ n ih =>
    obtain ⟨h1, h2⟩ := ih
    obtain ⟨a, e1, e2⟩ := Body2.swingOld_real h1 hc hk ht
    show (stepped _ (n + 1) b).Finite ∧ _
    rw [stepped_succ]
    refine ⟨a, ?_⟩
    rw [e1, e2, add_sub_right_comm, spring_grows, h2, pow_succ]
    ring
/-- **C129**: so with the old velocity the energy of a body that does not rest at the fixed end exceeds every bound. -/
theorem C129_unbounded2 (b : Body2 Ideal) (c : Point2 Ideal) (k dt : Ideal) (hb : b.Finite) (hc : AllFinite c) (hk : IsFinite k) (ht : IsFinite dt)
    (h0 : 0 < real k) (h4 : real dt ≠ 0) (h : b.position.toReal ≠ c.toReal ∨ b.velocity.toReal ≠ 0) (C : ℝ) : ∃ n,
    let r := stepped (Body2.swingOld c k dt) n b
    C < r.velocity.toReal ⬝ᵥ r.velocity.toReal + real k * ((r.position.toReal - c.toReal) ⬝ᵥ (r.position.toReal - c.toReal)) := by
  have nn : ∀ u : Fin 2 → ℝ, 0 ≤ u ⬝ᵥ u := fun u => Finset.sum_nonneg fun i _ => mul_self_nonneg _
  have e : 0 < b.velocity.toReal ⬝ᵥ b.velocity.toReal + real k * ((b.position.toReal - c.toReal) ⬝ᵥ (b.position.toReal - c.toReal)) := by
    rcases h with h | h
    · have : 0 < (b.position.toReal - c.toReal) ⬝ᵥ (b.position.toReal - c.toReal) :=
        lt_of_le_of_ne (nn _) fun z => h (sub_eq_zero.1 (dotProduct_self_eq_zero.1 z.symm))
      have := nn b.velocity.toReal
      positivity
    · have : 0 < b.velocity.toReal ⬝ᵥ b.velocity.toReal := lt_of_le_of_ne (nn _) fun z => h (dotProduct_self_eq_zero.1 z.symm)
      have := mul_nonneg h0.le (nn (b.position.toReal - c.toReal))
      linarith
  have g : 1 < 1 + real k * real dt ^ 2 := by
    have := mul_pos h0 (pow_pos (abs_pos.2 h4) 2)
    rw [sq_abs] at this
    linarith
  obtain ⟨n, hn⟩ := pow_unbounded_of_one_lt (C / (b.velocity.toReal ⬝ᵥ b.velocity.toReal + real k * ((b.position.toReal - c.toReal) ⬝ᵥ (b.position.toReal - c.toReal)))) g
  refine ⟨n, ?_⟩
  show C < _
  rw [(C129_grows2 b c k dt hb hc hk ht n).2]
  exact (div_lt_iff₀ e).1 hn

/-! ## Dimension 3 -/
section
variable {b : Body3 Ideal} {g : Vector3 Ideal} {c : Point3 Ideal} {k dt : Ideal}
theorem Body3.fall_real (hb : b.Finite) (hg : AllFinite g) (ht : IsFinite dt) : (b.fall g dt).Finite ∧
    (b.fall g dt).velocity.toReal = b.velocity.toReal + real dt • g.toReal ∧
    (b.fall g dt).position.toReal = b.position.toReal + real dt • (b.velocity.toReal + real dt • g.toReal) := by
  have f1 := Vector3.fin_mul hg ht
  have f2 := Vector3.fin_add hb.2 f1
  have f3 := Vector3.fin_mul f2 ht
  refine ⟨⟨Point3.fin_addv hb.1 f3, f2⟩, ?_, ?_⟩
  · exact (Vector3.toReal_add hb.2 f1).trans (by rw [Vector3.toReal_mul hg ht])
  · exact (Point3.toReal_addv hb.1 f3).trans (by rw [Vector3.toReal_mul f2 ht, Vector3.toReal_add hb.2 f1, Vector3.toReal_mul hg ht])
theorem Body3.rise_real (hb : b.Finite) (hg : AllFinite g) (ht : IsFinite dt) : (b.rise g dt).Finite ∧
    (b.rise g dt).velocity.toReal = b.velocity.toReal - real dt • g.toReal ∧ (b.rise g dt).position.toReal = b.position.toReal - real dt • b.velocity.toReal := by
  have f1 := Vector3.fin_mul hg ht
  have f2 := Vector3.fin_mul hb.2 ht
  refine ⟨⟨Point3.fin_subv hb.1 f2, Vector3.fin_sub hb.2 f1⟩, ?_, ?_⟩
  · exact (Vector3.toReal_sub hb.2 f1).trans (by rw [Vector3.toReal_mul hg ht])
  · exact (Point3.toReal_subv hb.1 f2).trans (by rw [Vector3.toReal_mul hb.2 ht])
theorem pull_real3 {p : Point3 Ideal} (hp : AllFinite p) (hc : AllFinite c) (hk : IsFinite k) (ht : IsFinite dt) :
    AllFinite ((p - c : Vector3 Ideal) * k * dt) ∧ ((p - c : Vector3 Ideal) * k * dt).toReal = real dt • (real k • (p.toReal - c.toReal)) := by
  have f1 := Vector3.fin_subp hp hc
  have f2 := Vector3.fin_mul f1 hk
  refine ⟨Vector3.fin_mul f2 ht, ?_⟩
  rw [Vector3.toReal_mul f2 ht, Vector3.toReal_mul f1 hk, Vector3.toReal_subp hp hc]
theorem Body3.swing_real (hb : b.Finite) (hc : AllFinite c) (hk : IsFinite k) (ht : IsFinite dt) : (b.swing c k dt).Finite ∧
    (b.swing c k dt).velocity.toReal = b.velocity.toReal - real dt • (real k • (b.position.toReal - c.toReal)) ∧
    (b.swing c k dt).position.toReal = b.position.toReal + real dt • (b.velocity.toReal - real dt • (real k • (b.position.toReal - c.toReal))) := by
  obtain ⟨f1, e1⟩ := pull_real3 (k := k) (dt := dt) hb.1 hc hk ht
  have f2 := Vector3.fin_sub hb.2 f1
  have f3 := Vector3.fin_mul f2 ht
  refine ⟨⟨Point3.fin_addv hb.1 f3, f2⟩, ?_, ?_⟩
  · exact (Vector3.toReal_sub hb.2 f1).trans (by rw [e1])
  · exact (Point3.toReal_addv hb.1 f3).trans (by rw [Vector3.toReal_mul f2 ht, Vector3.toReal_sub hb.2 f1, e1])
theorem Body3.swingBack_real (hb : b.Finite) (hc : AllFinite c) (hk : IsFinite k) (ht : IsFinite dt) : (b.swingBack c k dt).Finite ∧
    (b.swingBack c k dt).velocity.toReal = b.velocity.toReal + real dt • (real k • (b.position.toReal - real dt • b.velocity.toReal - c.toReal)) ∧
    (b.swingBack c k dt).position.toReal = b.position.toReal - real dt • b.velocity.toReal := by
  have f1 := Vector3.fin_mul hb.2 ht
  have f2 := Point3.fin_subv hb.1 f1
  have e2 : (b.position - b.velocity * dt : Point3 Ideal).toReal = b.position.toReal - real dt • b.velocity.toReal :=
    (Point3.toReal_subv hb.1 f1).trans (by rw [Vector3.toReal_mul hb.2 ht])
  obtain ⟨f3, e3⟩ := pull_real3 (k := k) (dt := dt) f2 hc hk ht
  exact ⟨⟨f2, Vector3.fin_add hb.2 f3⟩, (Vector3.toReal_add hb.2 f3).trans (by rw [e3, e2]), e2⟩
theorem Body3.swingOld_real (hb : b.Finite) (hc : AllFinite c) (hk : IsFinite k) (ht : IsFinite dt) : (b.swingOld c k dt).Finite ∧
    (b.swingOld c k dt).velocity.toReal = b.velocity.toReal - real dt • (real k • (b.position.toReal - c.toReal)) ∧
    (b.swingOld c k dt).position.toReal = b.position.toReal + real dt • b.velocity.toReal := by
  obtain ⟨f1, e1⟩ := pull_real3 (k := k) (dt := dt) hb.1 hc hk ht
  have f2 := Vector3.fin_mul hb.2 ht
  refine ⟨⟨Point3.fin_addv hb.1 f2, Vector3.fin_sub hb.2 f1⟩, ?_, ?_⟩
  · exact (Vector3.toReal_sub hb.2 f1).trans (by rw [e1])
  · exact (Point3.toReal_addv hb.1 f2).trans (by rw [Vector3.toReal_mul hb.2 ht])
end
/-- **C129**: in exact arithmetic, after n steps of free fall, the velocity has changed by n dt g, and the position by n dt times the velocity plus
n (n + 1) / 2 times dt^2 g: the parabola and half a step more. -/
theorem C129_parabola3 (b : Body3 Ideal) (g : Vector3 Ideal) (dt : Ideal) (hb : b.Finite) (hg : AllFinite g) (ht : IsFinite dt) (n : ℕ) (i : Fin 3) :
    (stepped (Body3.fall g dt) n b).Finite ∧
    (stepped (Body3.fall g dt) n b).velocity.toReal i = b.velocity.toReal i + n * real dt * g.toReal i ∧
    (stepped (Body3.fall g dt) n b).position.toReal i = b.position.toReal i + n * real dt * b.velocity.toReal i + n * (n + 1) / 2 * real dt ^ 2 * g.toReal i := by
  induction n with
  | zero => exact ⟨hb, by simp [stepped_zero], by simp [stepped_zero]⟩
  | succ n ih =>
    obtain ⟨h1, h2, h3⟩ := ih
    obtain ⟨a, e1, e2⟩ := Body3.fall_real h1 hg ht
    rw [stepped_succ]
    refine ⟨a, ?_, ?_⟩
    · rw [e1, Pi.add_apply, Pi.smul_apply, h2, smul_eq_mul]; push_cast; ring
    · rw [e2, Pi.add_apply, Pi.smul_apply, Pi.add_apply, Pi.smul_apply, h2, h3, smul_eq_mul, smul_eq_mul]; push_cast; ring
/-- **C129**: in exact arithmetic n steps of free fall, taken back one by one, lead to the beginning. -/
theorem C129_rise3 (b : Body3 Ideal) (g : Vector3 Ideal) (dt : Ideal) (hb : b.Finite) (hg : AllFinite g) (ht : IsFinite dt) (n : ℕ) :
    (stepped (Body3.rise g dt) n (stepped (Body3.fall g dt) n b)).Same b := by
  refine stepped_back (P := Body3.Finite) (R := Body3.Same) _ _ (fun b h => (Body3.fall_real h hg ht).1) (fun a b c h h' => ⟨h.1.trans h'.1, h.2.trans h'.2⟩)
    (fun b _ => ⟨rfl, rfl⟩) ?_ (fun b h => (Body3.rise_real h hg ht).1) ?_ n b hb
  · intro b h
    obtain ⟨a, e1, e2⟩ := Body3.fall_real h hg ht
    obtain ⟨-, e3, e4⟩ := Body3.rise_real a hg ht
    refine ⟨?_, ?_⟩
    · rw [e4, e1, e2]; abel
    · rw [e3, e1]; abel
  · intro a b ha hb h
    obtain ⟨-, e1, e2⟩ := Body3.rise_real ha hg ht
    obtain ⟨-, e3, e4⟩ := Body3.rise_real hb hg ht
    exact ⟨by rw [e2, e4, h.1, h.2], by rw [e1, e3, h.2]⟩
/-- **C129**: in exact arithmetic n steps on a spring, taken back one by one, lead to the beginning. -/
theorem C129_swingBack3 (b : Body3 Ideal) (c : Point3 Ideal) (k dt : Ideal) (hb : b.Finite) (hc : AllFinite c) (hk : IsFinite k) (ht : IsFinite dt) (n : ℕ) :
    (stepped (Body3.swingBack c k dt) n (stepped (Body3.swing c k dt) n b)).Same b := by
  refine stepped_back (P := Body3.Finite) (R := Body3.Same) _ _ (fun b h => (Body3.swing_real h hc hk ht).1) (fun a b c h h' => ⟨h.1.trans h'.1, h.2.trans h'.2⟩)
    (fun b _ => ⟨rfl, rfl⟩) ?_ (fun b h => (Body3.swingBack_real h hc hk ht).1) ?_ n b hb
  · intro b h
    obtain ⟨a, e1, e2⟩ := Body3.swing_real h hc hk ht
    obtain ⟨-, e3, e4⟩ := Body3.swingBack_real a hc hk ht
    have e5 : (b.swing c k dt).position.toReal - real dt • (b.swing c k dt).velocity.toReal = b.position.toReal := by rw [e1, e2]; abel
    refine ⟨by rw [e4, e5], ?_⟩
    rw [e3, e5, e1]; abel
  · intro a b ha hb h
    obtain ⟨-, e1, e2⟩ := Body3.swingBack_real ha hc hk ht
    obtain ⟨-, e3, e4⟩ := Body3.swingBack_real hb hc hk ht
    exact ⟨by rw [e2, e4, h.1, h.2], by rw [e1, e3, h.1, h.2]⟩
/-- **C129**: in exact arithmetic the simulated spring keeps the number |v|^2 + k |x|^2 - k dt (x . v) for ever, x being the position seen from the fixed end. -/
theorem C129_energy3 (b : Body3 Ideal) (c : Point3 Ideal) (k dt : Ideal) (hb : b.Finite) (hc : AllFinite c) (hk : IsFinite k) (ht : IsFinite dt) (n : ℕ) :
    let r := stepped (Body3.swing c k dt) n b
    r.Finite ∧ springEnergy (real k) (real dt) (r.position.toReal - c.toReal) r.velocity.toReal
      = springEnergy (real k) (real dt) (b.position.toReal - c.toReal) b.velocity.toReal := by
  induction n with
  | zero => exact ⟨hb, rfl⟩
  | succ n ih =>
    obtain ⟨h1, h2⟩ := ih
    obtain ⟨a, e1, e2⟩ := Body3.swing_real h1 hc hk ht
    show (stepped _ (n + 1) b).Finite ∧ _
    rw [stepped_succ]
    refine ⟨a, ?_⟩
    rw [← h2, e1, e2, add_sub_right_comm]
    exact spring_keeps _ _ _ _
/-- **C129**: so for a positive stiffness with k dt^2 < 4 the body stays within a bounded distance of the fixed end for ever. -/
theorem C129_bounded3 (b : Body3 Ideal) (c : Point3 Ideal) (k dt : Ideal) (hb : b.Finite) (hc : AllFinite c) (hk : IsFinite k) (ht : IsFinite dt)
    (h0 : 0 < real k) (h4 : real k * real dt ^ 2 < 4) (n : ℕ) :
    let r := stepped (Body3.swing c k dt) n b
    (r.position.toReal - c.toReal) ⬝ᵥ (r.position.toReal - c.toReal)
      ≤ springEnergy (real k) (real dt) (b.position.toReal - c.toReal) b.velocity.toReal / (real k * (1 - real k * real dt ^ 2 / 4)) := by
  intro r
  rw [← (C129_energy3 b c k dt hb hc hk ht n).2]
  exact spring_bound h0 h4 _ _
/-- **C129**: with the old velocity the energy |v|^2 + k |x|^2 of the spring is multiplied by 1 + k dt^2 in every step. -/
theorem C129_grows3 (b : Body3 Ideal) (c : Point3 Ideal) (k dt : Ideal) (hb : b.Finite) (hc : AllFinite c) (hk : IsFinite k) (ht : IsFinite dt) (n : ℕ) :
    let r := stepped (Body3.swingOld c k dt) n b
    r.Finite ∧ r.velocity.toReal ⬝ᵥ r.velocity.toReal + real k * ((r.position.toReal - c.toReal) ⬝ᵥ (r.position.toReal - c.toReal))
      = (1 + real k * real dt ^ 2) ^ n * (b.velocity.toReal ⬝ᵥ b.velocity.toReal + real k * ((b.position.toReal - c.toReal) ⬝ᵥ (b.position.toReal - c.toReal))) := by
  induction n with
  | zero => exact ⟨hb, by rw [pow_zero, one_mul]; rfl⟩
  | succ n ih =>
    obtain ⟨h1, h2⟩ := ih
    obtain ⟨a, e1, e2⟩ := Body3.swingOld_real h1 hc hk ht
    show (stepped _ (n + 1) b).Finite ∧ _
    rw [stepped_succ]
    refine ⟨a, ?_⟩
    rw [e1, e2, add_sub_right_comm, spring_grows, h2, pow_succ]
    ring
/-- **C129**: so with the old velocity the energy of a body that does not rest at the fixed end exceeds every bound. -/
theorem C129_unbounded3 (b : Body3 Ideal) (c : Point3 Ideal) (k dt : Ideal) (hb : b.Finite) (hc : AllFinite c) (hk : IsFinite k) (ht : IsFinite dt)
    (h0 : 0 < real k) (h4 : real dt ≠ 0) (h : b.position.toReal ≠ c.toReal ∨ b.velocity.toReal ≠ 0) (C : ℝ) : ∃ n,
    let r := stepped (Body3.swingOld c k dt) n b
    C < r.velocity.toReal ⬝ᵥ r.velocity.toReal + real k * ((r.position.toReal - c.toReal) ⬝ᵥ (r.position.toReal - c.toReal)) := by
  have nn : ∀ u : Fin 3 → ℝ, 0 ≤ u ⬝ᵥ u := fun u => Finset.sum_nonneg fun i _ => mul_self_nonneg _
  have e : 0 < b.velocity.toReal ⬝ᵥ b.velocity.toReal + real k * ((b.position.toReal - c.toReal) ⬝ᵥ (b.position.toReal - c.toReal)) := by
    rcases h with h | h
    · have : 0 < (b.position.toReal - c.toReal) ⬝ᵥ (b.position.toReal - c.toReal) :=
        lt_of_le_of_ne (nn _) fun z => h (sub_eq_zero.1 (dotProduct_self_eq_zero.1 z.symm))
      have := nn b.velocity.toReal
      positivity
    · have : 0 < b.velocity.toReal ⬝ᵥ b.velocity.toReal := lt_of_le_of_ne (nn _) fun z => h (dotProduct_self_eq_zero.1 z.symm)
      have := mul_nonneg h0.le (nn (b.position.toReal - c.toReal))
      linarith
  have g : 1 < 1 + real k * real dt ^ 2 := by
    have := mul_pos h0 (pow_pos (abs_pos.2 h4) 2)
    rw [sq_abs] at this
    linarith
  obtain ⟨n, hn⟩ := pow_unbounded_of_one_lt (C / (b.velocity.toReal ⬝ᵥ b.velocity.toReal + real k * ((b.position.toReal - c.toReal) ⬝ᵥ (b.position.toReal - c.toReal)))) g
  refine ⟨n, ?_⟩
  show C < _
  rw [(C129_grows3 b c k dt hb hc hk ht n).2]
  exact (div_lt_iff₀ e).1 hn

end VecMath

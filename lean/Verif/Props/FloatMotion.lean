import Verif.Props.RealMotion
import Verif.Props.FloatFrame
import Verif.Props.FloatSymmetry
/-!
# C129: simulated motion in floating point
-/

namespace VecMath
open Scalar IEEE

section
variable {B V : Type}
/-- What one step does not change, no number of steps changes. -/
theorem stepped_fixed (step : B → B) (vel : B → V) (h : ∀ a b, vel a = vel b → vel (step a) = vel (step b)) (b : B) (e : vel (step b) = vel b) (n : ℕ) :
    vel (stepped step n b) = vel b := by
  induction n with
  | zero => rfl
  | succ n ih => rw [stepped_succ]; exact (h _ _ ih).trans e
end
section
variable {S : Type} [Scalar S] [IEEE S]
theorem mirror_fall {v v' g t : S} (h : num v' = num (-v)) : num (v' + -g * t) = num (-(v + g * t)) := by
  rw [← num_neg_add]; exact num_add_congr h (same_neg_mul g t).num
theorem mirror_move {p p' v v' t : S} (hp : num p' = num (-p)) (hv : num v' = num (-v)) : num (p' + v' * t) = num (-(p + v * t)) := by
  rw [← num_neg_add]; exact num_add_congr hp ((num_mul_congr hv rfl).trans (same_neg_mul v t).num)
theorem mirror_pull {p p' c k t : S} (hp : num p' = num (-p)) : num ((p' - -c) * k * t) = num (-((p - c) * k * t)) := by
  refine (num_mul_congr (num_mul_congr ((num_sub_congr hp rfl).trans (num_neg_sub p c)) rfl) rfl).trans ?_
  exact (num_mul_congr (same_neg_mul _ _).num rfl).trans (same_neg_mul _ _).num
theorem mirror_brake {v v' w w' : S} (hv : num v' = num (-v)) (hw : num w' = num (-w)) : num (v' - w') = num (-(v - w)) := by
  rw [← num_neg_sub]; exact num_sub_congr hv hw
end

/-! ## Dimension 2 -/
section
variable {S : Type} [Scalar S] [IEEE S]
theorem Point2.agreeAll {a b : Point2 S} : AgreeAll a b ↔ num a.x = num b.x ∧ num a.y = num b.y := by simp [AgreeAll, Comps.comps, agree_iff]
/-- The mirrored body. -/
def Body2.Mirrored (b b' : Body2 S) : Prop :=
  (num b'.position.x = num (-b.position.x) ∧ num b'.position.y = num (-b.position.y)) ∧ num b'.velocity.x = num (-b.velocity.x) ∧ num b'.velocity.y = num (-b.velocity.y)
/-- **C129**: in every floating-point format, the body thrown from the opposite place with the opposite velocity and acceleration is at the opposite place,
with the opposite velocity, after any number of steps. -/
theorem C129_mirror2 (b : Body2 S) (g : Vector2 S) (dt : S) (n : ℕ) :
    AgreeAll (stepped (Body2.fall (-g) dt) n b.mirror).position (-(stepped (Body2.fall g dt) n b).position) ∧
    AgreeAll (stepped (Body2.fall (-g) dt) n b.mirror).velocity (-(stepped (Body2.fall g dt) n b).velocity) := by
  have key : (stepped (Body2.fall g dt) n b).Mirrored (stepped (Body2.fall (-g) dt) n b.mirror) := by
    induction n with
    | zero => exact ⟨⟨rfl, rfl⟩, rfl, rfl⟩
    | succ n ih =>
      rw [stepped_succ, stepped_succ]
      obtain ⟨⟨h1, h2⟩, h3, h4⟩ := ih
      exact ⟨⟨mirror_move h1 (mirror_fall h3), mirror_move h2 (mirror_fall h4)⟩, mirror_fall h3, mirror_fall h4⟩
  exact ⟨Point2.agreeAll.2 key.1, Vector2.agreeAll.2 key.2⟩
/-- **C129**: the same for springs fixed at opposite places. -/
theorem C129_mirror_swing2 (b : Body2 S) (c : Point2 S) (k dt : S) (n : ℕ) :
    AgreeAll (stepped (Body2.swing (-c) k dt) n b.mirror).position (-(stepped (Body2.swing c k dt) n b).position) ∧
    AgreeAll (stepped (Body2.swing (-c) k dt) n b.mirror).velocity (-(stepped (Body2.swing c k dt) n b).velocity) := by
  have key : (stepped (Body2.swing c k dt) n b).Mirrored (stepped (Body2.swing (-c) k dt) n b.mirror) := by
    induction n with
    | zero => exact ⟨⟨rfl, rfl⟩, rfl, rfl⟩
    | succ n ih =>
      rw [stepped_succ, stepped_succ]
      obtain ⟨⟨h1, h2⟩, h3, h4⟩ := ih
      have v1 := mirror_brake h3 (mirror_pull (c := c.x) (k := k) (t := dt) h1)
      have v2 := mirror_brake h4 (mirror_pull (c := c.y) (k := k) (t := dt) h2)
      exact ⟨⟨mirror_move h1 v1, mirror_move h2 v2⟩, v1, v2⟩
  exact ⟨Point2.agreeAll.2 key.1, Vector2.agreeAll.2 key.2⟩
omit [IEEE S] in
/-- **C129**: a velocity that one step of free fall does not change never changes. -/
theorem C129_terminal2 (b : Body2 S) (g : Vector2 S) (dt : S) (h : (b.fall g dt).velocity = b.velocity) (n : ℕ) :
    (stepped (Body2.fall g dt) n b).velocity = b.velocity :=
  stepped_fixed _ Body2.velocity (fun _ _ e => by
    show Vector2.addAssign _ _ = Vector2.addAssign _ _
    rw [e]) b h n
/-- **C129**: a body at rest at the fixed end of the spring stays there for ever, in every floating-point format. -/
theorem C129_rest2 (b : Body2 S) (c : Point2 S) (k dt : S) (hk : IsFinite k) (ht : IsFinite dt) (hc : AllFinite c)
    (hp : (b.position == c) = true) (hv : (b.velocity == Vector2.zero) = true) (n : ℕ) :
    ((stepped (Body2.swing c k dt) n b).position == c) = true ∧ ((stepped (Body2.swing c k dt) n b).velocity == Vector2.zero) = true := by
  have one : ∀ {p c v : S}, IsFinite c → num p = num c → num v = num (zero : S) →
      num (v - (p - c) * k * dt) = num (zero : S) ∧ num (p + (v - (p - c) * k * dt) * dt) = num c := by
    intro p c v hc hp hv
    have e1 : num (p - c) = num (zero : S) := (num_sub_congr hp rfl).trans (same_sub_self hc).num
    have e2 : num ((p - c) * k * dt) = num (zero : S) :=
      (num_mul_congr ((num_mul_congr e1 rfl).trans (IEEE.num_zero_mul hk)) rfl).trans (IEEE.num_zero_mul ht)
    have e3 : num (v - (p - c) * k * dt) = num (zero : S) := (num_sub_congr hv e2).trans (same_sub_self finite_zero).num
    exact ⟨e3, (num_add_congr hp ((num_mul_congr e3 rfl).trans (IEEE.num_zero_mul ht))).trans (num_add_zero _)⟩
  rw [Point2.allFinite] at hc
  have key : (num (stepped (Body2.swing c k dt) n b).position.x = num c.x ∧ num (stepped (Body2.swing c k dt) n b).position.y = num c.y) ∧
      num (stepped (Body2.swing c k dt) n b).velocity.x = num (zero : S) ∧ num (stepped (Body2.swing c k dt) n b).velocity.y = num (zero : S) := by
    induction n with
    | zero =>
      rw [Point2.beq_iff] at hp
      rw [Vector2.beq_iff] at hv
      exact ⟨⟨num_of_beq hp.1, num_of_beq hp.2⟩, num_of_beq hv.1, num_of_beq hv.2⟩
    | succ n ih =>
      rw [stepped_succ]
      obtain ⟨⟨h1, h2⟩, h3, h4⟩ := ih
      obtain ⟨a1, b1⟩ := one hc.1 h1 h3
      obtain ⟨a2, b2⟩ := one hc.2 h2 h4
      exact ⟨⟨b1, b2⟩, a1, a2⟩
  obtain ⟨⟨h1, h2⟩, h3, h4⟩ := key
  rw [Point2.beq_iff, Vector2.beq_iff]
  exact ⟨⟨beq_of_num' h1 hc.1.not_nan, beq_of_num' h2 hc.2.not_nan⟩, beq_of_num' h3 finite_zero.not_nan, beq_of_num' h4 finite_zero.not_nan⟩
end
section
variable {S : Type} [Scalar S] [IEEE S] [Binary S]
/-- **C129**: no rounding turns a falling body back: the velocity never decreases along an axis on which the acceleration does not point backwards, and the position
never decreases along an axis on which the new velocity does not. -/
theorem C129_forward2 (b : Body2 S) (g : Vector2 S) (dt : S) (n : ℕ) (h : (stepped (Body2.fall g dt) (n + 1) b).Finite) (i : Fin 2) :
    (0 ≤ (g * dt).toReal i → (stepped (Body2.fall g dt) n b).velocity.toReal i ≤ (stepped (Body2.fall g dt) (n + 1) b).velocity.toReal i) ∧
    (0 ≤ ((stepped (Body2.fall g dt) (n + 1) b).velocity * dt).toReal i →
      (stepped (Body2.fall g dt) n b).position.toReal i ≤ (stepped (Body2.fall g dt) (n + 1) b).position.toReal i) := by
  obtain ⟨hp, hv⟩ := h
  rw [stepped_succ] at hp hv ⊢
  rw [Point2.allFinite] at hp
  rw [Vector2.allFinite] at hv
  fin_cases i
  · exact ⟨fun k => le_add_right_real hv.1 k, fun k => le_add_right_real hp.1 k⟩
  · exact ⟨fun k => le_add_right_real hv.2 k, fun k => le_add_right_real hp.2 k⟩
end

/-! ## Dimension 3 -/
section
variable {S : Type} [Scalar S] [IEEE S]
theorem Point3.agreeAll {a b : Point3 S} : AgreeAll a b ↔ num a.x = num b.x ∧ num a.y = num b.y ∧ num a.z = num b.z := by simp [AgreeAll, Comps.comps, agree_iff]
/-- The mirrored body. -/
def Body3.Mirrored (b b' : Body3 S) : Prop :=
  (num b'.position.x = num (-b.position.x) ∧ num b'.position.y = num (-b.position.y) ∧ num b'.position.z = num (-b.position.z)) ∧ num b'.velocity.x = num (-b.velocity.x) ∧ num b'.velocity.y = num (-b.velocity.y) ∧ num b'.velocity.z = num (-b.velocity.z)
/-- **C129**: in every floating-point format, the body thrown from the opposite place with the opposite velocity and acceleration is at the opposite place,
with the opposite velocity, after any number of steps. -/
theorem C129_mirror3 (b : Body3 S) (g : Vector3 S) (dt : S) (n : ℕ) :
    AgreeAll (stepped (Body3.fall (-g) dt) n b.mirror).position (-(stepped (Body3.fall g dt) n b).position) ∧
    AgreeAll (stepped (Body3.fall (-g) dt) n b.mirror).velocity (-(stepped (Body3.fall g dt) n b).velocity) := by
  have key : (stepped (Body3.fall g dt) n b).Mirrored (stepped (Body3.fall (-g) dt) n b.mirror) := by
    induction n with
    | zero => exact ⟨⟨rfl, rfl, rfl⟩, rfl, rfl, rfl⟩
    | succ n ih =>
      rw [stepped_succ, stepped_succ]
      obtain ⟨⟨h1, h2, h5⟩, h3, h4, h6⟩ := ih
      exact ⟨⟨mirror_move h1 (mirror_fall h3), mirror_move h2 (mirror_fall h4), mirror_move h5 (mirror_fall h6)⟩, mirror_fall h3, mirror_fall h4, mirror_fall h6⟩
  exact ⟨Point3.agreeAll.2 key.1, Vector3.agreeAll.2 key.2⟩
/-- **C129**: the same for springs fixed at opposite places. -/
theorem C129_mirror_swing3 (b : Body3 S) (c : Point3 S) (k dt : S) (n : ℕ) :
    AgreeAll (stepped (Body3.swing (-c) k dt) n b.mirror).position (-(stepped (Body3.swing c k dt) n b).position) ∧
    AgreeAll (stepped (Body3.swing (-c) k dt) n b.mirror).velocity (-(stepped (Body3.swing c k dt) n b).velocity) := by
  have key : (stepped (Body3.swing c k dt) n b).Mirrored (stepped (Body3.swing (-c) k dt) n b.mirror) := by
    induction n with
    | zero => exact ⟨⟨rfl, rfl, rfl⟩, rfl, rfl, rfl⟩
    | succ n ih =>
      rw [stepped_succ, stepped_succ]
      obtain ⟨⟨h1, h2, h5⟩, h3, h4, h6⟩ := ih
      have v1 := mirror_brake h3 (mirror_pull (c := c.x) (k := k) (t := dt) h1)
      have v2 := mirror_brake h4 (mirror_pull (c := c.y) (k := k) (t := dt) h2)
      have v3 := mirror_brake h6 (mirror_pull (c := c.z) (k := k) (t := dt) h5)
      exact ⟨⟨mirror_move h1 v1, mirror_move h2 v2, mirror_move h5 v3⟩, v1, v2, v3⟩
  exact ⟨Point3.agreeAll.2 key.1, Vector3.agreeAll.2 key.2⟩
omit [IEEE S] in
/-- **C129**: a velocity that one step of free fall does not change never changes. -/
theorem C129_terminal3 (b : Body3 S) (g : Vector3 S) (dt : S) (h : (b.fall g dt).velocity = b.velocity) (n : ℕ) :
    (stepped (Body3.fall g dt) n b).velocity = b.velocity :=
  stepped_fixed _ Body3.velocity (fun _ _ e => by
    show Vector3.addAssign _ _ = Vector3.addAssign _ _
    rw [e]) b h n
/-- **C129**: a body at rest at the fixed end of the spring stays there for ever, in every floating-point format. -/
theorem C129_rest3 (b : Body3 S) (c : Point3 S) (k dt : S) (hk : IsFinite k) (ht : IsFinite dt) (hc : AllFinite c)
    (hp : (b.position == c) = true) (hv : (b.velocity == Vector3.zero) = true) (n : ℕ) :
    ((stepped (Body3.swing c k dt) n b).position == c) = true ∧ ((stepped (Body3.swing c k dt) n b).velocity == Vector3.zero) = true := by
  have one : ∀ {p c v : S}, IsFinite c → num p = num c → num v = num (zero : S) →
      num (v - (p - c) * k * dt) = num (zero : S) ∧ num (p + (v - (p - c) * k * dt) * dt) = num c := by
    intro p c v hc hp hv
    have e1 : num (p - c) = num (zero : S) := (num_sub_congr hp rfl).trans (same_sub_self hc).num
    have e2 : num ((p - c) * k * dt) = num (zero : S) :=
      (num_mul_congr ((num_mul_congr e1 rfl).trans (IEEE.num_zero_mul hk)) rfl).trans (IEEE.num_zero_mul ht)
    have e3 : num (v - (p - c) * k * dt) = num (zero : S) := (num_sub_congr hv e2).trans (same_sub_self finite_zero).num
    exact ⟨e3, (num_add_congr hp ((num_mul_congr e3 rfl).trans (IEEE.num_zero_mul ht))).trans (num_add_zero _)⟩
  rw [Point3.allFinite] at hc
  have key : (num (stepped (Body3.swing c k dt) n b).position.x = num c.x ∧ num (stepped (Body3.swing c k dt) n b).position.y = num c.y ∧ num (stepped (Body3.swing c k dt) n b).position.z = num c.z) ∧
      num (stepped (Body3.swing c k dt) n b).velocity.x = num (zero : S) ∧ num (stepped (Body3.swing c k dt) n b).velocity.y = num (zero : S) ∧ num (stepped (Body3.swing c k dt) n b).velocity.z = num (zero : S) := by
    induction n with
    | zero =>
      rw [Point3.beq_iff] at hp
      rw [Vector3.beq_iff] at hv
      exact ⟨⟨num_of_beq hp.1, num_of_beq hp.2.1, num_of_beq hp.2.2⟩, num_of_beq hv.1, num_of_beq hv.2.1, num_of_beq hv.2.2⟩
    | succ n ih =>
      rw [stepped_succ]
      obtain ⟨⟨h1, h2, h5⟩, h3, h4, h6⟩ := ih
      obtain ⟨a1, b1⟩ := one hc.1 h1 h3
      obtain ⟨a2, b2⟩ := one hc.2.1 h2 h4
      obtain ⟨a3, b3⟩ := one hc.2.2 h5 h6
      exact ⟨⟨b1, b2, b3⟩, a1, a2, a3⟩
  obtain ⟨⟨h1, h2, h5⟩, h3, h4, h6⟩ := key
  rw [Point3.beq_iff, Vector3.beq_iff]
  exact ⟨⟨beq_of_num' h1 hc.1.not_nan, beq_of_num' h2 hc.2.1.not_nan, beq_of_num' h5 hc.2.2.not_nan⟩, beq_of_num' h3 finite_zero.not_nan, beq_of_num' h4 finite_zero.not_nan,
    beq_of_num' h6 finite_zero.not_nan⟩
end
section
variable {S : Type} [Scalar S] [IEEE S] [Binary S]
/-- **C129**: no rounding turns a falling body back: the velocity never decreases along an axis on which the acceleration does not point backwards, and the position
never decreases along an axis on which the new velocity does not. -/
theorem C129_forward3 (b : Body3 S) (g : Vector3 S) (dt : S) (n : ℕ) (h : (stepped (Body3.fall g dt) (n + 1) b).Finite) (i : Fin 3) :
    (0 ≤ (g * dt).toReal i → (stepped (Body3.fall g dt) n b).velocity.toReal i ≤ (stepped (Body3.fall g dt) (n + 1) b).velocity.toReal i) ∧
    (0 ≤ ((stepped (Body3.fall g dt) (n + 1) b).velocity * dt).toReal i →
      (stepped (Body3.fall g dt) n b).position.toReal i ≤ (stepped (Body3.fall g dt) (n + 1) b).position.toReal i) := by
  obtain ⟨hp, hv⟩ := h
  rw [stepped_succ] at hp hv ⊢
  rw [Point3.allFinite] at hp
  rw [Vector3.allFinite] at hv
  fin_cases i
  · exact ⟨fun k => le_add_right_real hv.1 k, fun k => le_add_right_real hp.1 k⟩
  · exact ⟨fun k => le_add_right_real hv.2.1 k, fun k => le_add_right_real hp.2.1 k⟩
  · exact ⟨fun k => le_add_right_real hv.2.2 k, fun k => le_add_right_real hp.2.2 k⟩
end

end VecMath

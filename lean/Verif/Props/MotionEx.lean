import Verif.Props.FloatMotion
import Verif.Props.MarchEx
/-! # C129: the hypotheses are met; in `f32` a falling body stops getting faster -/

namespace VecMath
open Scalar IEEE

theorem motion_rnd_a : binary32.rnd ((-1 : ℝ) * (1 / 2)) = -(1 / 2) := by
  rw [show ((-1 : ℝ) * (1 / 2)) = -(1 / 2) by norm_num, binary32.rnd_neg, binary32.rnd_lit (-1) (-24) 8388608 (by decide)]
  all_goals norm_num
theorem motion_rnd_b : binary32.rnd ((-16777216 : ℝ) + -(1 / 2)) = -16777216 := by
  rw [show ((-16777216 : ℝ) + -(1 / 2)) = -(16777216 + 1 / 2) by norm_num, binary32.rnd_neg, binary32.rnd_lit 24 1 8388608 (by decide)]
  all_goals norm_num
noncomputable def motionBody : Body2 F32 := ⟨pt2 0 0, vec2 0 (-16777216)⟩
noncomputable def motionGravity : Vector2 F32 := vec2 0 (-1)
theorem motion_step (b : Body2 F32) (hx : Exactly b.velocity.x 0) (hy : Exactly b.velocity.y (-16777216)) :
    Exactly (b.fall motionGravity half).velocity.x 0 ∧ Exactly (b.fall motionGravity half).velocity.y (-16777216) := by
  constructor
  · exact march_plus hx (march_zero_left (show Exactly (int32 0 : F32) 0 from ⟨finite_int32, by rw [real_int32]; norm_num⟩) exactly_half)
  · have m1 : Exactly (int32 (-1) : F32) (-1) := ⟨finite_int32, by rw [real_int32]; norm_num⟩
    exact exec_add hy (exec_mul m1 exactly_half motion_rnd_a (clip_big (by norm_num [abs_le]))) motion_rnd_b (clip_big (by norm_num [abs_le]))
theorem motion_velocity (n : ℕ) : Exactly (stepped (Body2.fall motionGravity half) n motionBody).velocity.x 0 ∧
    Exactly (stepped (Body2.fall motionGravity half) n motionBody).velocity.y (-16777216) := by
  induction n with
  | zero => exact ⟨show Exactly (int32 0 : F32) 0 from ⟨finite_int32, by rw [real_int32]; norm_num⟩,
      show Exactly (int32 (-16777216) : F32) (-16777216) from ⟨finite_int32, by rw [real_int32]; norm_num⟩⟩
  | succ n ih => rw [stepped_succ]; exact motion_step _ ih.1 ih.2
/-- **C129**, where it fails in floating point: in exact arithmetic n steps change the velocity of a falling body by n dt g. In `f32` the velocity
`(0, -2^24)` with the acceleration `(0, -1)` and steps of 1/2 is the same for ever. -/
theorem C129_stall : ∃ (b : Body2 F32) (g : Vector2 F32) (dt : F32), b.Finite ∧ AllFinite g ∧ Exactly dt (1 / 2) ∧ g.toReal = ![0, -1] ∧
    ∀ n, AllFinite (stepped (Body2.fall g dt) n b).velocity ∧ (stepped (Body2.fall g dt) n b).velocity.toReal = ![0, -16777216] := by
  refine ⟨motionBody, motionGravity, half, ⟨finite_pt2, finite_vec2⟩, finite_vec2, exactly_half, ?_, fun n => ?_⟩
  · funext i; fin_cases i <;> simp [motionGravity, Vector2.toReal, vec2, real_int32]
  · obtain ⟨hx, hy⟩ := motion_velocity n
    refine ⟨Vector2.allFinite.2 ⟨hx.1, hy.1⟩, ?_⟩
    funext i
    fin_cases i
    exacts [hx.2, hy.2]

/-! ## The hypotheses are met -/
theorem motion_ideal : (⟨⟨.of 3, .of 0⟩, ⟨.of 0, .of 1⟩⟩ : Body2 Ideal).Finite :=
  ⟨Point2.allFinite.2 ⟨trivial, trivial⟩, Vector2.allFinite.2 ⟨trivial, trivial⟩⟩
/-- A spring of stiffness 1 with steps of 1: the body that starts at (3, 0) with the velocity (0, 1) never gets farther away than √(10 / (3/4)). -/
example (n : ℕ) : ((stepped (Body2.swing ⟨.of 0, .of 0⟩ (.of 1) (.of 1)) n (⟨⟨.of 3, .of 0⟩, ⟨.of 0, .of 1⟩⟩ : Body2 Ideal)).position.toReal - 0) ⬝ᵥ
    ((stepped (Body2.swing ⟨.of 0, .of 0⟩ (.of 1) (.of 1)) n (⟨⟨.of 3, .of 0⟩, ⟨.of 0, .of 1⟩⟩ : Body2 Ideal)).position.toReal - 0) ≤ 10 / (3 / 4) := by
  have z : (⟨.of 0, .of 0⟩ : Point2 Ideal).toReal = 0 := by funext i; fin_cases i <;> rfl
  have := C129_bounded2 ⟨⟨.of 3, .of 0⟩, ⟨.of 0, .of 1⟩⟩ ⟨.of 0, .of 0⟩ (.of 1) (.of 1) motion_ideal (Point2.allFinite.2 ⟨trivial, trivial⟩) trivial trivial
    (show (0 : ℝ) < 1 by norm_num) (show (1 : ℝ) * 1 ^ 2 < 4 by norm_num) n
  rw [z] at this
  refine this.trans (le_of_eq ?_)
  have hx : (⟨.of 3, .of 0⟩ : Point2 Ideal).toReal = ![3, 0] := by funext i; fin_cases i <;> rfl
  have hv : (⟨.of 0, .of 1⟩ : Vector2 Ideal).toReal = ![0, 1] := by funext i; fin_cases i <;> rfl
  show springEnergy 1 1 ((⟨.of 3, .of 0⟩ : Point2 Ideal).toReal - 0) (⟨.of 0, .of 1⟩ : Vector2 Ideal).toReal / (1 * (1 - 1 * 1 ^ 2 / 4)) = _
  rw [hx, hv]
  simp [springEnergy, dotProduct, Fin.sum_univ_two]
  norm_num
/-- In `f32` a body falls one step: the position and the velocity are finite. -/
example : (stepped (Body2.fall motionGravity half) 0 motionBody).Finite := ⟨finite_pt2, finite_vec2⟩

end VecMath

import Verif.Props.FloatDamp
import Verif.Props.FloatExamples
import Verif.Props.FloatMonoInt
/-! # Concrete instances for C100 -/

open Classical

namespace VecMath
open Scalar IEEE

/-- `0.75` -/
noncomputable def damp32 : F32 := Fl.of (F := binary32) (3 / 4) ⟨3, -2, by decide, by decide, by norm_num⟩ (by
  show |(3 / 4 : ℝ)| < 2 ^ (128 : ℤ); norm_num [abs_of_pos])
theorem damp_ok : (Factor.times damp32).Ok ∧ (Factor.times damp32).exact = 3 / 4 := ⟨trivial, rfl⟩
theorem over_int {n : ℤ} {h} (h0 : n ≠ 0) : (Factor.over (int32 n h)).Ok ∧ (Factor.over (int32 n h)).exact = (n : ℝ)⁻¹ :=
  ⟨⟨finite_int32, by rw [real_int32]; exact_mod_cast h0⟩, by show (real (int32 n h))⁻¹ = _; rw [real_int32]⟩
theorem times_int {n : ℤ} {h} : (Factor.times (int32 n h)).Ok ∧ (Factor.times (int32 n h)).exact = n :=
  ⟨finite_int32, real_int32⟩
theorem damp_mem {n : ℕ} : ∀ f ∈ List.replicate n (Factor.times damp32), f.Ok ∧ 1 / 2 < f.exact ∧ f.exact ≤ 1 := by
  intro f hf
  rw [(List.mem_replicate.1 hf).2, damp_ok.2]
  exact ⟨damp_ok.1, by norm_num, by norm_num⟩

/-- A velocity of `(3, 4)`, multiplied by 0.75 any number of times, never stops: both components stay positive. -/
theorem C100_never_stops (n : ℕ) (d : Dimension2) : 0 < real ((v34.rescale (List.replicate n (.times damp32))).index d) := by
  refine (C100_keeps_Vector2 v34 _ finite_v34 damp_mem d).1 ?_
  cases d
  · show 0 < real (int32 3); rw [real_int32]; norm_num
  · show 0 < real (int32 4); rw [real_int32]; norm_num
/-- `f32`: 278 halvings extinguish everything. -/
theorem C100_halvings32 (v : Vector3 F32) (l : List (Factor F32)) (hv : AllFinite v) (h : ∀ f ∈ l, f.Ok ∧ |f.exact| ≤ 1 / 2)
    (hl : 278 ≤ l.length) (d : Dimension3) : ((v.rescale l).index d == zero) = true :=
  C100_vanishes_Vector3 v l hv h (by
    show (128 : ℤ) - (-149) + 1 ≤ l.length
    omega) d
/-- `f64`: 2099 halvings extinguish everything. -/
theorem C100_halvings64 (v : Vector3 F64) (l : List (Factor F64)) (hv : AllFinite v) (h : ∀ f ∈ l, f.Ok ∧ |f.exact| ≤ 1 / 2)
    (hl : 2099 ≤ l.length) (d : Dimension3) : ((v.rescale l).index d == zero) = true :=
  C100_vanishes_Vector3 v l hv h (by
    show (1024 : ℤ) - (-1074) + 1 ≤ l.length
    omega) d

example := C100_shrinks_Vector2 v34 [.times damp32, .over (int32 (-3))] finite_v34 (by
  intro f hf
  simp only [List.mem_cons, List.not_mem_nil, or_false] at hf
  rcases hf with rfl | rfl
  · rw [damp_ok.2]; exact ⟨damp_ok.1, by norm_num [abs_of_pos]⟩
  · rw [(over_int (by norm_num)).2]; exact ⟨(over_int (by norm_num)).1, by norm_num [abs_of_pos]⟩)
example := C100_length_Vector3 v236 [.over (int32 3)] finite_v236 (by
  intro f hf
  simp only [List.mem_cons, List.not_mem_nil, or_false] at hf
  rw [hf, (over_int (by norm_num)).2]; exact ⟨(over_int (by norm_num)).1, by norm_num [abs_of_pos]⟩)
example := C100_stuck_Vector2 v34 finite_v34 (.times damp32) damp_ok.1 (by rw [damp_ok.2]; norm_num) (by rw [damp_ok.2]; norm_num)
example := C100_halvings32 v236 (List.replicate 300 (.over (int32 2))) finite_v236 (by
  intro f hf
  rw [(List.mem_replicate.1 hf).2, (over_int (by norm_num)).2]
  exact ⟨(over_int (by norm_num)).1, by norm_num [abs_of_pos]⟩) (by rw [List.length_replicate]; norm_num)
/-- `(3, 4) *= 4`, then `/= 4` -/
theorem four_back : (v34.rescale [.times (int32 4), .over (int32 4)] == v34) = true := by
  have t1 : total [(.times (int32 4) : Factor F32)] = 4 := by simp [total, times_int.2]
  have t2 : total [(.times (int32 4) : Factor F32), .over (int32 4)] = 1 := by
    simp [total, times_int.2, (over_int (n := 4) (h := by norm_num) (by norm_num)).2]
  refine C100_back_Vector2 v34 _ finite_v34 ?_ t2 (fun d => .inr fun l' hl' hne => ?_)
  · intro f hf
    simp only [List.mem_cons, List.not_mem_nil, or_false] at hf
    rcases hf with rfl | rfl
    · exact ⟨times_int.1, 2, by rw [times_int.2]; norm_num⟩
    · exact ⟨(over_int (by norm_num)).1, -2, by rw [(over_int (by norm_num)).2]; norm_num⟩
  · have hx : real (v34.index d) = 3 ∨ real (v34.index d) = 4 := by
      cases d
      · exact .inl (by show real (int32 3) = 3; rw [real_int32]; norm_num)
      · exact .inr (by show real (int32 4) = 4; rw [real_int32]; norm_num)
    have ht : total l' = 4 ∨ total l' = 1 := by
      match l', hne, hl' with
      | [a], _, h =>
        simp at h; subst h; exact .inl t1
      | [a, b], _, h =>
        simp at h; obtain ⟨rfl, rfl⟩ := h; exact .inr t2
      | a :: b :: c :: r, _, h => have := h.length_le; simp at this
    have ho : (1000000 : ℝ) ≤ overflowAt F32 := overflow32
    have hm := one_normal (S := F32)
    rcases hx with hx | hx <;> rcases ht with ht | ht <;> rw [hx, ht] <;>
      exact ⟨hm.trans (by norm_num [abs_of_pos]), lt_of_lt_of_le (by norm_num [abs_of_pos]) ho⟩
/-- `(3, 4) *= 4`: one step without underflow -/
example := C100_accurate_Vector2 v34 [.times (int32 4)] finite_v34
  (by intro f hf; simp only [List.mem_cons, List.not_mem_nil, or_false] at hf; rw [hf]; exact times_int.1) .X (by
    intro l' hl' hne
    have : l' = [.times (int32 4)] := by
      match l', hne, hl' with
      | [a], _, h => simp at h; subst h; rfl
      | a :: b :: r, _, h => have := h.length_le; simp at this
    subst this
    have h3 : real (int32 3 : F32) = 3 := by rw [real_int32]; norm_num
    have e : Exactly ((v34.rescale [.times (int32 4)]).index .X) (real (v34.index .X) * total [(.times (int32 4) : Factor F32)]) :=
      C100_exact_Vector2 v34 _ finite_v34 (by
        intro f hf; simp only [List.mem_cons, List.not_mem_nil, or_false] at hf; rw [hf]
        exact ⟨times_int.1, 2, by rw [times_int.2]; norm_num⟩) .X (.inr fun l' hl' hne => by
        have : l' = [.times (int32 4)] := by
          match l', hne, hl' with
          | [a], _, h => simp at h; subst h; rfl
          | a :: b :: r, _, h => have := h.length_le; simp at this
        subst this
        have e : real (v34.index .X) * total [(.times (int32 4) : Factor F32)] = 12 := by
          show real (int32 3) * _ = _
          simp [total, times_int.2, h3]; norm_num
        rw [e]
        exact ⟨(one_normal (S := F32)).trans (by norm_num [abs_of_pos]), lt_of_lt_of_le (by norm_num [abs_of_pos]) overflow32⟩)
    refine ⟨e.1, ?_⟩
    rw [e.2]
    have e : real (v34.index .X) * total [(.times (int32 4) : Factor F32)] = 12 := by
      show real (int32 3) * _ = _
      simp [total, times_int.2, h3]; norm_num
    rw [e]
    exact (one_normal (S := F32)).trans (by norm_num [abs_of_pos]))
end VecMath

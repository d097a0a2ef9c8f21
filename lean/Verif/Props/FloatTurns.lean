import Verif.Props.FloatRotate
/-!
# Layer F: chains of rotations about a common axis (C72)
-/

open Classical

namespace VecMath
open Scalar IEEE

variable {S : Type} [Scalar S] [IEEE S]

theorem turn_mul (a b : ℝ) : turn b * turn a = turn (a + b) := by
  ext i j
  fin_cases i <;> fin_cases j <;> simp [turn, Matrix.mul_apply, Fin.sum_univ_three, Real.sin_add, Real.cos_add] <;> ring
theorem turnAbout_mul (k : Fin 3 → ℝ) (hk : k 0 ^ 2 + k 1 ^ 2 + k 2 ^ 2 = 1) (a b : ℝ) :
    turnAbout k b * turnAbout k a = turnAbout k (a + b) := by
  have hd : k ⬝ᵥ k = 1 := by rw [← hk]; simp [dotProduct, Fin.sum_univ_three, sq]
  have e1 := fun i j => congrFun (congrFun (rod_mul hd a b) i) j
  have lc : ∀ (θ : ℝ) (i : Fin 3), turnAbout k θ i.castSucc (Fin.last 3) = 0 := fun θ i => by fin_cases i <;> rfl
  have lr : ∀ (θ : ℝ) (i : Fin 3), turnAbout k θ (Fin.last 3) i.castSucc = 0 := fun θ i => by fin_cases i <;> rfl
  have ll : ∀ θ : ℝ, turnAbout k θ (Fin.last 3) (Fin.last 3) = 1 := fun θ => rfl
  ext i j
  rw [Matrix.mul_apply, Fin.sum_univ_castSucc]
  refine Fin.lastCases ?_ (fun i => ?_) i
  · refine Fin.lastCases ?_ (fun j => ?_) j
    · simp only [lc, ll, mul_zero, Finset.sum_const_zero, mul_one, zero_add]
    · simp only [ll, lr, zero_mul, Finset.sum_const_zero, mul_zero, add_zero]
  · refine Fin.lastCases ?_ (fun j => ?_) j
    · simp only [lc, ll, zero_mul, Finset.sum_const_zero, mul_zero, add_zero]
    · have := e1 i j
      rw [Matrix.mul_apply] at this
      simp only [turnAbout_block, lr, mul_zero, add_zero]
      exact this

/-- A chain of elements of a one-parameter family of matrices. -/
theorem family_prod {n : ℕ} {α : Type} (R : ℝ → Matrix (Fin n) (Fin n) ℝ) (hR : ∀ a b, R b * R a = R (a + b))
    (θ : α → ℝ) (a : α) (as : List α) :
    (((a :: as).map fun x => R (θ x)).reverse.prod) = R ((a :: as).map θ).sum := by
  induction as using List.reverseRecOn with
  | nil => simp
  | append_singleton as b ih =>
    rw [← List.cons_append, List.map_append, List.reverse_append, List.prod_append, ih, List.map_append, List.sum_append]
    simp [hR]

theorem near_same3 {m m' : Matrix3x3 S} {Q : Matrix (Fin 3) (Fin 3) ℝ} {ε : ℝ} (h : m.Near Q ε)
    (hs : ∀ (i : ℕ) (hi : i < 9), Same m'.m[i] m.m[i]) : m'.Near Q ε := by
  have e : m'.toReal = m.toReal := by
    ext i j
    have hf : ∀ (i : ℕ) (hi : i < 9), real m'.m[i] = real m.m[i] := fun i hi => by
      have := hs i hi; unfold Same at this; unfold real; rw [this]
    rw [forall_lt_9] at hf
    obtain ⟨a0, a1, a2, a3, a4, a5, a6, a7, a8⟩ := hf
    fin_cases i <;> fin_cases j
    exacts [a0, a1, a2, a3, a4, a5, a6, a7, a8]
  refine ⟨?_, e ▸ h.2⟩
  have := h.1
  rw [Matrix3x3.allFinite] at this ⊢
  intro i hi
  have h1 := this i hi
  have h2 := hs i hi
  unfold Same at h2; unfold IsFinite at h1 ⊢; rw [h2]; exact h1
theorem near_same4 {m m' : Matrix4x4 S} {Q : Matrix (Fin 4) (Fin 4) ℝ} {ε : ℝ} (h : m.Near Q ε)
    (hs : ∀ (i : ℕ) (hi : i < 16), Same m'.m[i] m.m[i]) : m'.Near Q ε := by
  have e : m'.toReal = m.toReal := by
    ext i j
    have hf : ∀ (i : ℕ) (hi : i < 16), real m'.m[i] = real m.m[i] := fun i hi => by
      have := hs i hi; unfold Same at this; unfold real; rw [this]
    rw [forall_lt_16] at hf
    obtain ⟨a0, a1, a2, a3, a4, a5, a6, a7, a8, a9, a10, a11, a12, a13, a14, a15⟩ := hf
    fin_cases i <;> fin_cases j
    exacts [a0, a1, a2, a3, a4, a5, a6, a7, a8, a9, a10, a11, a12, a13, a14, a15]
  refine ⟨?_, e ▸ h.2⟩
  have := h.1
  rw [Matrix4x4.allFinite] at this ⊢
  intro i hi
  have h1 := this i hi
  have h2 := hs i hi
  unfold Same at h2; unfold IsFinite at h1 ⊢; rw [h2]; exact h1

variable [B : Binary S]

/-- **C72** Composing any number of plane rotations by angles `a, as` yields, up to the drift, the exact rotation by the
exact sum of the angles, and its inverse is the transpose. Nothing overflows. -/
theorem C72_turns2 (hS : Ample S) {δ : ℝ} (a : S) (as : List S) (h : ∀ b ∈ a :: as, TrigWithin δ b)
    (hb : (1 + 3 * ((1 + uro S) ^ 3 - 1) + 3 * ((1 + uro S) ^ 2 * (3 * tiny S))) ^ as.length *
        (1 + 2 * δ) ^ (as.length + 1) ≤ 2) :
    ((as.map Transform2.rotate).foldl Transform2.andThen (Transform2.rotate a)).forward.Near
      (turn ((a :: as).map real).sum)
      ((1 + 3 * ((1 + uro S) ^ 3 - 1) + 3 * ((1 + uro S) ^ 2 * (3 * tiny S))) ^ as.length *
        (1 + 2 * δ) ^ (as.length + 1) - 1) ∧
    ((as.map Transform2.rotate).foldl Transform2.andThen (Transform2.rotate a)).inverse.Near
      (turn ((a :: as).map real).sum).transpose
      ((1 + 3 * ((1 + uro S) ^ 3 - 1) + 3 * ((1 + uro S) ^ 2 * (3 * tiny S))) ^ as.length *
        (1 + 2 * δ) ^ (as.length + 1) - 1) := by
  have h1 := C72_bounded2 hS Transform2.rotate a as (fun b => turn (real b)) (fun b _ => turn_orth _)
    (fun b hb => (C72_rotate2 b (h b hb)).1) hb
  rw [family_prod turn turn_mul] at h1
  refine ⟨h1, near_same3 (near_transpose3 h1) fun i hi => ?_⟩
  refine C72_transpose2 _ _ (fun u hu => ?_) i hi
  rw [← List.map_cons] at hu
  obtain ⟨b, hb, rfl⟩ := List.mem_map.1 hu
  exact (C72_rotate2 b (h b hb)).2.2.1

/-- **C72** Composing any number of rotations about the x axis by angles `a, as` yields, up to the drift, the exact
rotation by the exact sum of the angles, and its inverse is the transpose. Nothing overflows. -/
theorem C72_turns_x (hS : Ample S) {δ : ℝ} (a : S) (as : List S) (h : ∀ b ∈ a :: as, TrigWithin δ b)
    (hb : (1 + 4 * ((1 + uro S) ^ 4 - 1) + 4 * ((1 + uro S) ^ 3 * (4 * tiny S))) ^ as.length *
        (1 + 2 * δ) ^ (as.length + 1) ≤ 2) :
    ((as.map Transform3.rotateX).foldl Transform3.andThen (Transform3.rotateX a)).forward.Near
      (turnAbout ![1, 0, 0] ((a :: as).map real).sum)
      ((1 + 4 * ((1 + uro S) ^ 4 - 1) + 4 * ((1 + uro S) ^ 3 * (4 * tiny S))) ^ as.length *
        (1 + 2 * δ) ^ (as.length + 1) - 1) ∧
    ((as.map Transform3.rotateX).foldl Transform3.andThen (Transform3.rotateX a)).inverse.Near
      (turnAbout ![1, 0, 0] ((a :: as).map real).sum).transpose
      ((1 + 4 * ((1 + uro S) ^ 4 - 1) + 4 * ((1 + uro S) ^ 3 * (4 * tiny S))) ^ as.length *
        (1 + 2 * δ) ^ (as.length + 1) - 1) := by
  have h1 := C72_bounded3 hS Transform3.rotateX a as (fun b => turnAbout ![1, 0, 0] (real b))
    (fun b _ => turnAbout_orth _ _ (by simp)) (fun b hb => (C72_rotate_x b (h b hb)).1) hb
  rw [family_prod (turnAbout ![1, 0, 0]) (turnAbout_mul _ (by simp))] at h1
  refine ⟨h1, near_same4 (near_transpose4 h1) fun i hi => ?_⟩
  refine C72_transpose3 _ _ (fun u hu => ?_) i hi
  rw [← List.map_cons] at hu
  obtain ⟨b, hb, rfl⟩ := List.mem_map.1 hu
  exact (C72_rotate_x b (h b hb)).2.2.1

/-- **C72** Composing any number of rotations about the y axis by angles `a, as` yields, up to the drift, the exact
rotation by the exact sum of the angles, and its inverse is the transpose. Nothing overflows. -/
theorem C72_turns_y (hS : Ample S) {δ : ℝ} (a : S) (as : List S) (h : ∀ b ∈ a :: as, TrigWithin δ b)
    (hb : (1 + 4 * ((1 + uro S) ^ 4 - 1) + 4 * ((1 + uro S) ^ 3 * (4 * tiny S))) ^ as.length *
        (1 + 2 * δ) ^ (as.length + 1) ≤ 2) :
    ((as.map Transform3.rotateY).foldl Transform3.andThen (Transform3.rotateY a)).forward.Near
      (turnAbout ![0, 1, 0] ((a :: as).map real).sum)
      ((1 + 4 * ((1 + uro S) ^ 4 - 1) + 4 * ((1 + uro S) ^ 3 * (4 * tiny S))) ^ as.length *
        (1 + 2 * δ) ^ (as.length + 1) - 1) ∧
    ((as.map Transform3.rotateY).foldl Transform3.andThen (Transform3.rotateY a)).inverse.Near
      (turnAbout ![0, 1, 0] ((a :: as).map real).sum).transpose
      ((1 + 4 * ((1 + uro S) ^ 4 - 1) + 4 * ((1 + uro S) ^ 3 * (4 * tiny S))) ^ as.length *
        (1 + 2 * δ) ^ (as.length + 1) - 1) := by
  have h1 := C72_bounded3 hS Transform3.rotateY a as (fun b => turnAbout ![0, 1, 0] (real b))
    (fun b _ => turnAbout_orth _ _ (by simp)) (fun b hb => (C72_rotate_y b (h b hb)).1) hb
  rw [family_prod (turnAbout ![0, 1, 0]) (turnAbout_mul _ (by simp))] at h1
  refine ⟨h1, near_same4 (near_transpose4 h1) fun i hi => ?_⟩
  refine C72_transpose3 _ _ (fun u hu => ?_) i hi
  rw [← List.map_cons] at hu
  obtain ⟨b, hb, rfl⟩ := List.mem_map.1 hu
  exact (C72_rotate_y b (h b hb)).2.2.1

/-- **C72** Composing any number of rotations about the z axis by angles `a, as` yields, up to the drift, the exact
rotation by the exact sum of the angles, and its inverse is the transpose. Nothing overflows. -/
theorem C72_turns_z (hS : Ample S) {δ : ℝ} (a : S) (as : List S) (h : ∀ b ∈ a :: as, TrigWithin δ b)
    (hb : (1 + 4 * ((1 + uro S) ^ 4 - 1) + 4 * ((1 + uro S) ^ 3 * (4 * tiny S))) ^ as.length *
        (1 + 2 * δ) ^ (as.length + 1) ≤ 2) :
    ((as.map Transform3.rotateZ).foldl Transform3.andThen (Transform3.rotateZ a)).forward.Near
      (turnAbout ![0, 0, 1] ((a :: as).map real).sum)
      ((1 + 4 * ((1 + uro S) ^ 4 - 1) + 4 * ((1 + uro S) ^ 3 * (4 * tiny S))) ^ as.length *
        (1 + 2 * δ) ^ (as.length + 1) - 1) ∧
    ((as.map Transform3.rotateZ).foldl Transform3.andThen (Transform3.rotateZ a)).inverse.Near
      (turnAbout ![0, 0, 1] ((a :: as).map real).sum).transpose
      ((1 + 4 * ((1 + uro S) ^ 4 - 1) + 4 * ((1 + uro S) ^ 3 * (4 * tiny S))) ^ as.length *
        (1 + 2 * δ) ^ (as.length + 1) - 1) := by
  have h1 := C72_bounded3 hS Transform3.rotateZ a as (fun b => turnAbout ![0, 0, 1] (real b))
    (fun b _ => turnAbout_orth _ _ (by simp)) (fun b hb => (C72_rotate_z b (h b hb)).1) hb
  rw [family_prod (turnAbout ![0, 0, 1]) (turnAbout_mul _ (by simp))] at h1
  refine ⟨h1, near_same4 (near_transpose4 h1) fun i hi => ?_⟩
  refine C72_transpose3 _ _ (fun u hu => ?_) i hi
  rw [← List.map_cons] at hu
  obtain ⟨b, hb, rfl⟩ := List.mem_map.1 hu
  exact (C72_rotate_z b (h b hb)).2.2.1

/-- **C72** The same for rotations about a common axis given as a vector. -/
theorem C72_turns_axis (hS : Ample S) {δ : ℝ} (axis : Vector3 S) (a : S) (as : List S) (h : ∀ b ∈ a :: as, TrigWithin δ b)
    (hδ1 : δ ≤ 1) (hl : IsFinite (Api.length axis)) (h0 : 0 < real axis.x ^ 2 + real axis.y ^ 2 + real axis.z ^ 2)
    (hx : Normal S (real axis.x ^ 2)) (hy : Normal S (real axis.y ^ 2)) (hz : Normal S (real axis.z ^ 2))
    (qx : Normal S (real axis.x / real (Api.length axis))) (qy : Normal S (real axis.y / real (Api.length axis)))
    (qz : Normal S (real axis.z / real (Api.length axis)))
    (hb : (1 + 4 * ((1 + uro S) ^ 4 - 1) + 4 * ((1 + uro S) ^ 3 * (4 * tiny S))) ^ as.length *
        (1 + 3 * axisErr S δ) ^ (as.length + 1) ≤ 2) :
    ((as.map (Transform3.rotateAxis axis)).foldl Transform3.andThen (Transform3.rotateAxis axis a)).forward.Near
      (turnAbout (fun i => axis.toReal i / norm2 axis.toReal) ((a :: as).map real).sum)
      ((1 + 4 * ((1 + uro S) ^ 4 - 1) + 4 * ((1 + uro S) ^ 3 * (4 * tiny S))) ^ as.length *
        (1 + 3 * axisErr S δ) ^ (as.length + 1) - 1) ∧
    ((as.map (Transform3.rotateAxis axis)).foldl Transform3.andThen (Transform3.rotateAxis axis a)).inverse.Near
      (turnAbout (fun i => axis.toReal i / norm2 axis.toReal) ((a :: as).map real).sum).transpose
      ((1 + 4 * ((1 + uro S) ^ 4 - 1) + 4 * ((1 + uro S) ^ 3 * (4 * tiny S))) ^ as.length *
        (1 + 3 * axisErr S δ) ^ (as.length + 1) - 1) := by
  have hr := fun b hb => C72_rotate_axis axis b hS (h b hb) hδ1 hl h0 hx hy hz qx qy qz
  set k : Fin 3 → ℝ := fun i => axis.toReal i / norm2 axis.toReal with hkd
  have hk : k 0 ^ 2 + k 1 ^ 2 + k 2 ^ 2 = 1 := by
    have hs : norm2 axis.toReal ^ 2 = real axis.x ^ 2 + real axis.y ^ 2 + real axis.z ^ 2 := by
      rw [norm2_sq, Fin.sum_univ_three]; rfl
    simp only [hkd, div_pow, hs]
    rw [← add_div, ← add_div]
    exact div_self h0.ne'
  have h1 := C72_bounded3 hS (Transform3.rotateAxis axis) a as (fun b => turnAbout k (real b))
    (fun b _ => turnAbout_orth _ _ hk) (fun b hb => (hr b hb).1) hb
  rw [family_prod (turnAbout k) (turnAbout_mul _ hk)] at h1
  refine ⟨h1, near_same4 (near_transpose4 h1) fun i hi => ?_⟩
  refine C72_transpose3 _ _ (fun u hu => ?_) i hi
  rw [← List.map_cons] at hu
  obtain ⟨b, hb, rfl⟩ := List.mem_map.1 hu
  exact (hr b hb).2.2.1

end VecMath

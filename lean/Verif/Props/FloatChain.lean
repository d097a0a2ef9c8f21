import Verif.Props.FloatErrorMat
import Verif.Props.FloatExact
import Verif.Lemmas.Chain
/-!
# Layer F: rounding errors of a whole chain of compositions (C71)

(Generated by tools/gen/chain.py.)
-/

open Classical

namespace VecMath
open Scalar IEEE

variable {S : Type} [Scalar S] [IEEE S] [Binary S]

theorem finite_of_row3 {a b c x y z : S} (h : IsFinite (a * x + b * y + c * z)) :
    (IsFinite a ∧ IsFinite x) ∧ (IsFinite b ∧ IsFinite y) ∧ IsFinite c ∧ IsFinite z := by
  have h1 := finite_of_add h
  have h2 := finite_of_add h1.1
  exact ⟨finite_of_mul h2.1, finite_of_mul h2.2, finite_of_mul h1.2⟩
theorem finite_of_row4 {a b c d x y z w : S} (h : IsFinite (a * x + b * y + c * z + d * w)) :
    (IsFinite a ∧ IsFinite x) ∧ (IsFinite b ∧ IsFinite y) ∧ (IsFinite c ∧ IsFinite z) ∧ IsFinite d ∧ IsFinite w := by
  have h1 := finite_of_add h
  have h2 := finite_of_row3 h1.1
  exact ⟨h2.1, h2.2.1, h2.2.2, finite_of_mul h1.2⟩

/-! ## Transform2 -/

/-- What the underflow errors of the products in a chain amount to in the forward matrix: each further product
amplifies the errors so far by its factor and adds its own. -/
noncomputable def Transform2.slack (ts : List (Transform2 S)) : Matrix (Fin 3) (Fin 3) ℝ :=
  ts.foldl (fun s t => Matrix.of fun i j =>
    (1 + uro S) ^ 3 * (t.forward.toReal.map abs * s) i j + (1 + uro S) ^ 2 * (3 * tiny S)) 0
/-- The same in the inverse matrix. -/
noncomputable def Transform2.slackInv (ts : List (Transform2 S)) : Matrix (Fin 3) (Fin 3) ℝ :=
  ts.foldl (fun s t => Matrix.of fun i j =>
    (1 + uro S) ^ 3 * (s * t.inverse.toReal.map abs) i j + (1 + uro S) ^ 2 * (3 * tiny S)) 0

theorem Matrix3x3.finite_mul {a b : Matrix3x3 S} (h : AllFinite (a * b)) : AllFinite a ∧ AllFinite b := by
  rw [Matrix3x3.allFinite, forall_lt_9] at *
  rw [Matrix3x3.allFinite, forall_lt_9]
  obtain ⟨h0, h1, h2, h3, h4, h5, h6, h7, h8⟩ := h
  have r0 := finite_of_row3 h0
  have r1 := finite_of_row3 h1
  have r2 := finite_of_row3 h2
  have r3 := finite_of_row3 h3
  have r4 := finite_of_row3 h4
  have r5 := finite_of_row3 h5
  have r6 := finite_of_row3 h6
  have r7 := finite_of_row3 h7
  have r8 := finite_of_row3 h8
  exact ⟨⟨r0.1.1, r0.2.1.1, r0.2.2.1, r3.1.1, r3.2.1.1, r3.2.2.1, r6.1.1, r6.2.1.1, r6.2.2.1⟩, ⟨r0.1.2, r1.1.2, r2.1.2, r0.2.1.2, r1.2.1.2, r2.2.1.2, r0.2.2.2, r1.2.2.2, r2.2.2.2⟩⟩

/-- **C71** The forward matrix of a chain `t.and_then(t1)...and_then(tn)`: every entry is within `3n` roundings,
relative to the product of the absolute matrices, of the exact product of all the matrices, plus the
underflow of the products. -/
theorem C71_forward2 (t : Transform2 S) (ts : List (Transform2 S))
    (h : AllFinite (ts.foldl Transform2.andThen t).forward) (i j : Fin 3) :
    |(ts.foldl Transform2.andThen t).forward.toReal i j
        - ((t :: ts).map fun u => u.forward.toReal).reverse.prod i j| ≤
      ((1 + uro S) ^ (3 * ts.length) - 1) * ((t :: ts).map fun u => u.forward.toReal.map abs).reverse.prod i j
        + Transform2.slack ts i j := by
  suffices H : ∀ i j, |((t :: ts).map fun u => u.forward.toReal).reverse.prod i j| ≤
      ((t :: ts).map fun u => u.forward.toReal.map abs).reverse.prod i j ∧
      |(ts.foldl Transform2.andThen t).forward.toReal i j
        - ((t :: ts).map fun u => u.forward.toReal).reverse.prod i j| ≤
      ((1 + uro S) ^ (3 * ts.length) - 1) * ((t :: ts).map fun u => u.forward.toReal.map abs).reverse.prod i j
        + Transform2.slack ts i j from (H i j).2
  clear i j
  induction ts using List.reverseRecOn with
  | nil => intro i j; simp [Transform2.slack]
  | append_singleton ts u ih =>
    rw [List.foldl_append, List.foldl_cons, List.foldl_nil] at *
    have hf : AllFinite (u.forward * (ts.foldl Transform2.andThen t).forward) := h
    have ih := ih (Matrix3x3.finite_mul hf).2
    have := chain_left (P := (u.forward * (ts.foldl Transform2.andThen t).forward).toReal)
      (one_le_pow₀ (by have := uro_pos (S := S); linarith) : (1 : ℝ) ≤ (1 + uro S) ^ 3)
      (C63_product3x3 u.forward (ts.foldl Transform2.andThen t).forward hf)
      (fun i j => (ih i j).1) (fun i j => (ih i j).2)
    intro i j
    have := this i j
    rw [← pow_add] at this
    simp only [List.map_cons, List.map_append, List.map_nil, List.reverse_cons, List.reverse_append, List.reverse_nil,
      List.nil_append, List.cons_append, List.prod_cons, List.length_append, List.length_cons,
      List.length_nil, Nat.mul_add, Nat.zero_add, Nat.mul_one] at this ⊢
    rw [Transform2.slack, List.foldl_append, List.foldl_cons, List.foldl_nil]
    exact this

/-- **C71** The inverse matrix of the chain: the exact product is taken in the opposite order. -/
theorem C71_inverse2 (t : Transform2 S) (ts : List (Transform2 S))
    (h : AllFinite (ts.foldl Transform2.andThen t).inverse) (i j : Fin 3) :
    |(ts.foldl Transform2.andThen t).inverse.toReal i j - ((t :: ts).map fun u => u.inverse.toReal).prod i j| ≤
      ((1 + uro S) ^ (3 * ts.length) - 1) * ((t :: ts).map fun u => u.inverse.toReal.map abs).prod i j
        + Transform2.slackInv ts i j := by
  suffices H : ∀ i j, |((t :: ts).map fun u => u.inverse.toReal).prod i j| ≤
      ((t :: ts).map fun u => u.inverse.toReal.map abs).prod i j ∧
      |(ts.foldl Transform2.andThen t).inverse.toReal i j
        - ((t :: ts).map fun u => u.inverse.toReal).prod i j| ≤
      ((1 + uro S) ^ (3 * ts.length) - 1) * ((t :: ts).map fun u => u.inverse.toReal.map abs).prod i j
        + Transform2.slackInv ts i j from (H i j).2
  clear i j
  induction ts using List.reverseRecOn with
  | nil => intro i j; simp [Transform2.slackInv]
  | append_singleton ts u ih =>
    rw [List.foldl_append, List.foldl_cons, List.foldl_nil] at *
    have hf : AllFinite ((ts.foldl Transform2.andThen t).inverse * u.inverse) := h
    have ih := ih (Matrix3x3.finite_mul hf).1
    have := chain_right (P := ((ts.foldl Transform2.andThen t).inverse * u.inverse).toReal)
      (one_le_pow₀ (by have := uro_pos (S := S); linarith) : (1 : ℝ) ≤ (1 + uro S) ^ 3)
      (C63_product3x3 (ts.foldl Transform2.andThen t).inverse u.inverse hf)
      (fun i j => (ih i j).1) (fun i j => (ih i j).2)
    intro i j
    have := this i j
    rw [← pow_add] at this
    rw [← List.cons_append, List.map_append, List.prod_append, List.map_append, List.prod_append]
    simp only [List.map_cons, List.map_nil, List.prod_nil, List.prod_cons,
      List.length_append, List.length_cons, mul_one,
      List.length_nil, Nat.mul_add, Nat.zero_add, Nat.mul_one] at this ⊢
    rw [Transform2.slackInv, List.foldl_append, List.foldl_cons, List.foldl_nil]
    exact this

theorem chain_prod_rows2 {L : List (Matrix (Fin 3) (Fin 3) ℝ)} {R : ℝ} (hR : 0 ≤ R)
    (hL : ∀ M ∈ L, ∀ i, ∑ j, |M i j| ≤ R) :
    (∀ i j, 0 ≤ (L.map fun M => M.map abs).prod i j) ∧ ∀ i, ∑ j, (L.map fun M => M.map abs).prod i j ≤ R ^ L.length := by
  induction L with
  | nil =>
    constructor
    · intro i j; simp only [List.map_nil, List.prod_nil, Matrix.one_apply]; split_ifs <;> norm_num
    · intro i; simp [Matrix.one_apply]
  | cons M L ih =>
    have ih := ih fun M hM => hL M (List.mem_cons_of_mem _ hM)
    have hM := hL M List.mem_cons_self
    simp only [List.map_cons, List.prod_cons, List.length_cons, pow_succ']
    refine ⟨fun i j => ?_, fun i => ?_⟩
    · rw [Matrix.mul_apply]
      exact Finset.sum_nonneg fun k _ => mul_nonneg (abs_nonneg _) (ih.1 k j)
    · calc ∑ j, (M.map abs * (L.map fun M => M.map abs).prod) i j
          = ∑ k, |M i k| * ∑ j, (L.map fun M => M.map abs).prod k j := by
            simp only [Matrix.mul_apply, Matrix.map_apply, Finset.mul_sum]
            exact Finset.sum_comm
        _ ≤ ∑ k, |M i k| * R ^ L.length :=
            Finset.sum_le_sum fun k _ => mul_le_mul_of_nonneg_left (ih.2 k) (abs_nonneg _)
        _ = (∑ k, |M i k|) * R ^ L.length := (Finset.sum_mul ..).symm
        _ ≤ R * R ^ L.length := mul_le_mul_of_nonneg_right (hM i) (pow_nonneg hR _)

/-- **C71** in closed form: if the absolute values in every row of every forward matrix sum to at most `R ≥ 1`, then
the error of `n` compositions is at most `((1+u)^(3n) - 1) R^(n+1)`, plus an underflow term of at most
`n ((1+u)^3 R)^n (1+u)^2 3 tiny`. -/
theorem C71_closed2 (t : Transform2 S) (ts : List (Transform2 S)) {R : ℝ} (hR : 1 ≤ R)
    (hrow : ∀ u ∈ t :: ts, ∀ i, ∑ j, |u.forward.toReal i j| ≤ R)
    (h : AllFinite (ts.foldl Transform2.andThen t).forward) (i j : Fin 3) :
    |(ts.foldl Transform2.andThen t).forward.toReal i j
        - ((t :: ts).map fun u => u.forward.toReal).reverse.prod i j| ≤
      ((1 + uro S) ^ (3 * ts.length) - 1) * R ^ (ts.length + 1)
        + ts.length * ((1 + uro S) ^ 3 * R) ^ ts.length * ((1 + uro S) ^ 2 * (3 * tiny S)) := by
  have hu := uro_pos (S := S)
  have ht := tiny_pos (S := S)
  have hR0 : 0 ≤ R := by linarith
  refine (C71_forward2 t ts h i j).trans (add_le_add (mul_le_mul_of_nonneg_left ?_ ?_) ?_)
  · have e : ((t :: ts).map fun u => u.forward.toReal.map abs).reverse =
        ((t :: ts).map fun u => u.forward.toReal).reverse.map fun M => M.map abs := by
      rw [List.map_reverse, List.map_map]; rfl
    have := chain_prod_rows2 (L := ((t :: ts).map fun u => u.forward.toReal).reverse) hR0 (by
      intro M hM
      rw [List.mem_reverse, List.mem_map] at hM
      obtain ⟨u, hu, rfl⟩ := hM
      exact hrow u hu)
    rw [e]
    have h1 := this.2 i
    rw [List.length_reverse, List.length_map, List.length_cons] at h1
    exact (Finset.single_le_sum (fun k _ => this.1 i k) (Finset.mem_univ j)).trans h1
  · have := one_le_pow₀ (M₀ := ℝ) (a := 1 + uro S) (n := 3 * ts.length) (by linarith)
    linarith
  · have hts : ∀ u ∈ ts, ∀ i, ∑ j, |u.forward.toReal i j| ≤ R := fun u hu => hrow u (List.mem_cons_of_mem _ hu)
    clear h hrow
    set τ := (1 + uro S) ^ 2 * (3 * tiny S) with hτ
    have hτ0 : 0 ≤ τ := by positivity
    have hw : 1 ≤ (1 + uro S) ^ 3 * R := one_le_mul_of_one_le_of_one_le (one_le_pow₀ (by linarith)) hR
    induction ts using List.reverseRecOn generalizing i j with
    | nil => simp [Transform2.slack]
    | append_singleton ts u ih =>
      have ih := fun i j => ih i j fun u hu => hts u (List.mem_append_left _ hu)
      have hu' := hts u (List.mem_append_right _ List.mem_cons_self)
      rw [Transform2.slack, List.foldl_append, List.foldl_cons, List.foldl_nil]
      show (1 + uro S) ^ 3 * (u.forward.toReal.map abs * Transform2.slack ts) i j + τ ≤ _
      have h0 : 0 ≤ (ts.length : ℝ) * ((1 + uro S) ^ 3 * R) ^ ts.length * τ := by positivity
      have h1 := rows_mul (A := u.forward.toReal.map abs) (fun i j => abs_nonneg _) hu' ih h0 i j
      have h2 := mul_le_mul_of_nonneg_left h1 (by positivity : 0 ≤ (1 + uro S) ^ 3)
      rw [List.length_append, List.length_cons, List.length_nil, Nat.zero_add, pow_succ _ ts.length]
      push_cast
      have h3 : τ ≤ ((1 + uro S) ^ 3 * R) ^ (ts.length + 1) * τ :=
        le_mul_of_one_le_left hτ0 (one_le_pow₀ hw)
      rw [pow_succ _ ts.length] at h3
      generalize hX : ((1 + uro S) ^ 3 * R) ^ ts.length = X at h2 h3 ⊢
      have e : (1 + uro S) ^ 3 * (R * (ts.length * X * τ)) = ts.length * (X * ((1 + uro S) ^ 3 * R)) * τ := by ring
      rw [e] at h2
      rw [add_mul, add_mul, one_mul]
      exact add_le_add h2 h3

theorem grid_mul2 {A B : Matrix (Fin 3) (Fin 3) ℝ} {M K : ℕ} (hA : ∀ i j, OnGrid 0 M (A i j))
    (hB : ∀ i j, OnGrid 0 K (B i j)) (i j : Fin 3) : OnGrid 0 (3 * (M * K)) ((A * B) i j) := by
  rw [Matrix.mul_apply, Fin.sum_univ_three]
  have h := fun k => ((hA i k).mul (hB k j)).exp (add_zero 0)
  exact (((h 0).add (h 1)).add (h 2)).mono (by omega)

/-- **C71** exactness: a chain of transforms whose matrices have integer entries of magnitude at most `M` is
composed without any error as long as `M^(n+1) 3^n` is exactly representable (`2^24` for `f32`). -/
theorem C71_exact2 (t : Transform2 S) (ts : List (Transform2 S)) {M : ℕ} (hM : 1 ≤ M)
    (hf : ∀ u ∈ t :: ts, AllFinite u.forward ∧ AllFinite u.inverse)
    (hg : ∀ u ∈ t :: ts, ∀ i j, OnGrid 0 M (u.forward.toReal i j) ∧ OnGrid 0 M (u.inverse.toReal i j))
    (hF : Fits S 0 (M ^ (ts.length + 1) * 3 ^ ts.length)) :
    (AllFinite (ts.foldl Transform2.andThen t).forward ∧ AllFinite (ts.foldl Transform2.andThen t).inverse) ∧
    (ts.foldl Transform2.andThen t).forward.toReal = ((t :: ts).map fun u => u.forward.toReal).reverse.prod ∧
    (ts.foldl Transform2.andThen t).inverse.toReal = ((t :: ts).map fun u => u.inverse.toReal).prod := by
  suffices H : ((AllFinite (ts.foldl Transform2.andThen t).forward ∧ AllFinite (ts.foldl Transform2.andThen t).inverse) ∧
    (ts.foldl Transform2.andThen t).forward.toReal = ((t :: ts).map fun u => u.forward.toReal).reverse.prod ∧
    (ts.foldl Transform2.andThen t).inverse.toReal = ((t :: ts).map fun u => u.inverse.toReal).prod) ∧
    ∀ i j, OnGrid 0 (M ^ (ts.length + 1) * 3 ^ ts.length) ((ts.foldl Transform2.andThen t).forward.toReal i j) ∧
      OnGrid 0 (M ^ (ts.length + 1) * 3 ^ ts.length) ((ts.foldl Transform2.andThen t).inverse.toReal i j) from H.1
  induction ts using List.reverseRecOn with
  | nil => simpa using ⟨hf t List.mem_cons_self, hg t List.mem_cons_self⟩
  | append_singleton ts u ih =>
    rw [← List.cons_append] at *
    have hu : u ∈ t :: ts ++ [u] := List.mem_append_right _ List.mem_cons_self
    have e : M ^ ((ts ++ [u]).length + 1) * 3 ^ (ts ++ [u]).length =
        3 * (M * (M ^ (ts.length + 1) * 3 ^ ts.length)) := by
      rw [List.length_append, List.length_singleton, pow_succ, pow_succ 3]; ring
    rw [e] at hF ⊢
    have ih := ih (fun v hv => hf v (List.mem_append_left _ hv)) (fun v hv => hg v (List.mem_append_left _ hv))
      (hF.mono (by nlinarith [Nat.zero_le (M ^ (ts.length + 1) * 3 ^ ts.length)]))
    obtain ⟨⟨⟨f1, f2⟩, e1, e2⟩, g⟩ := ih
    have hF' : Fits S (0 + 0) (3 * (M * (M ^ (ts.length + 1) * 3 ^ ts.length))) := by rwa [add_zero]
    have p1 := C68_product3x3 u.forward _ (hf u hu).1 f1 (fun i j => (hg u hu i j).1) (fun i j => (g i j).1) hF'
    have p2 := C68_product3x3 _ u.inverse f2 (hf u hu).2 (fun i j => (g i j).2) (fun i j => (hg u hu i j).2)
      (by rwa [mul_comm _ M])
    rw [List.foldl_append, List.foldl_cons, List.foldl_nil, List.map_append, List.map_append, List.reverse_append,
      List.prod_append, List.prod_append, ← e1, ← e2]
    simp only [List.map_cons, List.map_nil, List.prod_cons, List.prod_nil, List.reverse_cons, List.reverse_nil,
      List.nil_append, mul_one]
    refine ⟨⟨⟨p1.1, p2.1⟩, p1.2, p2.2⟩, fun i j => ⟨?_, ?_⟩⟩
    · refine (grid_mul2 (fun i j => (hg u hu i j).1) (fun i j => (g i j).1) i j).congr ?_
      rw [← p1.2]; rfl
    · refine ((grid_mul2 (fun i j => (g i j).2) (fun i j => (hg u hu i j).2) i j).mono ?_).congr ?_
      · rw [mul_comm M]
      · rw [← p2.2]; rfl

/-! ## Transform3 -/

/-- What the underflow errors of the products in a chain amount to in the forward matrix: each further product
amplifies the errors so far by its factor and adds its own. -/
noncomputable def Transform3.slack (ts : List (Transform3 S)) : Matrix (Fin 4) (Fin 4) ℝ :=
  ts.foldl (fun s t => Matrix.of fun i j =>
    (1 + uro S) ^ 4 * (t.forward.toReal.map abs * s) i j + (1 + uro S) ^ 3 * (4 * tiny S)) 0
/-- The same in the inverse matrix. -/
noncomputable def Transform3.slackInv (ts : List (Transform3 S)) : Matrix (Fin 4) (Fin 4) ℝ :=
  ts.foldl (fun s t => Matrix.of fun i j =>
    (1 + uro S) ^ 4 * (s * t.inverse.toReal.map abs) i j + (1 + uro S) ^ 3 * (4 * tiny S)) 0

theorem Matrix4x4.finite_mul {a b : Matrix4x4 S} (h : AllFinite (a * b)) : AllFinite a ∧ AllFinite b := by
  rw [Matrix4x4.allFinite, forall_lt_16] at *
  rw [Matrix4x4.allFinite, forall_lt_16]
  obtain ⟨h0, h1, h2, h3, h4, h5, h6, h7, h8, h9, h10, h11, h12, h13, h14, h15⟩ := h
  have r0 := finite_of_row4 h0
  have r1 := finite_of_row4 h1
  have r2 := finite_of_row4 h2
  have r3 := finite_of_row4 h3
  have r4 := finite_of_row4 h4
  have r5 := finite_of_row4 h5
  have r6 := finite_of_row4 h6
  have r7 := finite_of_row4 h7
  have r8 := finite_of_row4 h8
  have r9 := finite_of_row4 h9
  have r10 := finite_of_row4 h10
  have r11 := finite_of_row4 h11
  have r12 := finite_of_row4 h12
  have r13 := finite_of_row4 h13
  have r14 := finite_of_row4 h14
  have r15 := finite_of_row4 h15
  exact ⟨⟨r0.1.1, r0.2.1.1, r0.2.2.1.1, r0.2.2.2.1, r4.1.1, r4.2.1.1, r4.2.2.1.1, r4.2.2.2.1, r8.1.1, r8.2.1.1, r8.2.2.1.1, r8.2.2.2.1, r12.1.1, r12.2.1.1, r12.2.2.1.1, r12.2.2.2.1⟩, ⟨r0.1.2, r1.1.2, r2.1.2, r3.1.2, r0.2.1.2, r1.2.1.2, r2.2.1.2, r3.2.1.2, r0.2.2.1.2, r1.2.2.1.2, r2.2.2.1.2, r3.2.2.1.2, r0.2.2.2.2, r1.2.2.2.2, r2.2.2.2.2, r3.2.2.2.2⟩⟩

/-- **C71** The forward matrix of a chain `t.and_then(t1)...and_then(tn)`: every entry is within `4n` roundings,
relative to the product of the absolute matrices, of the exact product of all the matrices, plus the
underflow of the products. -/
theorem C71_forward3 (t : Transform3 S) (ts : List (Transform3 S))
    (h : AllFinite (ts.foldl Transform3.andThen t).forward) (i j : Fin 4) :
    |(ts.foldl Transform3.andThen t).forward.toReal i j
        - ((t :: ts).map fun u => u.forward.toReal).reverse.prod i j| ≤
      ((1 + uro S) ^ (4 * ts.length) - 1) * ((t :: ts).map fun u => u.forward.toReal.map abs).reverse.prod i j
        + Transform3.slack ts i j := by
  suffices H : ∀ i j, |((t :: ts).map fun u => u.forward.toReal).reverse.prod i j| ≤
      ((t :: ts).map fun u => u.forward.toReal.map abs).reverse.prod i j ∧
      |(ts.foldl Transform3.andThen t).forward.toReal i j
        - ((t :: ts).map fun u => u.forward.toReal).reverse.prod i j| ≤
      ((1 + uro S) ^ (4 * ts.length) - 1) * ((t :: ts).map fun u => u.forward.toReal.map abs).reverse.prod i j
        + Transform3.slack ts i j from (H i j).2
  clear i j
  induction ts using List.reverseRecOn with
  | nil => intro i j; simp [Transform3.slack]
  | append_singleton ts u ih =>
    rw [List.foldl_append, List.foldl_cons, List.foldl_nil] at *
    have hf : AllFinite (u.forward * (ts.foldl Transform3.andThen t).forward) := h
    have ih := ih (Matrix4x4.finite_mul hf).2
    have := chain_left (P := (u.forward * (ts.foldl Transform3.andThen t).forward).toReal)
      (one_le_pow₀ (by have := uro_pos (S := S); linarith) : (1 : ℝ) ≤ (1 + uro S) ^ 4)
      (C63_product4x4 u.forward (ts.foldl Transform3.andThen t).forward hf)
      (fun i j => (ih i j).1) (fun i j => (ih i j).2)
    intro i j
    have := this i j
    rw [← pow_add] at this
    simp only [List.map_cons, List.map_append, List.map_nil, List.reverse_cons, List.reverse_append, List.reverse_nil,
      List.nil_append, List.cons_append, List.prod_cons, List.length_append, List.length_cons,
      List.length_nil, Nat.mul_add, Nat.zero_add, Nat.mul_one] at this ⊢
    rw [Transform3.slack, List.foldl_append, List.foldl_cons, List.foldl_nil]
    exact this

/-- **C71** The inverse matrix of the chain: the exact product is taken in the opposite order. -/
theorem C71_inverse3 (t : Transform3 S) (ts : List (Transform3 S))
    (h : AllFinite (ts.foldl Transform3.andThen t).inverse) (i j : Fin 4) :
    |(ts.foldl Transform3.andThen t).inverse.toReal i j - ((t :: ts).map fun u => u.inverse.toReal).prod i j| ≤
      ((1 + uro S) ^ (4 * ts.length) - 1) * ((t :: ts).map fun u => u.inverse.toReal.map abs).prod i j
        + Transform3.slackInv ts i j := by
  suffices H : ∀ i j, |((t :: ts).map fun u => u.inverse.toReal).prod i j| ≤
      ((t :: ts).map fun u => u.inverse.toReal.map abs).prod i j ∧
      |(ts.foldl Transform3.andThen t).inverse.toReal i j
        - ((t :: ts).map fun u => u.inverse.toReal).prod i j| ≤
      ((1 + uro S) ^ (4 * ts.length) - 1) * ((t :: ts).map fun u => u.inverse.toReal.map abs).prod i j
        + Transform3.slackInv ts i j from (H i j).2
  clear i j
  induction ts using List.reverseRecOn with
  | nil => intro i j; simp [Transform3.slackInv]
  | append_singleton ts u ih =>
    rw [List.foldl_append, List.foldl_cons, List.foldl_nil] at *
    have hf : AllFinite ((ts.foldl Transform3.andThen t).inverse * u.inverse) := h
    have ih := ih (Matrix4x4.finite_mul hf).1
    have := chain_right (P := ((ts.foldl Transform3.andThen t).inverse * u.inverse).toReal)
      (one_le_pow₀ (by have := uro_pos (S := S); linarith) : (1 : ℝ) ≤ (1 + uro S) ^ 4)
      (C63_product4x4 (ts.foldl Transform3.andThen t).inverse u.inverse hf)
      (fun i j => (ih i j).1) (fun i j => (ih i j).2)
    intro i j
    have := this i j
    rw [← pow_add] at this
    rw [← List.cons_append, List.map_append, List.prod_append, List.map_append, List.prod_append]
    simp only [List.map_cons, List.map_nil, List.prod_nil, List.prod_cons,
      List.length_append, List.length_cons, mul_one,
      List.length_nil, Nat.mul_add, Nat.zero_add, Nat.mul_one] at this ⊢
    rw [Transform3.slackInv, List.foldl_append, List.foldl_cons, List.foldl_nil]
    exact this

theorem chain_prod_rows3 {L : List (Matrix (Fin 4) (Fin 4) ℝ)} {R : ℝ} (hR : 0 ≤ R)
    (hL : ∀ M ∈ L, ∀ i, ∑ j, |M i j| ≤ R) :
    (∀ i j, 0 ≤ (L.map fun M => M.map abs).prod i j) ∧ ∀ i, ∑ j, (L.map fun M => M.map abs).prod i j ≤ R ^ L.length := by
  induction L with
  | nil =>
    constructor
    · intro i j; simp only [List.map_nil, List.prod_nil, Matrix.one_apply]; split_ifs <;> norm_num
    · intro i; simp [Matrix.one_apply]
  | cons M L ih =>
    have ih := ih fun M hM => hL M (List.mem_cons_of_mem _ hM)
    have hM := hL M List.mem_cons_self
    simp only [List.map_cons, List.prod_cons, List.length_cons, pow_succ']
    refine ⟨fun i j => ?_, fun i => ?_⟩
    · rw [Matrix.mul_apply]
      exact Finset.sum_nonneg fun k _ => mul_nonneg (abs_nonneg _) (ih.1 k j)
    · calc ∑ j, (M.map abs * (L.map fun M => M.map abs).prod) i j
          = ∑ k, |M i k| * ∑ j, (L.map fun M => M.map abs).prod k j := by
            simp only [Matrix.mul_apply, Matrix.map_apply, Finset.mul_sum]
            exact Finset.sum_comm
        _ ≤ ∑ k, |M i k| * R ^ L.length :=
            Finset.sum_le_sum fun k _ => mul_le_mul_of_nonneg_left (ih.2 k) (abs_nonneg _)
        _ = (∑ k, |M i k|) * R ^ L.length := (Finset.sum_mul ..).symm
        _ ≤ R * R ^ L.length := mul_le_mul_of_nonneg_right (hM i) (pow_nonneg hR _)

/-- **C71** in closed form: if the absolute values in every row of every forward matrix sum to at most `R ≥ 1`, then
the error of `n` compositions is at most `((1+u)^(4n) - 1) R^(n+1)`, plus an underflow term of at most
`n ((1+u)^4 R)^n (1+u)^3 4 tiny`. -/
theorem C71_closed3 (t : Transform3 S) (ts : List (Transform3 S)) {R : ℝ} (hR : 1 ≤ R)
    (hrow : ∀ u ∈ t :: ts, ∀ i, ∑ j, |u.forward.toReal i j| ≤ R)
    (h : AllFinite (ts.foldl Transform3.andThen t).forward) (i j : Fin 4) :
    |(ts.foldl Transform3.andThen t).forward.toReal i j
        - ((t :: ts).map fun u => u.forward.toReal).reverse.prod i j| ≤
      ((1 + uro S) ^ (4 * ts.length) - 1) * R ^ (ts.length + 1)
        + ts.length * ((1 + uro S) ^ 4 * R) ^ ts.length * ((1 + uro S) ^ 3 * (4 * tiny S)) := by
  have hu := uro_pos (S := S)
  have ht := tiny_pos (S := S)
  have hR0 : 0 ≤ R := by linarith
  refine (C71_forward3 t ts h i j).trans (add_le_add (mul_le_mul_of_nonneg_left ?_ ?_) ?_)
  · have e : ((t :: ts).map fun u => u.forward.toReal.map abs).reverse =
        ((t :: ts).map fun u => u.forward.toReal).reverse.map fun M => M.map abs := by
      rw [List.map_reverse, List.map_map]; rfl
    have := chain_prod_rows3 (L := ((t :: ts).map fun u => u.forward.toReal).reverse) hR0 (by
      intro M hM
      rw [List.mem_reverse, List.mem_map] at hM
      obtain ⟨u, hu, rfl⟩ := hM
      exact hrow u hu)
    rw [e]
    have h1 := this.2 i
    rw [List.length_reverse, List.length_map, List.length_cons] at h1
    exact (Finset.single_le_sum (fun k _ => this.1 i k) (Finset.mem_univ j)).trans h1
  · have := one_le_pow₀ (M₀ := ℝ) (a := 1 + uro S) (n := 4 * ts.length) (by linarith)
    linarith
  · have hts : ∀ u ∈ ts, ∀ i, ∑ j, |u.forward.toReal i j| ≤ R := fun u hu => hrow u (List.mem_cons_of_mem _ hu)
    clear h hrow
    set τ := (1 + uro S) ^ 3 * (4 * tiny S) with hτ
    have hτ0 : 0 ≤ τ := by positivity
    have hw : 1 ≤ (1 + uro S) ^ 4 * R := one_le_mul_of_one_le_of_one_le (one_le_pow₀ (by linarith)) hR
    induction ts using List.reverseRecOn generalizing i j with
    | nil => simp [Transform3.slack]
    | append_singleton ts u ih =>
      have ih := fun i j => ih i j fun u hu => hts u (List.mem_append_left _ hu)
      have hu' := hts u (List.mem_append_right _ List.mem_cons_self)
      rw [Transform3.slack, List.foldl_append, List.foldl_cons, List.foldl_nil]
      show (1 + uro S) ^ 4 * (u.forward.toReal.map abs * Transform3.slack ts) i j + τ ≤ _
      have h0 : 0 ≤ (ts.length : ℝ) * ((1 + uro S) ^ 4 * R) ^ ts.length * τ := by positivity
      have h1 := rows_mul (A := u.forward.toReal.map abs) (fun i j => abs_nonneg _) hu' ih h0 i j
      have h2 := mul_le_mul_of_nonneg_left h1 (by positivity : 0 ≤ (1 + uro S) ^ 4)
      rw [List.length_append, List.length_cons, List.length_nil, Nat.zero_add, pow_succ _ ts.length]
      push_cast
      have h3 : τ ≤ ((1 + uro S) ^ 4 * R) ^ (ts.length + 1) * τ :=
        le_mul_of_one_le_left hτ0 (one_le_pow₀ hw)
      rw [pow_succ _ ts.length] at h3
      generalize hX : ((1 + uro S) ^ 4 * R) ^ ts.length = X at h2 h3 ⊢
      have e : (1 + uro S) ^ 4 * (R * (ts.length * X * τ)) = ts.length * (X * ((1 + uro S) ^ 4 * R)) * τ := by ring
      rw [e] at h2
      rw [add_mul, add_mul, one_mul]
      exact add_le_add h2 h3

theorem grid_mul3 {A B : Matrix (Fin 4) (Fin 4) ℝ} {M K : ℕ} (hA : ∀ i j, OnGrid 0 M (A i j))
    (hB : ∀ i j, OnGrid 0 K (B i j)) (i j : Fin 4) : OnGrid 0 (4 * (M * K)) ((A * B) i j) := by
  rw [Matrix.mul_apply, Fin.sum_univ_four]
  have h := fun k => ((hA i k).mul (hB k j)).exp (add_zero 0)
  exact ((((h 0).add (h 1)).add (h 2)).add (h 3)).mono (by omega)

/-- **C71** exactness: a chain of transforms whose matrices have integer entries of magnitude at most `M` is
composed without any error as long as `M^(n+1) 4^n` is exactly representable (`2^24` for `f32`). -/
theorem C71_exact3 (t : Transform3 S) (ts : List (Transform3 S)) {M : ℕ} (hM : 1 ≤ M)
    (hf : ∀ u ∈ t :: ts, AllFinite u.forward ∧ AllFinite u.inverse)
    (hg : ∀ u ∈ t :: ts, ∀ i j, OnGrid 0 M (u.forward.toReal i j) ∧ OnGrid 0 M (u.inverse.toReal i j))
    (hF : Fits S 0 (M ^ (ts.length + 1) * 4 ^ ts.length)) :
    (AllFinite (ts.foldl Transform3.andThen t).forward ∧ AllFinite (ts.foldl Transform3.andThen t).inverse) ∧
    (ts.foldl Transform3.andThen t).forward.toReal = ((t :: ts).map fun u => u.forward.toReal).reverse.prod ∧
    (ts.foldl Transform3.andThen t).inverse.toReal = ((t :: ts).map fun u => u.inverse.toReal).prod := by
  suffices H : ((AllFinite (ts.foldl Transform3.andThen t).forward ∧ AllFinite (ts.foldl Transform3.andThen t).inverse) ∧
    (ts.foldl Transform3.andThen t).forward.toReal = ((t :: ts).map fun u => u.forward.toReal).reverse.prod ∧
    (ts.foldl Transform3.andThen t).inverse.toReal = ((t :: ts).map fun u => u.inverse.toReal).prod) ∧
    ∀ i j, OnGrid 0 (M ^ (ts.length + 1) * 4 ^ ts.length) ((ts.foldl Transform3.andThen t).forward.toReal i j) ∧
      OnGrid 0 (M ^ (ts.length + 1) * 4 ^ ts.length) ((ts.foldl Transform3.andThen t).inverse.toReal i j) from H.1
  induction ts using List.reverseRecOn with
  | nil => simpa using ⟨hf t List.mem_cons_self, hg t List.mem_cons_self⟩
  | append_singleton ts u ih =>
    rw [← List.cons_append] at *
    have hu : u ∈ t :: ts ++ [u] := List.mem_append_right _ List.mem_cons_self
    have e : M ^ ((ts ++ [u]).length + 1) * 4 ^ (ts ++ [u]).length =
        4 * (M * (M ^ (ts.length + 1) * 4 ^ ts.length)) := by
      rw [List.length_append, List.length_singleton, pow_succ, pow_succ 4]; ring
    rw [e] at hF ⊢
    have ih := ih (fun v hv => hf v (List.mem_append_left _ hv)) (fun v hv => hg v (List.mem_append_left _ hv))
      (hF.mono (by nlinarith [Nat.zero_le (M ^ (ts.length + 1) * 4 ^ ts.length)]))
    obtain ⟨⟨⟨f1, f2⟩, e1, e2⟩, g⟩ := ih
    have hF' : Fits S (0 + 0) (4 * (M * (M ^ (ts.length + 1) * 4 ^ ts.length))) := by rwa [add_zero]
    have p1 := C68_product4x4 u.forward _ (hf u hu).1 f1 (fun i j => (hg u hu i j).1) (fun i j => (g i j).1) hF'
    have p2 := C68_product4x4 _ u.inverse f2 (hf u hu).2 (fun i j => (g i j).2) (fun i j => (hg u hu i j).2)
      (by rwa [mul_comm _ M])
    rw [List.foldl_append, List.foldl_cons, List.foldl_nil, List.map_append, List.map_append, List.reverse_append,
      List.prod_append, List.prod_append, ← e1, ← e2]
    simp only [List.map_cons, List.map_nil, List.prod_cons, List.prod_nil, List.reverse_cons, List.reverse_nil,
      List.nil_append, mul_one]
    refine ⟨⟨⟨p1.1, p2.1⟩, p1.2, p2.2⟩, fun i j => ⟨?_, ?_⟩⟩
    · refine (grid_mul3 (fun i j => (hg u hu i j).1) (fun i j => (g i j).1) i j).congr ?_
      rw [← p1.2]; rfl
    · refine ((grid_mul3 (fun i j => (g i j).2) (fun i j => (hg u hu i j).2) i j).mono ?_).congr ?_
      · rw [mul_comm M]
      · rw [← p2.2]; rfl

end VecMath

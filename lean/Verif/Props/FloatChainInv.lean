import Verif.Props.FloatChain
import Verif.Props.FloatExamples3
/-!
# Layer F: the closed error bound of a chain, for the stored inverse (C71)

(Generated by tools/gen/c71c.py.)
-/
open Classical

namespace VecMath
open Scalar IEEE

variable {S : Type} [Scalar S] [IEEE S] [Binary S]

theorem chain_prod_cols2 {L : List (Matrix (Fin 3) (Fin 3) ℝ)} {R : ℝ} (hR : 0 ≤ R)
    (hL : ∀ M ∈ L, ∀ j, ∑ i, |M i j| ≤ R) :
    (∀ i j, 0 ≤ (L.map fun M => M.map abs).prod i j) ∧ ∀ j, ∑ i, (L.map fun M => M.map abs).prod i j ≤ R ^ L.length := by
  have h := chain_prod_rows2 (L := (L.map Matrix.transpose).reverse) hR (by
    intro M hM
    rw [List.mem_reverse, List.mem_map] at hM
    obtain ⟨M', h', rfl⟩ := hM
    exact hL M' h')
  have e : (((L.map Matrix.transpose).reverse).map fun M : Matrix (Fin 3) (Fin 3) ℝ => M.map abs).prod = (L.map fun M : Matrix (Fin 3) (Fin 3) ℝ => M.map abs).prod.transpose := by
    rw [Matrix.transpose_list_prod, List.map_reverse, List.map_map, List.map_map]
    congr 1
  rw [e, List.length_reverse, List.length_map] at h
  exact ⟨fun i j => h.1 j i, h.2⟩

/-- **C71** in closed form for the stored inverse: if the absolute values in every column of every inverse matrix sum
to at most `R ≥ 1`, the error of `n` compositions is bounded as that of the forward matrix. -/
theorem C71_closed_inverse2 (t : Transform2 S) (ts : List (Transform2 S)) {R : ℝ} (hR : 1 ≤ R)
    (hcol : ∀ u ∈ t :: ts, ∀ j, ∑ i, |u.inverse.toReal i j| ≤ R)
    (h : AllFinite (ts.foldl Transform2.andThen t).inverse) (i j : Fin 3) :
    |(ts.foldl Transform2.andThen t).inverse.toReal i j
        - ((t :: ts).map fun u => u.inverse.toReal).prod i j| ≤
      ((1 + uro S) ^ (3 * ts.length) - 1) * R ^ (ts.length + 1)
        + ts.length * ((1 + uro S) ^ 3 * R) ^ ts.length * ((1 + uro S) ^ 2 * (3 * tiny S)) := by
  have hu := uro_pos (S := S)
  have ht := tiny_pos (S := S)
  have hR0 : 0 ≤ R := by linarith
  refine (C71_inverse2 t ts h i j).trans (add_le_add (mul_le_mul_of_nonneg_left ?_ ?_) ?_)
  · have e : ((t :: ts).map fun u => u.inverse.toReal.map abs) =
        ((t :: ts).map fun u => u.inverse.toReal).map fun M => M.map abs := by
      rw [List.map_map]; rfl
    have := chain_prod_cols2 (L := ((t :: ts).map fun u => u.inverse.toReal)) hR0 (by
      intro M hM
      rw [List.mem_map] at hM
      obtain ⟨u, hu, rfl⟩ := hM
      exact hcol u hu)
    rw [e]
    have h1 := this.2 j
    rw [List.length_map, List.length_cons] at h1
    exact (Finset.single_le_sum (fun k _ => this.1 k j) (Finset.mem_univ i)).trans h1
  · have := one_le_pow₀ (M₀ := ℝ) (a := 1 + uro S) (n := 3 * ts.length) (by linarith)
    linarith
  · have hts : ∀ u ∈ ts, ∀ j, ∑ i, |u.inverse.toReal i j| ≤ R := fun u hu => hcol u (List.mem_cons_of_mem _ hu)
    clear h hcol
    set τ := (1 + uro S) ^ 2 * (3 * tiny S) with hτ
    have hτ0 : 0 ≤ τ := by positivity
    have hw : 1 ≤ (1 + uro S) ^ 3 * R := one_le_mul_of_one_le_of_one_le (one_le_pow₀ (by linarith)) hR
    induction ts using List.reverseRecOn generalizing i j with
    | nil => simp [Transform2.slackInv]
    | append_singleton ts u ih =>
      have ih := fun i j => ih i j fun u hu => hts u (List.mem_append_left _ hu)
      have hu' := hts u (List.mem_append_right _ List.mem_cons_self)
      rw [Transform2.slackInv, List.foldl_append, List.foldl_cons, List.foldl_nil]
      show (1 + uro S) ^ 3 * (Transform2.slackInv ts * u.inverse.toReal.map abs) i j + τ ≤ _
      have h0 : 0 ≤ (ts.length : ℝ) * ((1 + uro S) ^ 3 * R) ^ ts.length * τ := by positivity
      have h1 := cols_mul (B := u.inverse.toReal.map abs) (fun i j => abs_nonneg _) hu' ih h0 i j
      have h2 := mul_le_mul_of_nonneg_left h1 (by positivity : 0 ≤ (1 + uro S) ^ 3)
      rw [List.length_append, List.length_cons, List.length_nil, Nat.zero_add, pow_succ _ ts.length]
      push_cast
      have h3 : τ ≤ ((1 + uro S) ^ 3 * R) ^ (ts.length + 1) * τ :=
        le_mul_of_one_le_left hτ0 (one_le_pow₀ hw)
      rw [pow_succ _ ts.length] at h3
      generalize hX : ((1 + uro S) ^ 3 * R) ^ ts.length = X at h2 h3 ⊢
      have e : (1 + uro S) ^ 3 * (R * (ts.length * X * τ)) = ts.length * (X * ((1 + uro S) ^ 3 * R)) * τ := by ring
      rw [e] at h2
      rw [add_mul, add_mul, one_mul]
      exact add_le_add h2 h3

theorem chain_prod_cols3 {L : List (Matrix (Fin 4) (Fin 4) ℝ)} {R : ℝ} (hR : 0 ≤ R)
    (hL : ∀ M ∈ L, ∀ j, ∑ i, |M i j| ≤ R) :
    (∀ i j, 0 ≤ (L.map fun M => M.map abs).prod i j) ∧ ∀ j, ∑ i, (L.map fun M => M.map abs).prod i j ≤ R ^ L.length := by
  have h := chain_prod_rows3 (L := (L.map Matrix.transpose).reverse) hR (by
    intro M hM
    rw [List.mem_reverse, List.mem_map] at hM
    obtain ⟨M', h', rfl⟩ := hM
    exact hL M' h')
  have e : (((L.map Matrix.transpose).reverse).map fun M : Matrix (Fin 4) (Fin 4) ℝ => M.map abs).prod = (L.map fun M : Matrix (Fin 4) (Fin 4) ℝ => M.map abs).prod.transpose := by
    rw [Matrix.transpose_list_prod, List.map_reverse, List.map_map, List.map_map]
    congr 1
  rw [e, List.length_reverse, List.length_map] at h
  exact ⟨fun i j => h.1 j i, h.2⟩

/-- **C71** in closed form for the stored inverse: if the absolute values in every column of every inverse matrix sum
to at most `R ≥ 1`, the error of `n` compositions is bounded as that of the forward matrix. -/
theorem C71_closed_inverse3 (t : Transform3 S) (ts : List (Transform3 S)) {R : ℝ} (hR : 1 ≤ R)
    (hcol : ∀ u ∈ t :: ts, ∀ j, ∑ i, |u.inverse.toReal i j| ≤ R)
    (h : AllFinite (ts.foldl Transform3.andThen t).inverse) (i j : Fin 4) :
    |(ts.foldl Transform3.andThen t).inverse.toReal i j
        - ((t :: ts).map fun u => u.inverse.toReal).prod i j| ≤
      ((1 + uro S) ^ (4 * ts.length) - 1) * R ^ (ts.length + 1)
        + ts.length * ((1 + uro S) ^ 4 * R) ^ ts.length * ((1 + uro S) ^ 3 * (4 * tiny S)) := by
  have hu := uro_pos (S := S)
  have ht := tiny_pos (S := S)
  have hR0 : 0 ≤ R := by linarith
  refine (C71_inverse3 t ts h i j).trans (add_le_add (mul_le_mul_of_nonneg_left ?_ ?_) ?_)
  · have e : ((t :: ts).map fun u => u.inverse.toReal.map abs) =
        ((t :: ts).map fun u => u.inverse.toReal).map fun M => M.map abs := by
      rw [List.map_map]; rfl
    have := chain_prod_cols3 (L := ((t :: ts).map fun u => u.inverse.toReal)) hR0 (by
      intro M hM
      rw [List.mem_map] at hM
      obtain ⟨u, hu, rfl⟩ := hM
      exact hcol u hu)
    rw [e]
    have h1 := this.2 j
    rw [List.length_map, List.length_cons] at h1
    exact (Finset.single_le_sum (fun k _ => this.1 k j) (Finset.mem_univ i)).trans h1
  · have := one_le_pow₀ (M₀ := ℝ) (a := 1 + uro S) (n := 4 * ts.length) (by linarith)
    linarith
  · have hts : ∀ u ∈ ts, ∀ j, ∑ i, |u.inverse.toReal i j| ≤ R := fun u hu => hcol u (List.mem_cons_of_mem _ hu)
    clear h hcol
    set τ := (1 + uro S) ^ 3 * (4 * tiny S) with hτ
    have hτ0 : 0 ≤ τ := by positivity
    have hw : 1 ≤ (1 + uro S) ^ 4 * R := one_le_mul_of_one_le_of_one_le (one_le_pow₀ (by linarith)) hR
    induction ts using List.reverseRecOn generalizing i j with
    | nil => simp [Transform3.slackInv]
    | append_singleton ts u ih =>
      have ih := fun i j => ih i j fun u hu => hts u (List.mem_append_left _ hu)
      have hu' := hts u (List.mem_append_right _ List.mem_cons_self)
      rw [Transform3.slackInv, List.foldl_append, List.foldl_cons, List.foldl_nil]
      show (1 + uro S) ^ 4 * (Transform3.slackInv ts * u.inverse.toReal.map abs) i j + τ ≤ _
      have h0 : 0 ≤ (ts.length : ℝ) * ((1 + uro S) ^ 4 * R) ^ ts.length * τ := by positivity
      have h1 := cols_mul (B := u.inverse.toReal.map abs) (fun i j => abs_nonneg _) hu' ih h0 i j
      have h2 := mul_le_mul_of_nonneg_left h1 (by positivity : 0 ≤ (1 + uro S) ^ 4)
      rw [List.length_append, List.length_cons, List.length_nil, Nat.zero_add, pow_succ _ ts.length]
      push_cast
      have h3 : τ ≤ ((1 + uro S) ^ 4 * R) ^ (ts.length + 1) * τ :=
        le_mul_of_one_le_left hτ0 (one_le_pow₀ hw)
      rw [pow_succ _ ts.length] at h3
      generalize hX : ((1 + uro S) ^ 4 * R) ^ ts.length = X at h2 h3 ⊢
      have e : (1 + uro S) ^ 4 * (R * (ts.length * X * τ)) = ts.length * (X * ((1 + uro S) ^ 4 * R)) * τ := by ring
      rw [e] at h2
      rw [add_mul, add_mul, one_mul]
      exact add_le_add h2 h3

/-! ### A concrete chain meets the hypotheses -/

example (i j : Fin 3) := C71_closed_inverse2 (R := 10) shearT [shearT, shearT.inv, shearT] (by norm_num)
  (by
    have h1 : ∀ j, ∑ i, |shear.toReal i j| ≤ 10 := fun j => by
      rw [Fin.sum_univ_three]
      fin_cases j
      · show |((1 : ℤ) : ℝ)| + |((0 : ℤ) : ℝ)| + |((0 : ℤ) : ℝ)| ≤ 10; norm_num
      · show |((2 : ℤ) : ℝ)| + |((1 : ℤ) : ℝ)| + |((0 : ℤ) : ℝ)| ≤ 10; norm_num
      · show |((3 : ℤ) : ℝ)| + |((4 : ℤ) : ℝ)| + |((1 : ℤ) : ℝ)| ≤ 10; norm_num
    have h2 : ∀ j, ∑ i, |shearInv.toReal i j| ≤ 10 := fun j => by
      rw [Fin.sum_univ_three]
      fin_cases j
      · show |((1 : ℤ) : ℝ)| + |((0 : ℤ) : ℝ)| + |((0 : ℤ) : ℝ)| ≤ 10; norm_num
      · show |((-2 : ℤ) : ℝ)| + |((1 : ℤ) : ℝ)| + |((0 : ℤ) : ℝ)| ≤ 10; norm_num
      · show |((5 : ℤ) : ℝ)| + |((-4 : ℤ) : ℝ)| + |((1 : ℤ) : ℝ)| ≤ 10; norm_num
    intro u hu
    simp only [List.mem_cons, List.not_mem_nil, or_false] at hu
    rcases hu with rfl | rfl | rfl | rfl
    exacts [h2, h2, h1, h2]) shear_chain.2 i j
example (i j : Fin 4) := C71_closed_inverse3 (R := 10) shear3T [shear3T, shear3T, shear3T] (by norm_num)
  (fun u hu => by
    have h1 : ∀ j, ∑ i, |shear3.toReal i j| ≤ 10 := fun j => by
      rw [Fin.sum_univ_four]
      fin_cases j
      · show |((1 : ℤ) : ℝ)| + |((0 : ℤ) : ℝ)| + |((0 : ℤ) : ℝ)| + |((0 : ℤ) : ℝ)| ≤ 10; norm_num
      · show |((2 : ℤ) : ℝ)| + |((1 : ℤ) : ℝ)| + |((0 : ℤ) : ℝ)| + |((0 : ℤ) : ℝ)| ≤ 10; norm_num
      · show |((0 : ℤ) : ℝ)| + |((-1 : ℤ) : ℝ)| + |((1 : ℤ) : ℝ)| + |((0 : ℤ) : ℝ)| ≤ 10; norm_num
      · show |((3 : ℤ) : ℝ)| + |((4 : ℤ) : ℝ)| + |((1 : ℤ) : ℝ)| + |((1 : ℤ) : ℝ)| ≤ 10; norm_num
    simp only [List.mem_cons, List.not_mem_nil, or_false] at hu
    rcases hu with rfl | rfl | rfl | rfl <;> exact h1) shear3_chain.2 i j

end VecMath

section
variable {m n : $M Ideal}
theorem $M.inverse_cases (h : AllFinite m) :
    (m.toReal.det = 0 ∧ m.inverse = .error .mk) ∨
    (m.toReal.det ≠ 0 ∧ ∃ n, m.inverse = .ok n ∧ AllFinite n ∧ n.toReal = (m.toReal)⁻¹) := by
  have hd := $M.fin_det h
  rw [$M.inverse_eq, ← $M.real_det h]
  by_cases h0 : real m.det = 0
  · left
    rw [if_neg (by rw [ideal_bne_zero hd]; exact not_not.2 h0)]
    exact ⟨h0, rfl⟩
  · right
    rw [if_pos ((ideal_bne_zero hd).2 h0)]
    refine ⟨h0, _, rfl, $M.fin_divs ($M.fin_adj h) hd h0, ?_⟩
    rw [$M.toReal_divs ($M.fin_adj h) hd h0, $M.toReal_adj h, Matrix.inv_def, $M.real_det h, Ring.inverse_eq_inv]
theorem $M.inverse_ok (h : AllFinite m) (e : m.inverse = .ok n) :
    m.toReal.det ≠ 0 ∧ AllFinite n ∧ n.toReal = (m.toReal)⁻¹ := by
  rcases $M.inverse_cases h with ⟨_, e'⟩ | ⟨h0, n', e', hf, hr⟩
  · rw [e'] at e; cases e
  · rw [e'] at e; cases e; exact ⟨h0, hf, hr⟩
end


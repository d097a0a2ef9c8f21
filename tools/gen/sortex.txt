/-! ### Concrete cases -/

example : ∃ out, StableSort (fun v w : Vector2 F32 => RelativeLength.isShorterThan v w) cands2.leaves out ∧
    out.Pairwise (fun v w => RelativeLength.isShorterThan w v = false ∧ (Api.length v ≤? Api.length w) = true) := by
  obtain ⟨out, h, -⟩ := (C94_stable_shorter2 cands2.leaves cands2_ok).1
  exact ⟨out, h, (C94_sorted_shorter2 out (fun v hv => cands2_ok v (h.perm.mem_iff.1 hv)) h.sorted).1⟩
example : ∃ out, StableSort (fun v w : Vector3 F32 => RelativeLength.isLongerThan v w) cands3.leaves out ∧
    out.Pairwise (fun v w => RelativeLength.isLongerThan w v = false ∧ (Api.length w ≤? Api.length v) = true) := by
  obtain ⟨out, h, -⟩ := (C94_stable_longer3 cands3.leaves cands3_ok).1
  exact ⟨out, h, (C94_sorted_longer3 out (fun v hv => cands3_ok v (h.perm.mem_iff.1 hv)) h.sorted).1⟩
example (o : Point3 F32) (l : List (Point3 F32)) (ho : AllFinite o) (h : ∀ p ∈ l, AllFinite p) :=
  C94_stable_closer3 o l fun p hp => distance_nn3 ho (h p hp)
/-- a NaN between 2 and 1 -/
example : SortedBy (fun v w : F32 => RelativeLength.isShorterThan v w) [int32 2, nan32, int32 1] := by
  refine (C94_nan_shorter1 (int32 1) (int32 2) nan32 ?_ (not_not.2 isNaN_nan32)).1
  have h1 : ¬ IsNaN (Api.length (int32 1)) := mt length1_isNaN.1 finite_int32.not_nan
  have h2 : ¬ IsNaN (Api.length (int32 2)) := mt length1_isNaN.1 finite_int32.not_nan
  refine (lt_of_not_nan h1 h2).2 ?_
  show val (Scalar.abs (int32 1)) < val (Scalar.abs (int32 2))
  rw [(finite_abs.2 finite_int32).val, (finite_abs.2 finite_int32).val, real_abs, real_abs, real_int32, real_int32, EReal.coe_lt_coe_iff]
  norm_num

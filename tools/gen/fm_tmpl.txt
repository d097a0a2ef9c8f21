/-! ## $M, $T -/

/-- **C40** in floats: transposing a product gives exactly the product of the transposes in reverse
order. -/
theorem C40_float_product$D (a b : $M S) : SameAll (a * b).transpose (b.transpose * a.transpose) := by
  rw [$M.sameAll, forall_lt_$N]
  mat_simp []
  refine ⟨$HOLES⟩ <;> exact $SAMEADD

/-- **C41** in floats: the identity is a two-sided unit for every finite matrix. -/
theorem C41_float_identity$D (m : $M S) (h : AllFinite m) :
    (m * $M.identity == m) = true ∧ ($M.identity * m == m) = true := by
  have hf := $M.allFinite.1 h
  rw [$M.beq_iff, $M.beq_iff, forall_lt_$N, forall_lt_$N]
  rw [forall_lt_$N] at hf
  obtain ⟨$HS⟩ := hf
  constructor <;> refine ⟨$HOLES⟩ <;> refine beq_of_num' ?_ (IsFinite.not_nan (by assumption)) <;>
    mat_simp [] <;> num_simp [$HS]

/-- **C43** in floats: row-vector products are exactly the products with the transpose. -/
theorem C43_float_row$D (m : $M S) (p : $P S) (v : $V S) :
    SameAll (p * m) (m.transpose * p) ∧ SameAll (v * m) (m.transpose * v) := by
  rw [$P.sameAll, $V.sameAll]
  mat_simp []
  refine ⟨⟨$HOLESP⟩, ⟨$HOLESP⟩⟩ <;> simp only [Same, den_div, den_add, den_mul, Rounding.mul_comm]

/-- **C46** in floats: `translate(v)` maps the finite point `p` to `p + v` (even when `v` is infinite),
and leaves finite vectors unchanged. -/
theorem C46_float_translate$D (v u : $V S) (p : $P S) (hp : AllFinite p) (hv : NoNaN v)
    (hu : AllFinite u) :
    (Transform.transform ($T.translate v) p == p + v) = true ∧
    (Transform.transform ($T.translate v) u == u) = true := by
  show ($M.translate v * p == p + v) = true ∧ ($M.translate v * u == u) = true
  rw [$P.allFinite] at hp
  rw [$V.allFinite] at hu
  rw [$V.noNaN] at hv
  obtain ⟨$HPS⟩ := hp
  obtain ⟨$HUS⟩ := hu
  obtain ⟨$HVS⟩ := hv
  rw [$P.beq_iff, $V.beq_iff]
  refine ⟨⟨$HOLESP⟩, ⟨$HOLESP⟩⟩
  all_goals refine beq_of_num' ?_ ?_
  all_goals first
    | exact IsFinite.not_nan (by assumption)
    | (exact isNaN_add_finite (by assumption) (by assumption))
    | (mat_simp [$P.add_x, $P.add_y$ADDZ]
       refine num_div_of_one ?_ ?_ <;> num_simp [$HPS])
    | (mat_simp []; num_simp [$HUS])

/-- **C46** in floats: `scale` multiplies each coordinate by its factor. -/
theorem C46_float_scale$D ($FACT : S) (u : $V S) (p : $P S) $FHYP (hp : AllFinite p) (hu : AllFinite u) :
    (Transform.transform ($T.scale $FACT) p == $P.new $SP) = true ∧
    (Transform.transform ($T.scale $FACT) u == $V.new $SU) = true := by
  show ($M.scale $FACT * p == $P.new $SP) = true ∧ ($M.scale $FACT * u == $V.new $SU) = true
  rw [$P.allFinite] at hp
  rw [$V.allFinite] at hu
  obtain ⟨$HPS⟩ := hp
  obtain ⟨$HUS⟩ := hu
  rw [$P.beq_iff, $V.beq_iff]
  refine ⟨⟨$HOLESP⟩, ⟨$HOLESP⟩⟩
  all_goals refine beq_of_num' ?_ (by exact isNaN_mul_finite (by assumption) (by assumption))
  all_goals first
    | (mat_simp [$P.new]
       refine num_div_of_one ?_ ?_ <;> num_simp [$HPS, $HFS])
    | (mat_simp [$V.new]; num_simp [$HUS, $HFS])

/-- **C46**: `scale_uniform(s)` is `scale(s, ..., s)`, in every arithmetic. -/
theorem C46_scale_uniform$D (s : S) :
    $T.scaleUniform s = $T.scale $SSS ∧ $M.scaleUniform s = $M.scale $SSS := ⟨rfl, rfl⟩

/-- **C46** in floats: `identity` leaves finite points and vectors unchanged. -/
theorem C46_float_identity$D (u : $V S) (p : $P S) (hp : AllFinite p) (hu : AllFinite u) :
    (Transform.transform ($T.identity : $T S) p == p) = true ∧
    (Transform.transform ($T.identity : $T S) u == u) = true := by
  show ($M.identity * p == p) = true ∧ ($M.identity * u == u) = true
  rw [$P.allFinite] at hp
  rw [$V.allFinite] at hu
  obtain ⟨$HPS⟩ := hp
  obtain ⟨$HUS⟩ := hu
  rw [$P.beq_iff, $V.beq_iff]
  refine ⟨⟨$HOLESP⟩, ⟨$HOLESP⟩⟩
  all_goals refine beq_of_num' ?_ (IsFinite.not_nan (by assumption))
  all_goals first
    | (mat_simp []
       refine num_div_of_one ?_ ?_ <;> num_simp [$HPS])
    | (mat_simp []; num_simp [$HUS])

/-- **C49** in floats: `translate` of a finite vector stores its exact inverse. -/
theorem C49_float_translate$D (v : $V S) (hv : AllFinite v) :
    (($T.translate v).forward * ($T.translate v).inverse == $M.identity) = true ∧
    (($T.translate v).inverse * ($T.translate v).forward == $M.identity) = true := by
  show ($M.translate v * $M.translate (-v) == $M.identity) = true ∧
    ($M.translate (-v) * $M.translate v == $M.identity) = true
  rw [$V.allFinite] at hv
  obtain ⟨$HVS⟩ := hv
  rw [$M.beq_iff, $M.beq_iff, forall_lt_$N, forall_lt_$N]
  mat_simp [$V.neg_x, $V.neg_y$NEGZ]
  constructor <;> refine ⟨$HOLES⟩ <;>
    refine beq_of_num' ?_ (by first | exact not_nan_zero | exact not_nan_one) <;>
    num_simp [$HVS, finite_neg]

/-- **C49** in floats: a zero scale factor is not rejected; the stored inverse then contains an
infinity. -/
theorem C49_float_scale_zero$D ($FACT : S) (h : $ZDISJ) :
    ∃ s ∈ Comps.comps ($T.scale $FACT).inverse, ¬ IsNaN s ∧ ¬ IsFinite s := by
  have key : ∀ s : S, (s == zero) = true → ¬ IsNaN (recip s) ∧ ¬ IsFinite (recip s) := by
    intro s hs
    obtain ⟨t, ht⟩ := one_div_zero_val hs
    simp [IsNaN, IsFinite, recip, ht]
  rcases h with $RC
  $ZCASES


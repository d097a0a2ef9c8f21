/-! ## Matrix${n}x${n} -/

/-- Homogeneous coordinates of a point: last coordinate 1. -/
noncomputable def $P.hom (p : $P Ideal) : Fin $n → ℝ := ![$PXS, 1]
/-- Homogeneous coordinates of a vector: last coordinate 0. -/
noncomputable def $V.hom (p : $V Ideal) : Fin $n → ℝ := ![$PXS, 0]
/-- The homogeneous weight of the image of a point: the last coordinate of the matrix applied to the
homogeneous coordinates of the point. -/
noncomputable def $M.weight (m : $M Ideal) (p : $P Ideal) : ℝ := (m.toReal.mulVec p.hom) (Fin.last $D)
/-- The last row is `0 ... 0 1`. -/
def $M.Affine (m : $M Ideal) : Prop :=
  ∀ j : Fin $n, m.toReal (Fin.last $D) j = if j = Fin.last $D then 1 else 0
/-- The linear part: the upper left block. -/
noncomputable def $M.linear (m : $M Ideal) : Matrix (Fin $D) (Fin $D) ℝ :=
  fun i j => m.toReal i.castSucc j.castSucc
/-- The translation part: the upper part of the last column. -/
noncomputable def $M.offset (m : $M Ideal) : Fin $D → ℝ := fun i => m.toReal i.castSucc (Fin.last $D)
/-- The two matrices of the transform are inverse to each other (exactly, under the crate's own `*` and
`==`). -/
def $Tr.Paired (t : $Tr Ideal) : Prop :=
  (t.forward * t.inverse == $M.identity) = true ∧ (t.inverse * t.forward == $M.identity) = true
/-- The transform, applied to vectors, preserves dot products and lengths, applied to points preserves
distances, and it preserves orientation. -/
structure $Tr.Rigid (t : $Tr Ideal) : Prop where
  dot : ∀ u v : $V Ideal, AllFinite u → AllFinite v →
    (Api.dot (Transform.transform t u : $V Ideal) (Transform.transform t v : $V Ideal) == Api.dot u v) = true
  length : ∀ v : $V Ideal, AllFinite v →
    (Api.length (Transform.transform t v : $V Ideal) == Api.length v) = true
  distance : ∀ p q : $P Ideal, AllFinite p → AllFinite q →
    (Api.distance (Transform.transform t p : $P Ideal) (Transform.transform t q : $P Ideal)
      == Api.distance p q) = true
  orientation : t.forward.linear.det = 1


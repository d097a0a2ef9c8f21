H=open('/verif/lean/Verif/Props/FloatTurns.lean').read()
H=H[:H.index('/-- **C72** Composing any number of rotations about')] if '/-- **C72** Composing any number of rotations about' in H else H
out=''
K='(1 + 4 * ((1 + uro S) ^ 4 - 1) + 4 * ((1 + uro S) ^ 3 * (4 * tiny S)))'
for X,x,ax in (('X','x','![1, 0, 0]'),('Y','y','![0, 1, 0]'),('Z','z','![0, 0, 1]')):
    out+=f'''/-- **C72** Composing any number of rotations about the {x} axis by angles `a, as` yields, up to the drift, the exact
rotation by the exact sum of the angles, and its inverse is the transpose. Nothing overflows. -/
theorem C72_turns_{x} (hS : Ample S) {{δ : ℝ}} (a : S) (as : List S) (h : ∀ b ∈ a :: as, TrigWithin δ b)
    (hb : {K} ^ as.length *
        (1 + 2 * δ) ^ (as.length + 1) ≤ 2) :
    ((as.map Transform3.rotate{X}).foldl Transform3.andThen (Transform3.rotate{X} a)).forward.Near
      (turnAbout {ax} ((a :: as).map real).sum)
      ({K} ^ as.length *
        (1 + 2 * δ) ^ (as.length + 1) - 1) ∧
    ((as.map Transform3.rotate{X}).foldl Transform3.andThen (Transform3.rotate{X} a)).inverse.Near
      (turnAbout {ax} ((a :: as).map real).sum).transpose
      ({K} ^ as.length *
        (1 + 2 * δ) ^ (as.length + 1) - 1) := by
  have h1 := C72_bounded3 hS Transform3.rotate{X} a as (fun b => turnAbout {ax} (real b))
    (fun b _ => turnAbout_orth _ _ (by simp)) (fun b hb => (C72_rotate_{x} b (h b hb)).1) hb
  rw [family_prod (turnAbout {ax}) (turnAbout_mul _ (by simp))] at h1
  refine ⟨h1, near_same4 (near_transpose4 h1) fun i hi => ?_⟩
  refine C72_transpose3 _ _ (fun u hu => ?_) i hi
  rw [← List.map_cons] at hu
  obtain ⟨b, hb, rfl⟩ := List.mem_map.1 hu
  exact (C72_rotate_{x} b (h b hb)).2.2.1

'''
open('/verif/lean/Verif/Props/FloatTurns.lean','w').write(H.rstrip()+'\n\n'+out+'end VecMath\n')
out2=f'''/-- **C72** The same for rotations about a common axis given as a vector. -/
theorem C72_turns_axis (hS : Ample S) {{δ : ℝ}} (axis : Vector3 S) (a : S) (as : List S) (h : ∀ b ∈ a :: as, TrigWithin δ b)
    (hδ1 : δ ≤ 1) (hl : IsFinite (Api.length axis)) (h0 : 0 < real axis.x ^ 2 + real axis.y ^ 2 + real axis.z ^ 2)
    (hx : Normal S (real axis.x ^ 2)) (hy : Normal S (real axis.y ^ 2)) (hz : Normal S (real axis.z ^ 2))
    (qx : Normal S (real axis.x / real (Api.length axis))) (qy : Normal S (real axis.y / real (Api.length axis)))
    (qz : Normal S (real axis.z / real (Api.length axis)))
    (hb : {K} ^ as.length *
        (1 + 3 * axisErr S δ) ^ (as.length + 1) ≤ 2) :
    ((as.map (Transform3.rotateAxis axis)).foldl Transform3.andThen (Transform3.rotateAxis axis a)).forward.Near
      (turnAbout (fun i => axis.toReal i / norm2 axis.toReal) ((a :: as).map real).sum)
      ({K} ^ as.length *
        (1 + 3 * axisErr S δ) ^ (as.length + 1) - 1) ∧
    ((as.map (Transform3.rotateAxis axis)).foldl Transform3.andThen (Transform3.rotateAxis axis a)).inverse.Near
      (turnAbout (fun i => axis.toReal i / norm2 axis.toReal) ((a :: as).map real).sum).transpose
      ({K} ^ as.length *
        (1 + 3 * axisErr S δ) ^ (as.length + 1) - 1) := by
  have hr := fun b hb => C72_rotate_axis axis b hS (h b hb) hδ1 hl h0 hx hy hz qx qy qz
  set k : Fin 3 → ℝ := fun i => axis.toReal i / norm2 axis.toReal with hkd
  have hk : k 0 ^ 2 + k 1 ^ 2 + k 2 ^ 2 = 1 := by
    have hs : norm2 axis.toReal ^ 2 = real axis.x ^ 2 + real axis.y ^ 2 + real axis.z ^ 2 := by
      rw [norm2_sq, Fin.sum_univ_three]; rfl
    simp only [hkd, div_pow, hs]
    rw [← add_div, ← add_div]
    exact div_self h0.ne'
  have h1 := C72_bounded3 hS (Transform3.rotateAxis axis) a as (fun b => turnAbout k (real b))
    (fun b _ => turnAbout_orth _ _ hk) (fun b hb => (hr b hb).1) hb
  rw [family_prod (turnAbout k) (turnAbout_mul _ hk)] at h1
  refine ⟨h1, near_same4 (near_transpose4 h1) fun i hi => ?_⟩
  refine C72_transpose3 _ _ (fun u hu => ?_) i hi
  rw [← List.map_cons] at hu
  obtain ⟨b, hb, rfl⟩ := List.mem_map.1 hu
  exact (hr b hb).2.2.1

'''
open('/verif/lean/Verif/Props/FloatTurns.lean','w').write(H.rstrip()+'\n\n'+out+out2+'end VecMath\n')

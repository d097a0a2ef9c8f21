import Verif.Props.RealMesh
import Verif.Props.FloatArea
import Verif.Props.FloatSide
/-! # C128: volumes of closed meshes in floating point -/

namespace VecMath
open Scalar IEEE

section
variable {S : Type} [Scalar S] [IEEE S]
theorem num_turn_sub (x y : S) : num (y - x) = num (-(x - y)) := by
  rw [← num_neg_sub]
  exact ((same_sub y x).trans ((same_add_comm y (-x)).trans (((Same.refl (-x)).add (same_neg_neg y).symm).trans (same_sub (-x) (-y)).symm))).num
theorem Point3.tetra_back (o : Point3 S) (f : Face (Point3 S)) : num (o.tetra f.back) = num (-(o.tetra f)) := by
  have m : ∀ a b c d e : S, num ((b * c - a * d) * e) = num (-((d * a - c * b) * e)) := by
    intro a b c d e
    rw [← (same_neg_mul _ _).num]
    refine num_mul_congr ?_ rfl
    rw [← num_turn_sub]
    exact num_sub_congr (same_mul_comm _ _).num (same_mul_comm _ _).num
  rw [Point3.tetra, Point3.tetra, Vector3.dot_def, Vector3.dot_def, ← num_neg_add]
  refine num_add_congr ?_ (m _ _ _ _ _)
  rw [← num_neg_add]
  exact num_add_congr (m _ _ _ _ _) (m _ _ _ _ _)
theorem Point3.volume_map (o : Point3 S) (fs : List (Face (Point3 S))) (x : S) :
    fs.foldl (fun v f => v + o.tetra f) x = (fs.map o.tetra).foldl (· + ·) x := by rw [List.foldl_map]
end
section
variable {S : Type} [Scalar S] [IEEE S] [Binary S]
/-- **C128**: turned inside out, a surface has exactly the opposite computed volume. -/
theorem C128_back (o : Point3 S) (fs : List (Face (Point3 S))) (h : ¬ IsNaN (o.volumeFrom fs)) :
    (o.volumeFrom (fs.map Face.back) == -(o.volumeFrom fs)) = true := by
  refine beq_of_num' ?_ fun hn => h (by rwa [isNaN_neg] at hn)
  have : ∀ x y : S, num y = num (-x) → num ((fs.map Face.back).foldl (fun v f => v + o.tetra f) y) = num (-(fs.foldl (fun v f => v + o.tetra f) x)) := by
    clear h
    induction fs with
    | nil => exact fun x y e => e
    | cons f fs ih =>
      intro x y e
      refine ih (x + o.tetra f) (y + o.tetra f.back) ?_
      rw [← num_neg_add]
      exact num_add_congr e (o.tetra_back f)
  exact this zero zero area_negz.symm
/-- A tetrahedron whose corner it is seen from is flat. -/
theorem Point3.tetra_corner (o : Point3 S) (f : Face (Point3 S)) (e : f.1 = o) (h : IsFinite (o.tetra f)) : num (o.tetra f) = num (zero : S) := by
  obtain ⟨a, b, c⟩ := f
  subst e
  have zz : num ((zero : S) - zero) = num (zero : S) := (same_sub_self finite_zero).num
  have m : ∀ p q r s t : S, num p = num (zero : S) → num q = num (zero : S) → IsFinite ((p * r - q * s) * t) → num ((p * r - q * s) * t) = num (zero : S) := by
    intro p q r s t hp hq hf
    obtain ⟨h1, h2⟩ := finite_of_mul hf
    obtain ⟨h3, h4⟩ := finite_of_sub h1
    have e1 : num (p * r) = num (zero : S) := (num_mul_congr hp rfl).trans (IEEE.num_zero_mul (finite_of_mul h3).2)
    have e2 : num (q * s) = num (zero : S) := (num_mul_congr hq rfl).trans (IEEE.num_zero_mul (finite_of_mul h4).2)
    exact (num_mul_congr ((num_sub_congr e1 e2).trans zz) rfl).trans (IEEE.num_zero_mul h2)
  rw [Point3.tetra, Vector3.dot_def] at h ⊢
  obtain ⟨h1, h2⟩ := finite_of_add h
  obtain ⟨h3, h4⟩ := finite_of_add h1
  have k : ∀ p q r s t : S, IsFinite ((p * r - q * s) * t) → IsFinite p ∧ IsFinite q := fun p q r s t hf =>
    ⟨(finite_of_mul (finite_of_sub (finite_of_mul hf).1).1).1, (finite_of_mul (finite_of_sub (finite_of_mul hf).1).2).1⟩
  have s : ∀ p : S, IsFinite (p - p) → num (p - p) = num (zero : S) := fun p hf => (same_sub_self (finite_of_sub hf).1).num
  obtain ⟨y, z⟩ := k _ _ _ _ _ h3
  obtain ⟨-, x⟩ := k _ _ _ _ _ h4
  exact (num_add_congr ((num_add_congr (m _ _ _ _ _ (s _ y) (s _ z) h3) (m _ _ _ _ _ (s _ z) (s _ x) h4)).trans (num_add_zero _))
    (m _ _ _ _ _ (s _ x) (s _ y) h2)).trans (num_add_zero _)
/-- **C128**: seen from one of its vertices, the triangles of a surface that begin at that vertex may be left out. -/
theorem C128_corner (o : Point3 S) (as bs : List (Face (Point3 S))) (f : Face (Point3 S)) (e : f.1 = o) (h : IsFinite (o.volumeFrom (as ++ f :: bs))) :
    (o.volumeFrom (as ++ f :: bs) == o.volumeFrom (as ++ bs)) = true := by
  refine beq_of_num ?_ h.not_nan
  rw [Point3.volumeFrom, Point3.volume_map] at h
  rw [Point3.volumeFrom, Point3.volumeFrom, Point3.volume_map, Point3.volume_map, List.map_append, List.map_cons, List.map_append]
  have hf := finite_of_term _ _ h (o.tetra f) (by simp)
  refine num_skip _ _ _ _ (beq_of_num (o.tetra_corner f e hf) hf.not_nan)
/-- **C128**: the computed volume is exact for a mesh on a grid (integers, for example) that leaves room for the sum of the volumes of the tetrahedra. -/
theorem C128_exact {e : ℤ} {N : ℕ} (o : Point3 S) (fs : List (Face (Point3 S))) (f1 : Fits S e (2 * N)) (f2 : Fits S (e + e) (8 * (N * N)))
    (f3 : Fits S (e + e + e) (fs.length * (48 * (N * N * N)))) (ho : AllFinite o ∧ ∀ i, OnGrid e N (o.toReal i))
    (h : ∀ f ∈ fs, ∀ p ∈ [f.1, f.2.1, f.2.2], AllFinite p ∧ ∀ i, OnGrid e N (p.toReal i)) :
    Exactly (o.volumeFrom fs) (exactVolume o.toReal (fs.map (Face.image Point3.toReal))) := by
  have key : ∀ (gs : List (Face (Point3 S))) (x : S) (r : ℝ) (k : ℕ), (∀ f ∈ gs, f ∈ fs) → Exactly x r → OnGrid (e + e + e) (k * (48 * (N * N * N))) r →
      k + gs.length ≤ fs.length →
      Exactly (gs.foldl (fun v f => v + o.tetra f) x) (r + exactVolume o.toReal (gs.map (Face.image Point3.toReal))) := by
    intro gs
    induction gs with
    | nil => intro x r k _ hx _ _; simpa [exactVolume] using hx
    | cons f gs ih =>
      intro x r k hm hx gx hk
      have hF := h f (hm f (by simp))
      obtain ⟨fa, ga⟩ := hF f.1 (by simp)
      obtain ⟨fb, gb⟩ := hF f.2.1 (by simp)
      obtain ⟨fc, gc⟩ := hF f.2.2 (by simp)
      simp only [List.length_cons] at hk
      have l1 : 1 * (48 * (N * N * N)) ≤ fs.length * (48 * (N * N * N)) := Nat.mul_le_mul_right _ (by omega)
      rw [one_mul] at l1
      have t := C107_exact_volume o f.1 f.2.1 f.2.2 ho.1 fa fb fc ho.2 ga gb gc f1 f2 (f3.mono l1)
      have gt : OnGrid (e + e + e) (48 * (N * N * N)) (edges o.toReal f.1.toReal f.2.1.toReal f.2.2.toReal).det := by
        rw [edges_triple]
        have d : ∀ {p : Fin 3 → ℝ}, (∀ i, OnGrid e N (p i)) → ∀ i, OnGrid e (2 * N) ((p - o.toReal) i) := fun hp i =>
          ((hp i).sub (ho.2 i)).mono (by omega)
        have two : ∀ i j, OnGrid (e + e) (8 * (N * N)) ((f.1.toReal - o.toReal) i * (f.2.1.toReal - o.toReal) j - (f.1.toReal - o.toReal) j * (f.2.1.toReal - o.toReal) i) :=
          fun i j => (((d ga i).mul (d gb j)).sub ((d ga j).mul (d gb i))).mono (by apply le_of_eq; ring)
        exact ((((two 1 2).mul (d gc 0)).add ((two 2 0).mul (d gc 1))).add ((two 0 1).mul (d gc 2))).mono (by apply le_of_eq; ring)
      have c := correct_add hx.1 t.1
      rw [hx.2, t.2] at c
      have g := (gx.add gt).mono (show k * (48 * (N * N * N)) + 48 * (N * N * N) ≤ (k + 1) * (48 * (N * N * N)) by apply le_of_eq; ring)
      have := ih (x + o.tetra f) _ (k + 1) (fun f' hf' => hm f' (by simp [hf'])) (c.grid g (f3.mono (Nat.mul_le_mul_right _ (by omega)))) g (by omega)
      rw [List.foldl_cons, exactVolume, List.map_cons, List.map_cons, List.sum_cons, ← add_assoc]
      exact this
  have := key fs zero 0 0 (fun f hf => hf) ⟨finite_zero, real_zero⟩ (by rw [zero_mul]; exact OnGrid.zero) (by omega)
  rw [zero_add] at this
  exact this
/-- **C128**: so on such a grid the computed volume of a closed surface does not depend on the point of the grid it is seen from. -/
theorem C128_grid {e : ℤ} {N : ℕ} (o q : Point3 S) (fs : List (Face (Point3 S))) (f1 : Fits S e (2 * N)) (f2 : Fits S (e + e) (8 * (N * N)))
    (f3 : Fits S (e + e + e) (fs.length * (48 * (N * N * N)))) (ho : AllFinite o ∧ ∀ i, OnGrid e N (o.toReal i)) (hq : AllFinite q ∧ ∀ i, OnGrid e N (q.toReal i))
    (h : ∀ f ∈ fs, ∀ p ∈ [f.1, f.2.1, f.2.2], AllFinite p ∧ ∀ i, OnGrid e N (p.toReal i)) (hc : Closed (fs.map (Face.image Point3.toReal))) :
    (o.volumeFrom fs == q.volumeFrom fs) = true := by
  have a := C128_exact o fs f1 f2 f3 ho h
  have b := C128_exact q fs f1 f2 f3 hq h
  refine (obeq_real a.1 b.1).2 ?_
  rw [a.2, b.2]
  exact exact_anywhere _ _ hc
/-- **C128**: the computed volume of a mesh with n triangles, if it is finite, is off from the exact one by at most n + 8 roundings of the magnitudes of the
products, plus the underflow of the products, the coordinates of all corners seen from `o` being at most `M`. -/
theorem C128_error (o : Point3 S) (fs : List (Face (Point3 S))) (h : IsFinite (o.volumeFrom fs)) {M : ℝ}
    (hM : ∀ f ∈ fs, ∀ i, |f.2.2.toReal i - o.toReal i| ≤ M) (hM0 : 0 ≤ M) :
    |real (o.volumeFrom fs) - exactVolume o.toReal (fs.map (Face.image Point3.toReal))| ≤
      ((1 + uro S) ^ (8 + fs.length) - 1) * (fs.map fun f => absDet (edges o.toReal f.1.toReal f.2.1.toReal f.2.2.toReal)).sum
        + (1 + uro S) ^ fs.length * (fs.length * (3 * (1 + uro S) ^ 2 * (1 + 2 * (1 + uro S) ^ 3 * M) * tiny S)) := by
  have u0 := uro_pos (S := S)
  have t0 := tiny_pos (S := S)
  have key : ∀ (gs : List (Face (Point3 S))) (x : S) (j : ℕ) (s r m : ℝ), (∀ f ∈ gs, f ∈ fs) → 8 ≤ j → 0 ≤ s → Off S j s (real x) r m →
      IsFinite (gs.foldl (fun v f => v + o.tetra f) x) →
      Off S (j + gs.length) ((1 + uro S) ^ gs.length * (s + gs.length * (3 * (1 + uro S) ^ 2 * (1 + 2 * (1 + uro S) ^ 3 * M) * tiny S)))
        (real (gs.foldl (fun v f => v + o.tetra f) x)) (r + exactVolume o.toReal (gs.map (Face.image Point3.toReal)))
        (m + (gs.map fun f => absDet (edges o.toReal f.1.toReal f.2.1.toReal f.2.2.toReal)).sum) := by
    intro gs
    induction gs with
    | nil => intro x j s r m _ _ _ hx _; simpa [exactVolume] using hx
    | cons f gs ih =>
      intro x j s r m hm hj hs hx hf
      have f1 : IsFinite (x + o.tetra f) := by
        rw [List.foldl_cons, Point3.volume_map] at hf
        exact finite_of_fold _ _ hf
      have a := approx_volume o f.1 f.2.1 f.2.2 (finite_of_add f1).2 (hM f (hm f (by simp)))
      have w := Off.add f1 hx (Off.mono (k := 8) (l := j) (s := 3 * (1 + uro S) ^ 2 * (1 + 2 * (1 + uro S) ^ 3 * M) * tiny S)
        ⟨a.1, a.2.trans (le_of_eq (by push_cast; ring))⟩ hj le_rfl)
      have := ih (x + o.tetra f) (j + 1) _ _ _ (fun f' hf' => hm f' (by simp [hf'])) (by omega) (by positivity) w hf
      rw [exactVolume, List.map_cons, List.map_cons, List.sum_cons, ← add_assoc, List.map_cons, List.sum_cons, ← add_assoc]
      refine Off.mono this (by simp only [List.length_cons]; omega) ?_
      simp only [List.length_cons]
      have p : 0 ≤ 3 * (1 + uro S) ^ 2 * (1 + 2 * (1 + uro S) ^ 3 * M) * tiny S := by positivity
      generalize (3 * (1 + uro S) ^ 2 * (1 + 2 * (1 + uro S) ^ 3 * M) * tiny S : ℝ) = T at p ⊢
      rw [pow_succ, mul_assoc]
      refine mul_le_mul_of_nonneg_left ?_ (by positivity)
      push_cast
      nlinarith [mul_nonneg (mul_nonneg u0.le (Nat.cast_nonneg gs.length : (0:ℝ) ≤ _)) p]
  have z : Off S 8 0 (real (zero : S)) 0 0 := ⟨by simp, by rw [real_zero]; simp⟩
  have := (key fs zero 8 0 0 0 (fun f hf => hf) le_rfl le_rfl z h).err
  rw [zero_add, zero_add, zero_add] at this
  exact this
end

end VecMath

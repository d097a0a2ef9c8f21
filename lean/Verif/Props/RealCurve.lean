import Verif.Props.FloatCurve
import Verif.Props.RealBox
import Mathlib.Analysis.Convex.Combination
/-! # C118 without rounding -/

open Classical

namespace VecMath
open Scalar IEEE

theorem bezier_congr {c c' : ℕ → ℝ} {n : ℕ} {x : ℝ} (h : ∀ j ≤ n, c j = c' j) : bezier c n x = bezier c' n x :=
  Finset.sum_congr rfl fun j hj => by rw [h j (by simpa [Nat.lt_succ_iff] using hj)]
theorem bezier_reverse (c : ℕ → ℝ) (n : ℕ) (x : ℝ) : bezier (fun j => c (n - j)) n x = bezier c n (1 - x) := by
  unfold bezier
  rw [← Finset.sum_range_reflect]
  refine Finset.sum_congr rfl fun j hj => ?_
  have h : j ≤ n := by simpa [Nat.lt_succ_iff] using hj
  beta_reduce
  rw [show n + 1 - 1 - j = n - j by omega, Nat.choose_symm h, Nat.sub_sub_self h, sub_sub_cancel]
  ring
theorem casteljau_ideal {t : Ideal} {c : ℕ → Ideal} (ht : IsFinite t) (k i : ℕ) (hc : ∀ j, i ≤ j → j ≤ i + k → IsFinite (c j)) :
    IsFinite (casteljau (mix1 t) c k i) ∧ real (casteljau (mix1 t) c k i) = casteljau (mixR (real t)) (fun j => real (c j)) k i := by
  induction k generalizing i with
  | zero => exact ⟨hc i le_rfl le_rfl, rfl⟩
  | succ k ih =>
    obtain ⟨fa, ea⟩ := ih i fun j p q => hc j p (by omega)
    obtain ⟨fb, eb⟩ := ih (i + 1) fun j p q => hc j (by omega) (by omega)
    have fd := Ideal.finite_sub fb fa
    have fm := Ideal.finite_mul fd ht
    refine ⟨Ideal.finite_add fa fm, ?_⟩
    show real (_ + (_ - _) * t) = mixR _ _ _
    rw [Ideal.real_add fa fm, Ideal.real_mul fd ht, Ideal.real_sub fb fa, ea, eb]; rfl

/-- **C118** without rounding: the scheme computes the Bézier curve. -/
theorem C118_real2 (c : ℕ → Point2 Ideal) (n : ℕ) (t : Ideal) (ht : IsFinite t) (hc : ∀ j ≤ n, AllFinite (c j)) :
    AllFinite (Point2.curve c n t) ∧ ∀ i, (Point2.curve c n t).toReal i = bezier (fun j => (c j).toReal i) n (real t) := by
  simp only [Point2.allFinite] at hc
  have k := fun (f : Point2 Ideal → Ideal) (hf : ∀ j ≤ n, IsFinite (f (c j))) =>
    casteljau_ideal (c := fun j => f (c j)) ht n 0 (fun j _ q => hf j (by omega))
  have kx := k (·.x) (fun j q => (hc j q).1)
  rw [← curve_x2, casteljau_bezier] at kx
  have ky := k (·.y) (fun j q => (hc j q).2)
  rw [← curve_y2, casteljau_bezier] at ky
  refine ⟨Point2.allFinite.2 ⟨kx.1, ky.1⟩, fun i => ?_⟩
  fin_cases i
  exacts [kx.2, ky.2]
/-- **C118** without rounding: the left edge of the scheme. -/
theorem upTo_real2 (c : ℕ → Point2 Ideal) (n : ℕ) (t : Ideal) (ht : IsFinite t) (hc : ∀ j ≤ n, AllFinite (c j)) (k : ℕ) (hk : k ≤ n) :
    AllFinite (Point2.upTo c t k) ∧ ∀ i, (Point2.upTo c t k).toReal i = casteljau (mixR (real t)) (fun j => (c j).toReal i) k 0 := by
  have h := C118_real2 c k t ht fun j q => hc j (q.trans hk)
  exact ⟨h.1, fun i => (h.2 i).trans (casteljau_bezier _ _ _).symm⟩
theorem after_real2 (c : ℕ → Point2 Ideal) (n : ℕ) (t : Ideal) (ht : IsFinite t) (hc : ∀ j ≤ n, AllFinite (c j)) (k : ℕ) (hk : k ≤ n) :
    AllFinite (Point2.after c n t k) ∧ ∀ i, (Point2.after c n t k).toReal i = casteljau (mixR (real t)) (fun j => (c j).toReal i) (n - k) k := by
  simp only [Point2.allFinite] at hc
  have k := fun (f : Point2 Ideal → Ideal) (hf : ∀ j ≤ n, IsFinite (f (c j))) =>
    casteljau_ideal (c := fun j => f (c j)) ht (n - k) k (fun j _ q => hf j (by omega))
  have kx := k (·.x) (fun j q => (hc j q).1)
  rw [← curve_x2] at kx
  have ky := k (·.y) (fun j q => (hc j q).2)
  rw [← curve_y2] at ky
  refine ⟨Point2.allFinite.2 ⟨kx.1, ky.1⟩, fun i => ?_⟩
  fin_cases i
  exacts [kx.2, ky.2]
/-- **C118** without rounding: the curve lies in every box that holds the control points, and in their convex hull. -/
theorem C118_real_inside2 (c : ℕ → Point2 Ideal) (n : ℕ) (t : Ideal) (h0 : (zero ≤? t) = true) (h1 : (t ≤? one) = true)
    (hc : ∀ j ≤ n, AllFinite (c j)) :
    (∀ b : BoundingBox2 Ideal, (∀ j ≤ n, b.isInside (c j) = true) → b.isInside (Point2.curve c n t) = true) ∧
    (Point2.curve c n t).toReal ∈ convexHull ℝ {x | ∃ j ≤ n, x = (c j).toReal} := by
  obtain ⟨ft, r0, r1⟩ := unit_real h0 h1
  obtain ⟨f, e⟩ := C118_real2 c n t ft hc
  constructor
  · intro b hb
    simp only [isInside2_iff] at hb ⊢
    simp only [Point2.allFinite] at hc f
    exact ⟨in_bezier r0 r1 (fun j q => (hc j q).1) f.1 (e 0) fun j q => (hb j q).1, in_bezier r0 r1 (fun j q => (hc j q).2) f.2 (e 1) fun j q => (hb j q).2⟩
  · have : (Point2.curve c n t).toReal = ∑ j ∈ Finset.range (n + 1), ((n.choose j : ℝ) * ((1 - real t) ^ (n - j) * real t ^ j)) • (c j).toReal := by
      funext i
      rw [e i, Finset.sum_apply]
      rfl
    rw [this]
    refine (convex_convexHull ℝ _).sum_mem (fun j _ => weight_nonneg r0 r1 n j) (weight_sum _ n) fun j hj => subset_convexHull ℝ _ ?_
    exact ⟨j, by simpa [Nat.lt_succ_iff] using hj, rfl⟩
/-- **C118** without rounding: transforming the curve by an affine transform is transforming its control points. -/
theorem C118_real_transform2 (c : ℕ → Point2 Ideal) (n : ℕ) (t : Ideal) (ht : IsFinite t) (hc : ∀ j ≤ n, AllFinite (c j))
    (s : Transform2 Ideal) (hs : AllFinite s.forward) (ha : s.forward.Affine) :
    ((Transform.transform s (Point2.curve c n t) : Point2 Ideal) == Point2.curve (fun j => Transform.transform s (c j)) n t) = true := by
  obtain ⟨f, e⟩ := C118_real2 c n t ht hc
  have g := fun j q => ha.fin_mulp hs (hc j q)
  obtain ⟨f', e'⟩ := C118_real2 (fun j => (Transform.transform s (c j) : Point2 Ideal)) n t ht g
  refine (Point2.beq_toReal (ha.fin_mulp hs f) f').2 ?_
  funext i
  have k : ∀ p : Point2 Ideal, AllFinite p → (Transform.transform s p : Point2 Ideal).toReal i = ∑ l, s.forward.linear i l * p.toReal l + s.forward.offset i := by
    intro p hp
    show (s.forward * p).toReal i = _
    rw [ha.toReal_mulp hs hp, Pi.add_apply]; rfl
  rw [e']
  refine (k _ f).trans ?_
  simp only [e]
  rw [← bezier_affine]
  exact bezier_congr fun j q => (k _ (hc j q)).symm
/-- **C118** without rounding: the edges of the scheme are the control points of the two parts of the curve. -/
theorem C118_real_split2 (c : ℕ → Point2 Ideal) (n : ℕ) (s t : Ideal) (hs : IsFinite s) (ht : IsFinite t) (hc : ∀ j ≤ n, AllFinite (c j)) :
    (Point2.curve (Point2.upTo c s) n t == Point2.curve c n (s * t)) = true ∧
    (Point2.curve (Point2.after c n s) n t == Point2.curve c n (s + (one - s) * t)) = true := by
  have fm := Ideal.finite_mul hs ht
  have fs := Ideal.finite_sub finite_one hs
  have fa := Ideal.finite_add hs (Ideal.finite_mul fs ht)
  have u := upTo_real2 c n s hs hc
  have a := after_real2 c n s hs hc
  constructor
  · obtain ⟨f, e⟩ := C118_real2 (Point2.upTo c s) n t ht fun j q => (u j q).1
    obtain ⟨f', e'⟩ := C118_real2 c n (s * t) fm hc
    refine (Point2.beq_toReal f f').2 (funext fun i => ?_)
    rw [e, e', Ideal.real_mul hs ht, mul_comm, ← bezier_upTo]
    exact bezier_congr fun j q => (u j q).2 i
  · obtain ⟨f, e⟩ := C118_real2 (Point2.after c n s) n t ht fun j q => (a j q).1
    obtain ⟨f', e'⟩ := C118_real2 c n _ fa hc
    refine (Point2.beq_toReal f f').2 (funext fun i => ?_)
    rw [e, e', Ideal.real_add hs (Ideal.finite_mul fs ht), Ideal.real_mul fs ht, Ideal.real_sub finite_one hs, real_one,
      show real s + (1 - real s) * real t = real s + real t - real t * real s by ring, ← bezier_after]
    exact bezier_congr fun j q => (a j q).2 i
/-- **C118** without rounding: running the control points backwards runs the curve backwards. -/
theorem C118_real_reverse2 (c : ℕ → Point2 Ideal) (n : ℕ) (t : Ideal) (ht : IsFinite t) (hc : ∀ j ≤ n, AllFinite (c j)) :
    (Point2.curve (fun j => c (n - j)) n t == Point2.curve c n (one - t)) = true := by
  have fs := Ideal.finite_sub finite_one ht
  obtain ⟨f, e⟩ := C118_real2 (fun j => c (n - j)) n t ht fun j _ => hc _ (Nat.sub_le n j)
  obtain ⟨f', e'⟩ := C118_real2 c n (one - t) fs hc
  refine (Point2.beq_toReal f f').2 (funext fun i => ?_)
  rw [e, e', Ideal.real_sub finite_one ht, real_one]
  exact bezier_reverse (fun j => (c j).toReal i) n (real t)

/-- **C118** without rounding: the scheme computes the Bézier curve. -/
theorem C118_real3 (c : ℕ → Point3 Ideal) (n : ℕ) (t : Ideal) (ht : IsFinite t) (hc : ∀ j ≤ n, AllFinite (c j)) :
    AllFinite (Point3.curve c n t) ∧ ∀ i, (Point3.curve c n t).toReal i = bezier (fun j => (c j).toReal i) n (real t) := by
  simp only [Point3.allFinite] at hc
  have k := fun (f : Point3 Ideal → Ideal) (hf : ∀ j ≤ n, IsFinite (f (c j))) =>
    casteljau_ideal (c := fun j => f (c j)) ht n 0 (fun j _ q => hf j (by omega))
  have kx := k (·.x) (fun j q => (hc j q).1)
  rw [← curve_x3, casteljau_bezier] at kx
  have ky := k (·.y) (fun j q => (hc j q).2.1)
  rw [← curve_y3, casteljau_bezier] at ky
  have kz := k (·.z) (fun j q => (hc j q).2.2)
  rw [← curve_z3, casteljau_bezier] at kz
  refine ⟨Point3.allFinite.2 ⟨kx.1, ky.1, kz.1⟩, fun i => ?_⟩
  fin_cases i
  exacts [kx.2, ky.2, kz.2]
/-- **C118** without rounding: the left edge of the scheme. -/
theorem upTo_real3 (c : ℕ → Point3 Ideal) (n : ℕ) (t : Ideal) (ht : IsFinite t) (hc : ∀ j ≤ n, AllFinite (c j)) (k : ℕ) (hk : k ≤ n) :
    AllFinite (Point3.upTo c t k) ∧ ∀ i, (Point3.upTo c t k).toReal i = casteljau (mixR (real t)) (fun j => (c j).toReal i) k 0 := by
  have h := C118_real3 c k t ht fun j q => hc j (q.trans hk)
  exact ⟨h.1, fun i => (h.2 i).trans (casteljau_bezier _ _ _).symm⟩
theorem after_real3 (c : ℕ → Point3 Ideal) (n : ℕ) (t : Ideal) (ht : IsFinite t) (hc : ∀ j ≤ n, AllFinite (c j)) (k : ℕ) (hk : k ≤ n) :
    AllFinite (Point3.after c n t k) ∧ ∀ i, (Point3.after c n t k).toReal i = casteljau (mixR (real t)) (fun j => (c j).toReal i) (n - k) k := by
  simp only [Point3.allFinite] at hc
  have k := fun (f : Point3 Ideal → Ideal) (hf : ∀ j ≤ n, IsFinite (f (c j))) =>
    casteljau_ideal (c := fun j => f (c j)) ht (n - k) k (fun j _ q => hf j (by omega))
  have kx := k (·.x) (fun j q => (hc j q).1)
  rw [← curve_x3] at kx
  have ky := k (·.y) (fun j q => (hc j q).2.1)
  rw [← curve_y3] at ky
  have kz := k (·.z) (fun j q => (hc j q).2.2)
  rw [← curve_z3] at kz
  refine ⟨Point3.allFinite.2 ⟨kx.1, ky.1, kz.1⟩, fun i => ?_⟩
  fin_cases i
  exacts [kx.2, ky.2, kz.2]
/-- **C118** without rounding: the curve lies in every box that holds the control points, and in their convex hull. -/
theorem C118_real_inside3 (c : ℕ → Point3 Ideal) (n : ℕ) (t : Ideal) (h0 : (zero ≤? t) = true) (h1 : (t ≤? one) = true)
    (hc : ∀ j ≤ n, AllFinite (c j)) :
    (∀ b : BoundingBox3 Ideal, (∀ j ≤ n, b.isInside (c j) = true) → b.isInside (Point3.curve c n t) = true) ∧
    (Point3.curve c n t).toReal ∈ convexHull ℝ {x | ∃ j ≤ n, x = (c j).toReal} := by
  obtain ⟨ft, r0, r1⟩ := unit_real h0 h1
  obtain ⟨f, e⟩ := C118_real3 c n t ft hc
  constructor
  · intro b hb
    simp only [isInside3_iff] at hb ⊢
    simp only [Point3.allFinite] at hc f
    exact ⟨in_bezier r0 r1 (fun j q => (hc j q).1) f.1 (e 0) fun j q => (hb j q).1, in_bezier r0 r1 (fun j q => (hc j q).2.1) f.2.1 (e 1) fun j q => (hb j q).2.1, in_bezier r0 r1 (fun j q => (hc j q).2.2) f.2.2 (e 2) fun j q => (hb j q).2.2⟩
  · have : (Point3.curve c n t).toReal = ∑ j ∈ Finset.range (n + 1), ((n.choose j : ℝ) * ((1 - real t) ^ (n - j) * real t ^ j)) • (c j).toReal := by
      funext i
      rw [e i, Finset.sum_apply]
      rfl
    rw [this]
    refine (convex_convexHull ℝ _).sum_mem (fun j _ => weight_nonneg r0 r1 n j) (weight_sum _ n) fun j hj => subset_convexHull ℝ _ ?_
    exact ⟨j, by simpa [Nat.lt_succ_iff] using hj, rfl⟩
/-- **C118** without rounding: transforming the curve by an affine transform is transforming its control points. -/
theorem C118_real_transform3 (c : ℕ → Point3 Ideal) (n : ℕ) (t : Ideal) (ht : IsFinite t) (hc : ∀ j ≤ n, AllFinite (c j))
    (s : Transform3 Ideal) (hs : AllFinite s.forward) (ha : s.forward.Affine) :
    ((Transform.transform s (Point3.curve c n t) : Point3 Ideal) == Point3.curve (fun j => Transform.transform s (c j)) n t) = true := by
  obtain ⟨f, e⟩ := C118_real3 c n t ht hc
  have g := fun j q => ha.fin_mulp hs (hc j q)
  obtain ⟨f', e'⟩ := C118_real3 (fun j => (Transform.transform s (c j) : Point3 Ideal)) n t ht g
  refine (Point3.beq_toReal (ha.fin_mulp hs f) f').2 ?_
  funext i
  have k : ∀ p : Point3 Ideal, AllFinite p → (Transform.transform s p : Point3 Ideal).toReal i = ∑ l, s.forward.linear i l * p.toReal l + s.forward.offset i := by
    intro p hp
    show (s.forward * p).toReal i = _
    rw [ha.toReal_mulp hs hp, Pi.add_apply]; rfl
  rw [e']
  refine (k _ f).trans ?_
  simp only [e]
  rw [← bezier_affine]
  exact bezier_congr fun j q => (k _ (hc j q)).symm
/-- **C118** without rounding: the edges of the scheme are the control points of the two parts of the curve. -/
theorem C118_real_split3 (c : ℕ → Point3 Ideal) (n : ℕ) (s t : Ideal) (hs : IsFinite s) (ht : IsFinite t) (hc : ∀ j ≤ n, AllFinite (c j)) :
    (Point3.curve (Point3.upTo c s) n t == Point3.curve c n (s * t)) = true ∧
    (Point3.curve (Point3.after c n s) n t == Point3.curve c n (s + (one - s) * t)) = true := by
  have fm := Ideal.finite_mul hs ht
  have fs := Ideal.finite_sub finite_one hs
  have fa := Ideal.finite_add hs (Ideal.finite_mul fs ht)
  have u := upTo_real3 c n s hs hc
  have a := after_real3 c n s hs hc
  constructor
  · obtain ⟨f, e⟩ := C118_real3 (Point3.upTo c s) n t ht fun j q => (u j q).1
    obtain ⟨f', e'⟩ := C118_real3 c n (s * t) fm hc
    refine (Point3.beq_toReal f f').2 (funext fun i => ?_)
    rw [e, e', Ideal.real_mul hs ht, mul_comm, ← bezier_upTo]
    exact bezier_congr fun j q => (u j q).2 i
  · obtain ⟨f, e⟩ := C118_real3 (Point3.after c n s) n t ht fun j q => (a j q).1
    obtain ⟨f', e'⟩ := C118_real3 c n _ fa hc
    refine (Point3.beq_toReal f f').2 (funext fun i => ?_)
    rw [e, e', Ideal.real_add hs (Ideal.finite_mul fs ht), Ideal.real_mul fs ht, Ideal.real_sub finite_one hs, real_one,
      show real s + (1 - real s) * real t = real s + real t - real t * real s by ring, ← bezier_after]
    exact bezier_congr fun j q => (a j q).2 i
/-- **C118** without rounding: running the control points backwards runs the curve backwards. -/
theorem C118_real_reverse3 (c : ℕ → Point3 Ideal) (n : ℕ) (t : Ideal) (ht : IsFinite t) (hc : ∀ j ≤ n, AllFinite (c j)) :
    (Point3.curve (fun j => c (n - j)) n t == Point3.curve c n (one - t)) = true := by
  have fs := Ideal.finite_sub finite_one ht
  obtain ⟨f, e⟩ := C118_real3 (fun j => c (n - j)) n t ht fun j _ => hc _ (Nat.sub_le n j)
  obtain ⟨f', e'⟩ := C118_real3 c n (one - t) fs hc
  refine (Point3.beq_toReal f f').2 (funext fun i => ?_)
  rw [e, e', Ideal.real_sub finite_one ht, real_one]
  exact bezier_reverse (fun j => (c j).toReal i) n (real t)

end VecMath

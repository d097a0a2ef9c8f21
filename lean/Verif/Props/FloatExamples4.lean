import Verif.Props.FloatExamples2
import Verif.Props.FloatRayAcc
import Verif.Props.FloatTurns
/-! # Concrete instances for C72 -/

open Classical

namespace VecMath
open Scalar IEEE

/-- In the reference formats `sin` and `cos` are correctly rounded. -/
theorem trig_fl {F : Fmt} {a : Fl F} (ha : IsFinite a) : TrigWithin (uro (Fl F) + tiny (Fl F)) a := by
  have key : ∀ (f : ℝ → ℝ) (c : Fl F), (∀ x, |f x| ≤ 1) → den c = F.rounding.fn f a.toVal →
      IsFinite c ∧ |real c - f (real a)| ≤ uro (Fl F) + tiny (Fl F) := by
    intro f c hf hc
    have e : ∃ s, den c = (IEEE.A (Fl F)).finish s (f (real a)) := by
      rw [hc]
      obtain ⟨v, hv⟩ := a
      cases v with
      | nan => exact absurd ha (fun h => h)
      | inf s => exact absurd ha (fun h => h)
      | nzero => exact ⟨true, rfl⟩
      | fin x => exact ⟨false, rfl⟩
    obtain ⟨s, e⟩ := e
    have hcor := correct_finish e
    have hfin : IsFinite c := hcor.1.2 (by have := three_le_overflow (S := Fl F); have := hf (real a); linarith)
    refine ⟨hfin, ?_⟩
    have hr : real c = (IEEE.A (Fl F)).rnd (f (real a)) := by
      unfold IsFinite at hfin; unfold real; rw [e] at hfin ⊢
      exact real_finish hfin
    rw [hr]
    refine (err_rnd _).trans ?_
    have := uro_pos (S := Fl F); have := hf (real a); nlinarith
  obtain ⟨h1, h2⟩ := key Real.sin (Scalar.sin a) Real.abs_sin_le_one rfl
  obtain ⟨h3, h4⟩ := key Real.cos (Scalar.cos a) Real.abs_cos_le_one rfl
  exact ⟨h1, h3, h2, h4⟩

theorem ample_f32 : Ample F32 := by
  constructor
  · rw [uro_f32]; norm_num
  · show (64 : ℝ) ≤ (2 : ℝ) ^ (128 : ℤ) - 2 ^ (128 - ((24 : ℕ) : ℤ) - 1); norm_num
theorem ample_f64 : Ample F64 := by
  constructor
  · show (2 : ℝ) ^ (-((53 : ℕ) : ℤ)) ≤ _; norm_num
  · have h : (2 : ℝ) ^ (1024 - ((53 : ℕ) : ℤ) - 1) ≤ 2 ^ (1023 : ℤ) := Fmt.z_le (by norm_num)
    have h' : (2 : ℝ) ^ (6 : ℤ) ≤ 2 ^ (1023 : ℤ) := Fmt.z_le (by norm_num)
    have e : (2 : ℝ) ^ (1024 : ℤ) = 2 ^ (1023 : ℤ) + 2 ^ (1023 : ℤ) := by
      rw [← two_mul, ← zpow_one_add₀ (by norm_num)]; norm_num
    show (64 : ℝ) ≤ (2 : ℝ) ^ (1024 : ℤ) - 2 ^ (1024 - ((53 : ℕ) : ℤ) - 1)
    have e6 : (2 : ℝ) ^ (6 : ℤ) = 64 := by norm_num
    rw [e6] at h'
    rw [e]
    exact le_sub_iff_add_le.2 (add_le_add h' h)


theorem tiny_f32_le : tiny F32 ≤ 1 / 1000000000 := by
  have : tiny F32 = 2 ^ (-150 : ℤ) := by
    show (2 : ℝ) ^ (_ : ℤ) = _; congr 1
  rw [this]; norm_num
/-- The error of `sin` and `cos` in the reference `f32`. -/
noncomputable def d32 : ℝ := uro F32 + tiny F32
theorem d32_pos : 0 ≤ d32 := by have := uro_pos (S := F32); have := tiny_pos (S := F32); unfold d32; linarith
theorem d32_le : d32 ≤ 1 / 1000000 := by
  have := tiny_f32_le; unfold d32; rw [uro_f32]; linarith
theorem int32_trig (n : ℤ) (h : |n| ≤ 16777216) : TrigWithin d32 (int32 n h) := trig_fl (finite_int32)
theorem kappa2_le : 1 + 3 * ((1 + uro F32) ^ 3 - 1) + 3 * ((1 + uro F32) ^ 2 * (3 * tiny F32)) ≤ 11 / 10 := by
  have := tiny_f32_le; rw [uro_f32]; linarith
theorem kappa3_le : 1 + 4 * ((1 + uro F32) ^ 4 - 1) + 4 * ((1 + uro F32) ^ 3 * (4 * tiny F32)) ≤ 11 / 10 := by
  have := tiny_f32_le; rw [uro_f32]; linarith
theorem kappa_pow {κ β : ℝ} (hκ : κ ≤ 11 / 10) (hκ0 : 0 ≤ κ) (hβ : β ≤ 11 / 10) (hβ0 : 0 ≤ β) : κ ^ 2 * β ^ 3 ≤ 2 := by
  calc κ ^ 2 * β ^ 3 ≤ (11 / 10) ^ 2 * (11 / 10) ^ 3 :=
        mul_le_mul (pow_le_pow_left₀ hκ0 hκ 2) (pow_le_pow_left₀ hβ0 hβ 3) (by positivity) (by positivity)
    _ ≤ 2 := by norm_num
theorem kappa2_pos : 0 ≤ 1 + 3 * ((1 + uro F32) ^ 3 - 1) + 3 * ((1 + uro F32) ^ 2 * (3 * tiny F32)) := by
  have := tiny_pos (S := F32); rw [uro_f32]; linarith
theorem kappa3_pos : 0 ≤ 1 + 4 * ((1 + uro F32) ^ 4 - 1) + 4 * ((1 + uro F32) ^ 3 * (4 * tiny F32)) := by
  have := tiny_pos (S := F32); rw [uro_f32]; linarith

/-- Rotations by 1, 2 and -3 radians. -/
theorem trig_123 : ∀ b ∈ [int32 1, int32 2, int32 (-3)], TrigWithin d32 b := by
  intro b hb
  simp only [List.mem_cons, List.not_mem_nil, or_false] at hb
  rcases hb with rfl | rfl | rfl <;> exact int32_trig _ (by norm_num)
theorem hb2 : (1 + 3 * ((1 + uro F32) ^ 3 - 1) + 3 * ((1 + uro F32) ^ 2 * (3 * tiny F32))) ^ 2 * (1 + 2 * d32) ^ 3 ≤ 2 :=
  kappa_pow kappa2_le kappa2_pos (by linarith [d32_le]) (by linarith [d32_pos])
theorem hb3 : (1 + 4 * ((1 + uro F32) ^ 4 - 1) + 4 * ((1 + uro F32) ^ 3 * (4 * tiny F32))) ^ 2 * (1 + 2 * d32) ^ 3 ≤ 2 :=
  kappa_pow kappa3_le kappa3_pos (by linarith [d32_le]) (by linarith [d32_pos])
example := C72_turns2 ample_f32 (int32 1) [int32 2, int32 (-3)] trig_123 hb2
example := C72_turns_x ample_f32 (int32 1) [int32 2, int32 (-3)] trig_123 hb3
example := C72_turns_y ample_f32 (int32 1) [int32 2, int32 (-3)] trig_123 hb3
example := C72_turns_z ample_f32 (int32 1) [int32 2, int32 (-3)] trig_123 hb3
/-- C72_bounded3 and C72_drift3 for rotations about three different axes. -/
noncomputable def axes3 : Fin 3 → Transform3 F32 :=
  ![Transform3.rotateX (int32 1), Transform3.rotateY (int32 2), Transform3.rotateZ (int32 (-3))]
noncomputable def axes3Q : Fin 3 → Matrix (Fin 4) (Fin 4) ℝ :=
  ![turnAbout ![1, 0, 0] (real (int32 1)), turnAbout ![0, 1, 0] (real (int32 2)), turnAbout ![0, 0, 1] (real (int32 (-3)))]
theorem axes3_ok (i : Fin 3) : Orthogonal (axes3Q i) ∧ (axes3 i).forward.Near (axes3Q i) (2 * d32) ∧
    (∀ (j : ℕ) (hj : j < 16), Same (axes3 i).inverse.m[j] (axes3 i).forward.transpose.m[j]) ∧
    (axes3 i).forward.toReal 3 = ![0, 0, 0, 1] := by
  fin_cases i
  · have := C72_rotate_x (int32 1) (int32_trig _ (by norm_num)); exact ⟨this.2.2.2.2.1, this.1, this.2.2.1, this.2.2.2.1⟩
  · have := C72_rotate_y (int32 2) (int32_trig _ (by norm_num)); exact ⟨this.2.2.2.2.1, this.1, this.2.2.1, this.2.2.2.1⟩
  · have := C72_rotate_z (int32 (-3)) (int32_trig _ (by norm_num)); exact ⟨this.2.2.2.2.1, this.1, this.2.2.1, this.2.2.2.1⟩
theorem axes3_near : (([1, 2].map axes3).foldl Transform3.andThen (axes3 0)).forward.Near (([0, 1, 2].map axes3Q).reverse.prod)
      ((1 + 4 * ((1 + uro F32) ^ 4 - 1) + 4 * ((1 + uro F32) ^ 3 * (4 * tiny F32))) ^ 2 * (1 + 2 * d32) ^ 3 - 1) :=
  C72_bounded3 ample_f32 axes3 0 [1, 2] axes3Q (fun i _ => (axes3_ok i).1) (fun i _ => (axes3_ok i).2.1) hb3
example := C72_drift3 axes3 0 [1, 2] axes3Q (fun i _ => (axes3_ok i).1) (fun i _ => (axes3_ok i).2.1) axes3_near.1
theorem axes3_mem (u : Transform3 F32) (hu : u ∈ axes3 0 :: [1, 2].map axes3) : ∃ i, u = axes3 i := by
  rw [← List.map_cons] at hu
  obtain ⟨b, _, rfl⟩ := List.mem_map.1 hu
  exact ⟨b, rfl⟩
example := C72_transpose3 (axes3 0) ([1, 2].map axes3) (fun u hu => by
  obtain ⟨i, rfl⟩ := axes3_mem u hu; exact (axes3_ok i).2.2.1)
example := C72_affine3 (axes3 0) ([1, 2].map axes3) (fun u hu => by
  obtain ⟨i, rfl⟩ := axes3_mem u hu; exact (axes3_ok i).2.2.2) axes3_near.1
/-- The same in the plane. -/
theorem turns2_mem (u : Transform2 F32) (hu : u ∈ Transform2.rotate (int32 1) :: [int32 2, int32 (-3)].map Transform2.rotate) :
    ∃ a, TrigWithin d32 a ∧ u = Transform2.rotate a := by
  rw [← List.map_cons] at hu
  obtain ⟨b, hb, rfl⟩ := List.mem_map.1 hu
  exact ⟨b, trig_123 b hb, rfl⟩
theorem turns2_near : (([int32 2, int32 (-3)].map Transform2.rotate).foldl Transform2.andThen
    (Transform2.rotate (int32 1))).forward.Near (([int32 1, int32 2, int32 (-3)].map fun a => turn (real a)).reverse.prod)
      ((1 + 3 * ((1 + uro F32) ^ 3 - 1) + 3 * ((1 + uro F32) ^ 2 * (3 * tiny F32))) ^ 2 * (1 + 2 * d32) ^ 3 - 1) :=
  C72_bounded2 ample_f32 Transform2.rotate (int32 1) [int32 2, int32 (-3)] (fun a => turn (real a))
  (fun a _ => turn_orth _) (fun a ha => (C72_rotate2 a (trig_123 a ha)).1) hb2
example := C72_drift2 Transform2.rotate (int32 1) [int32 2, int32 (-3)] (fun a => turn (real a))
  (fun a _ => turn_orth _) (fun a ha => (C72_rotate2 a (trig_123 a ha)).1) turns2_near.1
example := C72_transpose2 (Transform2.rotate (int32 1)) ([int32 2, int32 (-3)].map Transform2.rotate) (fun u hu => by
  obtain ⟨a, ha, rfl⟩ := turns2_mem u hu; exact (C72_rotate2 a ha).2.2.1)
example := C72_affine2 (Transform2.rotate (int32 1)) ([int32 2, int32 (-3)].map Transform2.rotate) (fun u hu => by
  obtain ⟨a, ha, rfl⟩ := turns2_mem u hu; exact (C72_rotate2 a ha).2.2.2.1) turns2_near.1

/-! ### Vectors and points -/

theorem bd_int (n : ℤ) (h : |n| ≤ 16777216) {M : ℝ} (hM : |(n : ℝ)| ≤ M) : Bd M (int32 n h) :=
  ⟨finite_int32, by rwa [real_int32]⟩
theorem bd_sin : Bd (101 / 100) (Scalar.sin (int32 1)) := by
  have h := int32_trig 1 (by norm_num)
  refine ⟨h.finite_sin, ?_⟩
  have h1 := h.sin; have h2 := Real.abs_sin_le_one (real (int32 1)); have := d32_le
  rw [abs_le] at *; constructor <;> linarith
theorem bd_cos : Bd (101 / 100) (Scalar.cos (int32 1)) := by
  have h := int32_trig 1 (by norm_num)
  refine ⟨h.finite_cos, ?_⟩
  have h1 := h.cos; have h2 := Real.abs_cos_le_one (real (int32 1)); have := d32_le
  rw [abs_le] at *; constructor <;> linarith


theorem lin2 {a b x y : F32} {M N : ℝ} (ha : Bd (101 / 100) a) (hb : Bd (101 / 100) b) (hx : Bd M x) (hy : Bd N y)
    (h : M + N ≤ 20) : Bd (11 / 10 * (M + N) + 6 / 10) (a * x + b * y) := by
  have hM : 0 ≤ M := (abs_nonneg _).trans hx.2
  have hN : 0 ≤ N := (abs_nonneg _).trans hy.2
  exact Bd.add ample_f32 (Bd.mul ample_f32 (K := 33 / 32 * (101 / 100 * M) + 1 / 4) ha hx le_rfl (by linarith))
    (Bd.mul ample_f32 (K := 33 / 32 * (101 / 100 * N) + 1 / 4) hb hy le_rfl (by linarith)) (by linarith) (by linarith)
theorem bd_zero : Bd (101 / 100) (Scalar.zero : F32) := ⟨finite_zero, by rw [real_zero]; norm_num⟩
theorem bd_one : Bd (101 / 100) (Scalar.one : F32) := ⟨finite_one, by rw [real_one]; norm_num⟩
theorem rot_v34_bd : Bd 9 (Transform.transform (Transform2.rotate (int32 1)) v34 : Vector2 F32).x ∧
    Bd 9 (Transform.transform (Transform2.rotate (int32 1)) v34 : Vector2 F32).y := by
  have b3 := bd_int 3 (by norm_num) (M := 3) (by norm_num)
  have b4 := bd_int 4 (by norm_num) (M := 4) (by norm_num)
  have h1 := lin2 bd_cos bd_sin.neg b3 b4 (by norm_num)
  have h2 := lin2 bd_sin bd_cos b3 b4 (by norm_num)
  exact ⟨⟨h1.1, h1.2.trans (by norm_num)⟩, ⟨h2.1, h2.2.trans (by norm_num)⟩⟩
theorem rot_v34 : AllFinite (Transform.transform (Transform2.rotate (int32 1)) v34 : Vector2 F32) :=
  Vector2.allFinite.2 ⟨rot_v34_bd.1.1, rot_v34_bd.2.1⟩
theorem unrot_v34 : AllFinite (Transform.transform (Transform2.rotate (int32 1)).inv
    (Transform.transform (Transform2.rotate (int32 1)) v34 : Vector2 F32) : Vector2 F32) :=
  Vector2.allFinite.2 ⟨(lin2 bd_cos bd_sin rot_v34_bd.1 rot_v34_bd.2 (by norm_num)).1,
    (lin2 bd_sin.neg bd_cos rot_v34_bd.1 rot_v34_bd.2 (by norm_num)).1⟩
example :=
  have h := C72_rotate2 (int32 1) (int32_trig _ (by norm_num))
  C72_vector2 (Transform2.rotate (int32 1)) _ h.2.2.2.2.1 h.2.2.2.2.2 h.1 v34 rot_v34
example :=
  have h := C72_rotate2 (int32 1) (int32_trig _ (by norm_num))
  C72_undo2 (Transform2.rotate (int32 1)) _ h.2.2.2.2.1 h.2.2.2.2.2 h.1 h.2.1 v34 rot_v34 unrot_v34
theorem rot_point2 {p : Point2 F32} (hx : Bd 5 p.x) (hy : Bd 5 p.y) :
    AllFinite (Transform.transform (Transform2.rotate (int32 1)) p : Point2 F32) := by
  have hw := weight_one2 (finite_zero (S := F32)) finite_zero finite_one hx.1 hy.1 real_zero real_zero real_one
  have h1 := Bd.add ample_f32 (lin2 bd_cos bd_sin.neg hx hy (by norm_num)) bd_zero (K := 20) (by norm_num) (by norm_num)
  have h2 := Bd.add ample_f32 (lin2 bd_sin bd_cos hx hy (by norm_num)) bd_zero (K := 20) (by norm_num) (by norm_num)
  exact Point2.allFinite.2 ⟨(finite_num (div_weight hw)).2 h1.1, (finite_num (div_weight hw)).2 h2.1⟩
example :=
  have h := C72_rotate2 (int32 1) (int32_trig _ (by norm_num))
  have b (n : ℤ) (hn : |n| ≤ 16777216) (h : |(n : ℝ)| ≤ 5) := bd_int n hn h
  C72_point2 (Transform2.rotate (int32 1)) _ h.2.2.2.2.1 h.2.2.2.2.2 h.1 h.2.2.2.1 ⟨int32 2, int32 (-1)⟩ ⟨int32 5, int32 3⟩
    (Point2.allFinite.2 ⟨trivial, trivial⟩) (Point2.allFinite.2 ⟨trivial, trivial⟩)
    (rot_point2 (b 2 (by norm_num) (by norm_num)) (b (-1) (by norm_num) (by norm_num)))
    (rot_point2 (b 5 (by norm_num) (by norm_num)) (b 3 (by norm_num) (by norm_num)))

theorem lin3 {a b c x y z : F32} {M N K : ℝ} (ha : Bd (101 / 100) a) (hb : Bd (101 / 100) b) (hc : Bd (101 / 100) c)
    (hx : Bd M x) (hy : Bd N y) (hz : Bd K z) (h : M + N + K ≤ 20) :
    Bd (12 / 10 * (M + N + K) + 2) (a * x + b * y + c * z) := by
  have hM : 0 ≤ M := (abs_nonneg _).trans hx.2
  have hN : 0 ≤ N := (abs_nonneg _).trans hy.2
  have hK : 0 ≤ K := (abs_nonneg _).trans hz.2
  exact Bd.add ample_f32 (lin2 ha hb hx hy (by linarith))
    (Bd.mul ample_f32 (K := 33 / 32 * (101 / 100 * K) + 1 / 4) hc hz le_rfl (by linarith)) (by linarith) (by linarith)
theorem rotX_v {x y z : F32} {M N K : ℝ} (hx : Bd M x) (hy : Bd N y) (hz : Bd K z) (h : M + N + K ≤ 20) :
    AllFinite (Transform.transform (Transform3.rotateX (int32 1)) (⟨x, y, z⟩ : Vector3 F32) : Vector3 F32) :=
  Vector3.allFinite.2 ⟨(lin3 bd_one bd_zero bd_zero hx hy hz h).1, (lin3 bd_zero bd_cos bd_sin.neg hx hy hz h).1,
    (lin3 bd_zero bd_sin bd_cos hx hy hz h).1⟩
theorem unrotX_v {x y z : F32} {M N K : ℝ} (hx : Bd M x) (hy : Bd N y) (hz : Bd K z) (h : M + N + K ≤ 20) :
    AllFinite (Transform.transform (Transform3.rotateX (int32 1)).inv (⟨x, y, z⟩ : Vector3 F32) : Vector3 F32) :=
  Vector3.allFinite.2 ⟨(lin3 bd_one bd_zero bd_zero hx hy hz h).1, (lin3 bd_zero bd_cos bd_sin hx hy hz h).1,
    (lin3 bd_zero bd_sin.neg bd_cos hx hy hz h).1⟩
theorem rotX_p {x y z : F32} (hx : Bd 5 x) (hy : Bd 5 y) (hz : Bd 5 z) :
    AllFinite (Transform.transform (Transform3.rotateX (int32 1)) (⟨x, y, z⟩ : Point3 F32) : Point3 F32) := by
  have hw := weight_one3 (finite_zero (S := F32)) finite_zero finite_zero finite_one hx.1 hy.1 hz.1 real_zero real_zero
    real_zero real_one
  have h1 := Bd.add ample_f32 (lin3 bd_one bd_zero bd_zero hx hy hz (by norm_num)) bd_zero (K := 30) (by norm_num) (by norm_num)
  have h2 := Bd.add ample_f32 (lin3 bd_zero bd_cos bd_sin.neg hx hy hz (by norm_num)) bd_zero (K := 30) (by norm_num) (by norm_num)
  have h3 := Bd.add ample_f32 (lin3 bd_zero bd_sin bd_cos hx hy hz (by norm_num)) bd_zero (K := 30) (by norm_num) (by norm_num)
  exact Point3.allFinite.2 ⟨(finite_num (div_weight hw)).2 h1.1, (finite_num (div_weight hw)).2 h2.1,
    (finite_num (div_weight hw)).2 h3.1⟩
theorem bd2 : Bd 2 (int32 2) := bd_int 2 (by norm_num) (by norm_num)
theorem bd3 : Bd 3 (int32 3) := bd_int 3 (by norm_num) (by norm_num)
theorem bd4 : Bd 4 (int32 4) := bd_int 4 (by norm_num) (by norm_num)
example :=
  have h := C72_rotate_x (int32 1) (int32_trig _ (by norm_num))
  C72_vector3 (Transform3.rotateX (int32 1)) _ h.2.2.2.2.1 h.2.2.2.2.2 h.1 ⟨int32 2, int32 3, int32 4⟩
    (rotX_v bd2 bd3 bd4 (by norm_num))
/-- a vector in the plane turned about the x axis and back -/
example :=
  have h := C72_rotate_x (int32 1) (int32_trig _ (by norm_num))
  have b0 : Bd 0 (int32 0) := bd_int 0 (by norm_num) (by norm_num)
  have b1 : Bd 1 (int32 1) := bd_int 1 (by norm_num) (by norm_num)
  C72_undo3 (Transform3.rotateX (int32 1)) _ h.2.2.2.2.1 h.2.2.2.2.2 h.1 h.2.1 ⟨int32 1, int32 1, int32 0⟩
    (rotX_v b1 b1 b0 (by norm_num))
    (unrotX_v (lin3 bd_one bd_zero bd_zero b1 b1 b0 (by norm_num)) (lin3 bd_zero bd_cos bd_sin.neg b1 b1 b0 (by norm_num))
      (lin3 bd_zero bd_sin bd_cos b1 b1 b0 (by norm_num)) (by norm_num))
example :=
  have h := C72_rotate_x (int32 1) (int32_trig _ (by norm_num))
  have b (n : ℤ) (hn : |n| ≤ 16777216) (h : |(n : ℝ)| ≤ 5) := bd_int n hn h
  C72_point3 (Transform3.rotateX (int32 1)) _ h.2.2.2.2.1 h.2.2.2.2.2 h.1 h.2.2.2.1 ⟨int32 2, int32 (-1), int32 3⟩
    ⟨int32 5, int32 3, int32 (-4)⟩ (Point3.allFinite.2 ⟨trivial, trivial, trivial⟩) (Point3.allFinite.2 ⟨trivial, trivial, trivial⟩)
    (rotX_p (b 2 (by norm_num) (by norm_num)) (b (-1) (by norm_num) (by norm_num)) (b 3 (by norm_num) (by norm_num)))
    (rotX_p (b 5 (by norm_num) (by norm_num)) (b 3 (by norm_num) (by norm_num)) (b (-4) (by norm_num) (by norm_num)))

/-! ### A general axis -/

theorem axisErr_le : axisErr F32 d32 ≤ 1 / 100 := by
  have h1 := tiny_f32_le; have h2 := tiny_pos (S := F32); have h3 := d32_le; have h4 := d32_pos
  unfold axisErr
  have h5 : (1 + uro F32) ^ 12 ≤ 1001 / 1000 := by rw [uro_f32]; norm_num
  have h6 : (1 + uro F32) ^ 3 ≤ 1001 / 1000 := by rw [uro_f32]; norm_num
  have h7 : 0 ≤ (1 + uro F32) ^ 3 := by have := uro_pos (S := F32); positivity
  have h8 : 2 * (1 + uro F32) ^ 12 * d32 ≤ 2 * (1001 / 1000) * (1 / 1000000) :=
    mul_le_mul (by linarith) h3 h4 (by norm_num)
  have h9 : (4 + d32) * (1 + uro F32) ^ 3 * tiny F32 ≤ 5 * (1001 / 1000) * (1 / 1000000000) :=
    mul_le_mul (mul_le_mul (by linarith) h6 h7 (by norm_num)) h1 h2.le (by norm_num)
  linarith
theorem axisErr_nonneg : 0 ≤ axisErr F32 d32 := by
  have h2 := tiny_pos (S := F32); have h4 := d32_pos
  unfold axisErr
  have h5 : 1 ≤ (1 + uro F32) ^ 12 := one_le_pow₀ (by have := uro_pos (S := F32); linarith)
  have h6 : 1 ≤ (1 + uro F32) ^ 3 := one_le_pow₀ (by have := uro_pos (S := F32); linarith)
  have : 0 ≤ 2 * (1 + uro F32) ^ 12 * d32 := by positivity
  have : 0 ≤ (4 + d32) * (1 + uro F32) ^ 3 * tiny F32 := by positivity
  linarith
example := C72_rotate_axis v236 (int32 1) ample_f32 (int32_trig _ (by norm_num)) (d32_le.trans (by norm_num)) length_v236.1
  (show 0 < ((2 : ℤ) : ℝ) ^ 2 + ((3 : ℤ) : ℝ) ^ 2 + ((6 : ℤ) : ℝ) ^ 2 by norm_num)
  (normal_int_of 4 (show ((2 : ℤ) : ℝ) ^ 2 = _ by norm_num))
  (normal_int_of 9 (show ((3 : ℤ) : ℝ) ^ 2 = _ by norm_num))
  (normal_int_of 36 (show ((6 : ℤ) : ℝ) ^ 2 = _ by norm_num))
  (div_normal (by rw [length_v236.2]; show 1 / 8 ≤ ((2 : ℤ) : ℝ) / 7; norm_num))
  (div_normal (by rw [length_v236.2]; show 1 / 8 ≤ ((3 : ℤ) : ℝ) / 7; norm_num))
  (div_normal (by rw [length_v236.2]; show 1 / 8 ≤ ((6 : ℤ) : ℝ) / 7; norm_num))
example := C72_turns_axis ample_f32 v236 (int32 1) [int32 2, int32 (-3)] trig_123 (d32_le.trans (by norm_num)) length_v236.1
  (show 0 < ((2 : ℤ) : ℝ) ^ 2 + ((3 : ℤ) : ℝ) ^ 2 + ((6 : ℤ) : ℝ) ^ 2 by norm_num)
  (normal_int_of 4 (show ((2 : ℤ) : ℝ) ^ 2 = _ by norm_num))
  (normal_int_of 9 (show ((3 : ℤ) : ℝ) ^ 2 = _ by norm_num))
  (normal_int_of 36 (show ((6 : ℤ) : ℝ) ^ 2 = _ by norm_num))
  (div_normal (by rw [length_v236.2]; show 1 / 8 ≤ ((2 : ℤ) : ℝ) / 7; norm_num))
  (div_normal (by rw [length_v236.2]; show 1 / 8 ≤ ((3 : ℤ) : ℝ) / 7; norm_num))
  (div_normal (by rw [length_v236.2]; show 1 / 8 ≤ ((6 : ℤ) : ℝ) / 7; norm_num))
  (kappa_pow kappa3_le kappa3_pos (by linarith [axisErr_le]) (by linarith [axisErr_nonneg]))

end VecMath

import Verif.Lemmas.Mat
import Verif.Props.MatrixStore
import Verif.Props.FloatVector
/-!
# Matrices and transforms in floating point (layer F): C40, C41, C43, C46, C48, C49, C54

`S` is any scalar type satisfying `IEEE S` (Rust's `f32`/`f64`, every rounding included).
-/

namespace VecMath
set_option linter.unusedSimpArgs false
open Scalar IEEE
variable {S : Type} [Scalar S] [IEEE S]

/-! ## Matrix3x3, Transform2 -/

/-- **C40** in floats: transposing a product gives exactly the product of the transposes in reverse
order. -/
theorem C40_float_product2 (a b : Matrix3x3 S) : SameAll (a * b).transpose (b.transpose * a.transpose) := by
  rw [Matrix3x3.sameAll, forall_lt_9]
  mat_simp []
  refine ⟨?_, ?_, ?_, ?_, ?_, ?_, ?_, ?_, ?_⟩ <;> exact Same.add (Same.add ((same_mul_comm _ _)) (same_mul_comm _ _)) (same_mul_comm _ _)

/-- **C41** in floats: the identity is a two-sided unit for every finite matrix. -/
theorem C41_float_identity2 (m : Matrix3x3 S) (h : AllFinite m) :
    (m * Matrix3x3.identity == m) = true ∧ (Matrix3x3.identity * m == m) = true := by
  have hf := Matrix3x3.allFinite.1 h
  rw [Matrix3x3.beq_iff, Matrix3x3.beq_iff, forall_lt_9, forall_lt_9]
  rw [forall_lt_9] at hf
  obtain ⟨h0, h1, h2, h3, h4, h5, h6, h7, h8⟩ := hf
  constructor <;> refine ⟨?_, ?_, ?_, ?_, ?_, ?_, ?_, ?_, ?_⟩ <;> refine beq_of_num' ?_ (IsFinite.not_nan (by assumption)) <;>
    mat_simp [] <;> num_simp [h0, h1, h2, h3, h4, h5, h6, h7, h8]

/-- **C43** in floats: row-vector products are exactly the products with the transpose. -/
theorem C43_float_row2 (m : Matrix3x3 S) (p : Point2 S) (v : Vector2 S) :
    SameAll (p * m) (m.transpose * p) ∧ SameAll (v * m) (m.transpose * v) := by
  rw [Point2.sameAll, Vector2.sameAll]
  mat_simp []
  refine ⟨⟨?_, ?_⟩, ⟨?_, ?_⟩⟩ <;> simp only [Same, den_div, den_add, den_mul, Rounding.mul_comm]

/-- **C46** in floats: `translate(v)` maps the finite point `p` to `p + v` (even when `v` is infinite),
and leaves finite vectors unchanged. -/
theorem C46_float_translate2 (v u : Vector2 S) (p : Point2 S) (hp : AllFinite p) (hv : NoNaN v)
    (hu : AllFinite u) :
    (Transform.transform (Transform2.translate v) p == p + v) = true ∧
    (Transform.transform (Transform2.translate v) u == u) = true := by
  show (Matrix3x3.translate v * p == p + v) = true ∧ (Matrix3x3.translate v * u == u) = true
  rw [Point2.allFinite] at hp
  rw [Vector2.allFinite] at hu
  rw [Vector2.noNaN] at hv
  obtain ⟨hpx, hpy⟩ := hp
  obtain ⟨hux, huy⟩ := hu
  obtain ⟨hvx, hvy⟩ := hv
  rw [Point2.beq_iff, Vector2.beq_iff]
  refine ⟨⟨?_, ?_⟩, ⟨?_, ?_⟩⟩
  all_goals refine beq_of_num' ?_ ?_
  all_goals first
    | exact IsFinite.not_nan (by assumption)
    | (exact isNaN_add_finite (by assumption) (by assumption))
    | (mat_simp [Point2.add_x, Point2.add_y]
       refine num_div_of_one ?_ ?_ <;> num_simp [hpx, hpy])
    | (mat_simp []; num_simp [hux, huy])

/-- **C46** in floats: `scale` multiplies each coordinate by its factor. -/
theorem C46_float_scale2 (sx sy : S) (u : Vector2 S) (p : Point2 S) (hsx : IsFinite sx) (hsy : IsFinite sy) (hp : AllFinite p) (hu : AllFinite u) :
    (Transform.transform (Transform2.scale sx sy) p == Point2.new (sx * p.x) (sy * p.y)) = true ∧
    (Transform.transform (Transform2.scale sx sy) u == Vector2.new (sx * u.x) (sy * u.y)) = true := by
  show (Matrix3x3.scale sx sy * p == Point2.new (sx * p.x) (sy * p.y)) = true ∧ (Matrix3x3.scale sx sy * u == Vector2.new (sx * u.x) (sy * u.y)) = true
  rw [Point2.allFinite] at hp
  rw [Vector2.allFinite] at hu
  obtain ⟨hpx, hpy⟩ := hp
  obtain ⟨hux, huy⟩ := hu
  rw [Point2.beq_iff, Vector2.beq_iff]
  refine ⟨⟨?_, ?_⟩, ⟨?_, ?_⟩⟩
  all_goals refine beq_of_num' ?_ (by exact isNaN_mul_finite (by assumption) (by assumption))
  all_goals first
    | (mat_simp [Point2.new]
       refine num_div_of_one ?_ ?_ <;> num_simp [hpx, hpy, hsx, hsy])
    | (mat_simp [Vector2.new]; num_simp [hux, huy, hsx, hsy])

/-- **C46**: `scale_uniform(s)` is `scale(s, ..., s)`, in every arithmetic. -/
theorem C46_scale_uniform2 (s : S) :
    Transform2.scaleUniform s = Transform2.scale s s ∧ Matrix3x3.scaleUniform s = Matrix3x3.scale s s := ⟨rfl, rfl⟩

/-- **C46** in floats: `identity` leaves finite points and vectors unchanged. -/
theorem C46_float_identity2 (u : Vector2 S) (p : Point2 S) (hp : AllFinite p) (hu : AllFinite u) :
    (Transform.transform (Transform2.identity : Transform2 S) p == p) = true ∧
    (Transform.transform (Transform2.identity : Transform2 S) u == u) = true := by
  show (Matrix3x3.identity * p == p) = true ∧ (Matrix3x3.identity * u == u) = true
  rw [Point2.allFinite] at hp
  rw [Vector2.allFinite] at hu
  obtain ⟨hpx, hpy⟩ := hp
  obtain ⟨hux, huy⟩ := hu
  rw [Point2.beq_iff, Vector2.beq_iff]
  refine ⟨⟨?_, ?_⟩, ⟨?_, ?_⟩⟩
  all_goals refine beq_of_num' ?_ (IsFinite.not_nan (by assumption))
  all_goals first
    | (mat_simp []
       refine num_div_of_one ?_ ?_ <;> num_simp [hpx, hpy])
    | (mat_simp []; num_simp [hux, huy])

/-- **C49** in floats: `translate` of a finite vector stores its exact inverse. -/
theorem C49_float_translate2 (v : Vector2 S) (hv : AllFinite v) :
    ((Transform2.translate v).forward * (Transform2.translate v).inverse == Matrix3x3.identity) = true ∧
    ((Transform2.translate v).inverse * (Transform2.translate v).forward == Matrix3x3.identity) = true := by
  show (Matrix3x3.translate v * Matrix3x3.translate (-v) == Matrix3x3.identity) = true ∧
    (Matrix3x3.translate (-v) * Matrix3x3.translate v == Matrix3x3.identity) = true
  rw [Vector2.allFinite] at hv
  obtain ⟨hvx, hvy⟩ := hv
  rw [Matrix3x3.beq_iff, Matrix3x3.beq_iff, forall_lt_9, forall_lt_9]
  mat_simp [Vector2.neg_x, Vector2.neg_y]
  constructor <;> refine ⟨?_, ?_, ?_, ?_, ?_, ?_, ?_, ?_, ?_⟩ <;>
    refine beq_of_num' ?_ (by first | exact not_nan_zero | exact not_nan_one) <;>
    num_simp [hvx, hvy, finite_neg]

/-- **C49** in floats: a zero scale factor is not rejected; the stored inverse then contains an
infinity. -/
theorem C49_float_scale_zero2 (sx sy : S) (h : (sx == zero) = true ∨ (sy == zero) = true) :
    ∃ s ∈ Comps.comps (Transform2.scale sx sy).inverse, ¬ IsNaN s ∧ ¬ IsFinite s := by
  have key : ∀ s : S, (s == zero) = true → ¬ IsNaN (recip s) ∧ ¬ IsFinite (recip s) := by
    intro s hs
    obtain ⟨t, ht⟩ := one_div_zero_val hs
    simp [IsNaN, IsFinite, recip, ht]
  rcases h with h | h
  · exact ⟨recip sx, by simp [Comps.comps, Transform2.scale, Transform2.new, Matrix3x3.scale, Matrix3x3.new], key _ h⟩
  · exact ⟨recip sy, by simp [Comps.comps, Transform2.scale, Transform2.new, Matrix3x3.scale, Matrix3x3.new], key _ h⟩

/-! ## Matrix4x4, Transform3 -/

/-- **C40** in floats: transposing a product gives exactly the product of the transposes in reverse
order. -/
theorem C40_float_product3 (a b : Matrix4x4 S) : SameAll (a * b).transpose (b.transpose * a.transpose) := by
  rw [Matrix4x4.sameAll, forall_lt_16]
  mat_simp []
  refine ⟨?_, ?_, ?_, ?_, ?_, ?_, ?_, ?_, ?_, ?_, ?_, ?_, ?_, ?_, ?_, ?_⟩ <;> exact Same.add (Same.add (Same.add ((same_mul_comm _ _)) (same_mul_comm _ _)) (same_mul_comm _ _)) (same_mul_comm _ _)

/-- **C41** in floats: the identity is a two-sided unit for every finite matrix. -/
theorem C41_float_identity3 (m : Matrix4x4 S) (h : AllFinite m) :
    (m * Matrix4x4.identity == m) = true ∧ (Matrix4x4.identity * m == m) = true := by
  have hf := Matrix4x4.allFinite.1 h
  rw [Matrix4x4.beq_iff, Matrix4x4.beq_iff, forall_lt_16, forall_lt_16]
  rw [forall_lt_16] at hf
  obtain ⟨h0, h1, h2, h3, h4, h5, h6, h7, h8, h9, h10, h11, h12, h13, h14, h15⟩ := hf
  constructor <;> refine ⟨?_, ?_, ?_, ?_, ?_, ?_, ?_, ?_, ?_, ?_, ?_, ?_, ?_, ?_, ?_, ?_⟩ <;> refine beq_of_num' ?_ (IsFinite.not_nan (by assumption)) <;>
    mat_simp [] <;> num_simp [h0, h1, h2, h3, h4, h5, h6, h7, h8, h9, h10, h11, h12, h13, h14, h15]

/-- **C43** in floats: row-vector products are exactly the products with the transpose. -/
theorem C43_float_row3 (m : Matrix4x4 S) (p : Point3 S) (v : Vector3 S) :
    SameAll (p * m) (m.transpose * p) ∧ SameAll (v * m) (m.transpose * v) := by
  rw [Point3.sameAll, Vector3.sameAll]
  mat_simp []
  refine ⟨⟨?_, ?_, ?_⟩, ⟨?_, ?_, ?_⟩⟩ <;> simp only [Same, den_div, den_add, den_mul, Rounding.mul_comm]

/-- **C46** in floats: `translate(v)` maps the finite point `p` to `p + v` (even when `v` is infinite),
and leaves finite vectors unchanged. -/
theorem C46_float_translate3 (v u : Vector3 S) (p : Point3 S) (hp : AllFinite p) (hv : NoNaN v)
    (hu : AllFinite u) :
    (Transform.transform (Transform3.translate v) p == p + v) = true ∧
    (Transform.transform (Transform3.translate v) u == u) = true := by
  show (Matrix4x4.translate v * p == p + v) = true ∧ (Matrix4x4.translate v * u == u) = true
  rw [Point3.allFinite] at hp
  rw [Vector3.allFinite] at hu
  rw [Vector3.noNaN] at hv
  obtain ⟨hpx, hpy, hpz⟩ := hp
  obtain ⟨hux, huy, huz⟩ := hu
  obtain ⟨hvx, hvy, hvz⟩ := hv
  rw [Point3.beq_iff, Vector3.beq_iff]
  refine ⟨⟨?_, ?_, ?_⟩, ⟨?_, ?_, ?_⟩⟩
  all_goals refine beq_of_num' ?_ ?_
  all_goals first
    | exact IsFinite.not_nan (by assumption)
    | (exact isNaN_add_finite (by assumption) (by assumption))
    | (mat_simp [Point3.add_x, Point3.add_y, Point3.add_z]
       refine num_div_of_one ?_ ?_ <;> num_simp [hpx, hpy, hpz])
    | (mat_simp []; num_simp [hux, huy, huz])

/-- **C46** in floats: `scale` multiplies each coordinate by its factor. -/
theorem C46_float_scale3 (sx sy sz : S) (u : Vector3 S) (p : Point3 S) (hsx : IsFinite sx) (hsy : IsFinite sy) (hsz : IsFinite sz) (hp : AllFinite p) (hu : AllFinite u) :
    (Transform.transform (Transform3.scale sx sy sz) p == Point3.new (sx * p.x) (sy * p.y) (sz * p.z)) = true ∧
    (Transform.transform (Transform3.scale sx sy sz) u == Vector3.new (sx * u.x) (sy * u.y) (sz * u.z)) = true := by
  show (Matrix4x4.scale sx sy sz * p == Point3.new (sx * p.x) (sy * p.y) (sz * p.z)) = true ∧ (Matrix4x4.scale sx sy sz * u == Vector3.new (sx * u.x) (sy * u.y) (sz * u.z)) = true
  rw [Point3.allFinite] at hp
  rw [Vector3.allFinite] at hu
  obtain ⟨hpx, hpy, hpz⟩ := hp
  obtain ⟨hux, huy, huz⟩ := hu
  rw [Point3.beq_iff, Vector3.beq_iff]
  refine ⟨⟨?_, ?_, ?_⟩, ⟨?_, ?_, ?_⟩⟩
  all_goals refine beq_of_num' ?_ (by exact isNaN_mul_finite (by assumption) (by assumption))
  all_goals first
    | (mat_simp [Point3.new]
       refine num_div_of_one ?_ ?_ <;> num_simp [hpx, hpy, hpz, hsx, hsy, hsz])
    | (mat_simp [Vector3.new]; num_simp [hux, huy, huz, hsx, hsy, hsz])

/-- **C46**: `scale_uniform(s)` is `scale(s, ..., s)`, in every arithmetic. -/
theorem C46_scale_uniform3 (s : S) :
    Transform3.scaleUniform s = Transform3.scale s s s ∧ Matrix4x4.scaleUniform s = Matrix4x4.scale s s s := ⟨rfl, rfl⟩

/-- **C46** in floats: `identity` leaves finite points and vectors unchanged. -/
theorem C46_float_identity3 (u : Vector3 S) (p : Point3 S) (hp : AllFinite p) (hu : AllFinite u) :
    (Transform.transform (Transform3.identity : Transform3 S) p == p) = true ∧
    (Transform.transform (Transform3.identity : Transform3 S) u == u) = true := by
  show (Matrix4x4.identity * p == p) = true ∧ (Matrix4x4.identity * u == u) = true
  rw [Point3.allFinite] at hp
  rw [Vector3.allFinite] at hu
  obtain ⟨hpx, hpy, hpz⟩ := hp
  obtain ⟨hux, huy, huz⟩ := hu
  rw [Point3.beq_iff, Vector3.beq_iff]
  refine ⟨⟨?_, ?_, ?_⟩, ⟨?_, ?_, ?_⟩⟩
  all_goals refine beq_of_num' ?_ (IsFinite.not_nan (by assumption))
  all_goals first
    | (mat_simp []
       refine num_div_of_one ?_ ?_ <;> num_simp [hpx, hpy, hpz])
    | (mat_simp []; num_simp [hux, huy, huz])

/-- **C49** in floats: `translate` of a finite vector stores its exact inverse. -/
theorem C49_float_translate3 (v : Vector3 S) (hv : AllFinite v) :
    ((Transform3.translate v).forward * (Transform3.translate v).inverse == Matrix4x4.identity) = true ∧
    ((Transform3.translate v).inverse * (Transform3.translate v).forward == Matrix4x4.identity) = true := by
  show (Matrix4x4.translate v * Matrix4x4.translate (-v) == Matrix4x4.identity) = true ∧
    (Matrix4x4.translate (-v) * Matrix4x4.translate v == Matrix4x4.identity) = true
  rw [Vector3.allFinite] at hv
  obtain ⟨hvx, hvy, hvz⟩ := hv
  rw [Matrix4x4.beq_iff, Matrix4x4.beq_iff, forall_lt_16, forall_lt_16]
  mat_simp [Vector3.neg_x, Vector3.neg_y, Vector3.neg_z]
  constructor <;> refine ⟨?_, ?_, ?_, ?_, ?_, ?_, ?_, ?_, ?_, ?_, ?_, ?_, ?_, ?_, ?_, ?_⟩ <;>
    refine beq_of_num' ?_ (by first | exact not_nan_zero | exact not_nan_one) <;>
    num_simp [hvx, hvy, hvz, finite_neg]

/-- **C49** in floats: a zero scale factor is not rejected; the stored inverse then contains an
infinity. -/
theorem C49_float_scale_zero3 (sx sy sz : S) (h : (sx == zero) = true ∨ (sy == zero) = true ∨ (sz == zero) = true) :
    ∃ s ∈ Comps.comps (Transform3.scale sx sy sz).inverse, ¬ IsNaN s ∧ ¬ IsFinite s := by
  have key : ∀ s : S, (s == zero) = true → ¬ IsNaN (recip s) ∧ ¬ IsFinite (recip s) := by
    intro s hs
    obtain ⟨t, ht⟩ := one_div_zero_val hs
    simp [IsNaN, IsFinite, recip, ht]
  rcases h with h | h | h
  · exact ⟨recip sx, by simp [Comps.comps, Transform3.scale, Transform3.new, Matrix4x4.scale, Matrix4x4.new], key _ h⟩
  · exact ⟨recip sy, by simp [Comps.comps, Transform3.scale, Transform3.new, Matrix4x4.scale, Matrix4x4.new], key _ h⟩
  · exact ⟨recip sz, by simp [Comps.comps, Transform3.scale, Transform3.new, Matrix4x4.scale, Matrix4x4.new], key _ h⟩

/-! ## NaN from degenerate axes -/

theorem normalize_zero_nan (a : Vector3 S) (h : (a == Vector3.zero) = true) :
    IsNaN a.normalize.x ∧ IsNaN a.normalize.y ∧ IsNaN a.normalize.z := by
  have := C13_zero3 a h
  simpa [AllNaN, Comps.comps] using this

/-- **C48**: rotation about a zero axis is not rejected; every entry of the rotation block is NaN, in
every arithmetic and for every angle. -/
theorem C48_zero_axis (axis : Vector3 S) (h : (axis == Vector3.zero) = true) (angle : S) (b : Build)
    (r c : UInt32) (hr : r < 3) (hc : c < 3) :
    (∃ s, (Transform3.rotateAxis axis angle).forward.get b r c = .ok s ∧ IsNaN s) ∧
    (∃ s, (Transform3.rotateAxis axis angle).inverse.get b r c = .ok s ∧ IsNaN s) := by
  obtain ⟨hx, hy, hz⟩ := normalize_zero_nan axis h
  have key : ∀ (i j : ℕ) (hi : i < 3) (hj : j < 3),
      IsNaN ((Matrix4x4.rotateAxis axis angle).m[i * 4 + j]'(by omega)) := by
    intro i j hi hj
    interval_cases i <;> interval_cases j <;>
      simp only [Matrix4x4.rotateAxis, Matrix4x4.new, Vector.getElem_mk, List.getElem_toArray,
        List.getElem_cons_zero, List.getElem_cons_succ] <;>
      first
        | exact isNaN_add_left (isNaN_mul_left (isNaN_mul_left (by assumption)))
        | exact isNaN_sub_left (isNaN_mul_left (isNaN_mul_left (by assumption)))
  have h4 : r < 4 := UInt32.lt_trans hr (by decide : (3 : UInt32) < 4)
  have h4' : c < 4 := UInt32.lt_trans hc (by decide : (3 : UInt32) < 4)
  have hr' : r.toNat < 3 := hr
  have hc' : c.toNat < 3 := hc
  constructor
  · exact ⟨_, Matrix4x4.get_ok _ b h4 h4', key _ _ hr' hc'⟩
  · refine ⟨_, Matrix4x4.get_ok _ b h4 h4', ?_⟩
    have e := Matrix4x4.transpose_m (Matrix4x4.rotateAxis axis angle) ⟨r.toNat, by omega⟩ ⟨c.toNat, by omega⟩
    have k := key c.toNat r.toNat hc' hr'
    show IsNaN ((Matrix4x4.rotateAxis axis angle).transpose.m[r.toNat * 4 + c.toNat]'(by omega))
    simp only [Nat.mul_comm 4] at e
    rw [e]; exact k

example : ∃ s : Ideal, (Transform3.rotateAxis Vector3.zero one).forward.get .debug 1 2 = .ok s ∧ IsNaN s :=
  (C48_zero_axis Vector3.zero (by
    rw [Vector3.beq_iff]; exact ⟨beq_self_iff.2 not_nan_zero, beq_self_iff.2 not_nan_zero,
      beq_self_iff.2 not_nan_zero⟩) one .debug 1 2 (by decide) (by decide)).1

/-- If the first entry of a 4x4 matrix is NaN, the determinant the crate computes is NaN, so `inverse`
does not report an error and returns an all-NaN matrix. -/
theorem inverse_of_nan (m : Matrix4x4 S) (h : IsNaN m.m[0]) :
    ∃ n, m.inverse = .ok n ∧ AllNaN n := by
  have hd : IsNaN (m.detOf m.adjugate) :=
    isNaN_add_left (isNaN_add_left (isNaN_add_left (isNaN_mul_left h)))
  have hne : (m.detOf m.adjugate != zero) = true := by
    have : ¬ (m.detOf m.adjugate == zero) = true := fun h' => (beq_iff.1 h').1 hd
    simpa [bne] using this
  refine ⟨m.adjugate / m.detOf m.adjugate, if_pos hne, ?_⟩
  intro s hs
  simp only [Comps.comps, Vector.mem_toList_iff] at hs
  obtain ⟨i, hi, rfl⟩ := Vector.getElem_of_mem hs
  rw [Matrix4x4.divs]
  exact isNaN_div_right hd

/-- What `look_at` returns once the computed "right" axis is NaN. -/
theorem lookAt_of_nan (origin target : Point3 S) (up : Vector3 S)
    (h : IsNaN (CrossProduct.cross up.normalize (target - origin).normalize).normalize.x) :
    ∃ t, Transform3.lookAt origin target up = .ok t ∧ AllNaN t.forward := by
  obtain ⟨n, hn, hnan⟩ := inverse_of_nan (Matrix4x4.inverseLookAt origin target up) h
  refine ⟨⟨n, Matrix4x4.inverseLookAt origin target up⟩, ?_, hnan⟩
  simp only [Transform3.lookAt, hn]; rfl

theorem isNaN_normalize_x {v : Vector3 S} (h : ¬ NoNaN v) : IsNaN v.normalize.x :=
  isNaN_div_right (length_isNaN3.2 h)

/-- **C54** in floats: `look_at` with `from == target` (finite) does not return the documented error; it
returns a transform whose forward matrix is entirely NaN. -/
theorem C54_from_eq_target (origin target : Point3 S) (up : Vector3 S) (hf : AllFinite origin)
    (ht : AllFinite target) (h : (origin == target) = true) :
    ∃ t, Transform3.lookAt origin target up = .ok t ∧ AllNaN t.forward := by
  have hz : ((target - origin : Vector3 S) == Vector3.zero) = true := by
    rw [Point3.beq_iff] at h
    rw [Point3.allFinite] at hf ht
    rw [Vector3.beq_iff]
    have key : ∀ a b : S, IsFinite a → IsFinite b → (a == b) = true → (b - a == zero) = true := by
      intro a b ha hb hab
      refine beq_of_num' ?_ not_nan_zero
      rw [num_sub_congr (num_of_beq (beq_symm hab)) (rfl : num a = num a), (same_sub_self ha).num]
    exact ⟨key _ _ hf.1 ht.1 h.1, key _ _ hf.2.1 ht.2.1 h.2.1, key _ _ hf.2.2 ht.2.2 h.2.2⟩
  obtain ⟨hx, hy, hz⟩ := normalize_zero_nan _ hz
  apply lookAt_of_nan
  apply isNaN_normalize_x
  rw [Vector3.noNaN]
  intro hn
  exact hn.1 (isNaN_sub_left (isNaN_mul_right hz))

/-- **C54** in floats: the same for a zero `up` vector. -/
theorem C54_zero_up (origin target : Point3 S) (up : Vector3 S) (h : (up == Vector3.zero) = true) :
    ∃ t, Transform3.lookAt origin target up = .ok t ∧ AllNaN t.forward := by
  obtain ⟨hx, hy, hz⟩ := normalize_zero_nan _ h
  apply lookAt_of_nan
  apply isNaN_normalize_x
  rw [Vector3.noNaN]
  intro hn
  exact hn.1 (isNaN_sub_left (isNaN_mul_left hy))

theorem cofactor_isNaN (m : Matrix4x4 S) (i j : Fin 4) (r c : Fin 3) (h : IsNaN (m.sub i j r c)) :
    IsNaN (m.cofactor i j) := by
  unfold Matrix4x4.cofactor
  apply isNaN_mul_right
  fin_cases r <;> fin_cases c
  · exact isNaN_sub_left (isNaN_sub_left (isNaN_sub_left (isNaN_add_left (isNaN_add_left
      (isNaN_mul_left (isNaN_mul_left h))))))
  · exact isNaN_sub_left (isNaN_sub_left (isNaN_sub_left (isNaN_add_left (isNaN_add_right
      (isNaN_mul_left (isNaN_mul_left h))))))
  · exact isNaN_sub_left (isNaN_sub_left (isNaN_sub_left (isNaN_add_right
      (isNaN_mul_left (isNaN_mul_left h)))))
  · exact isNaN_sub_left (isNaN_sub_left (isNaN_sub_left (isNaN_add_right
      (isNaN_mul_left (isNaN_mul_right h)))))
  · exact isNaN_sub_left (isNaN_sub_left (isNaN_sub_left (isNaN_add_left (isNaN_add_left
      (isNaN_mul_left (isNaN_mul_right h))))))
  · exact isNaN_sub_left (isNaN_sub_left (isNaN_sub_left (isNaN_add_left (isNaN_add_right
      (isNaN_mul_left (isNaN_mul_right h))))))
  · exact isNaN_sub_left (isNaN_sub_left (isNaN_sub_left (isNaN_add_left (isNaN_add_right
      (isNaN_mul_right h)))))
  · exact isNaN_sub_left (isNaN_sub_left (isNaN_sub_left (isNaN_add_right (isNaN_mul_right h))))
  · exact isNaN_sub_left (isNaN_sub_left (isNaN_sub_left (isNaN_add_left (isNaN_add_left
      (isNaN_mul_right h)))))

theorem det_isNaN4 (m : Matrix4x4 S) (h : ¬ NoNaN m) : IsNaN (m.detOf m.adjugate) := by
  simp only [NoNaN, Comps.comps, Vector.mem_toList_iff, not_forall, not_not] at h
  obtain ⟨s, hs, hn⟩ := h
  obtain ⟨i, hi, rfl⟩ := Vector.getElem_of_mem hs
  clear hs
  have row0 : ∀ {c0 c1 : S}, IsNaN c0 ∨ IsNaN c1 → c0 = m.cofactor 0 0 → c1 = m.cofactor 0 3 →
      IsNaN (m.detOf m.adjugate) := by
    rintro c0 c1 (h | h) rfl rfl
    · exact isNaN_add_left (isNaN_add_left (isNaN_add_left (isNaN_mul_right h)))
    · exact isNaN_add_right (isNaN_mul_right h)
  have c0 : ∀ r c : Fin 3, IsNaN (m.sub 0 0 r c) → IsNaN (m.detOf m.adjugate) := fun r c h =>
    row0 (.inl (cofactor_isNaN m 0 0 r c h)) rfl rfl
  have c3 : ∀ r c : Fin 3, IsNaN (m.sub 0 3 r c) → IsNaN (m.detOf m.adjugate) := fun r c h =>
    row0 (.inr (cofactor_isNaN m 0 3 r c h)) rfl rfl
  match i, hi, hn with
  | 0, _, h => exact isNaN_add_left (isNaN_add_left (isNaN_add_left (isNaN_mul_left h)))
  | 1, _, h => exact isNaN_add_left (isNaN_add_left (isNaN_add_right (isNaN_mul_left h)))
  | 2, _, h => exact isNaN_add_left (isNaN_add_right (isNaN_mul_left h))
  | 3, _, h => exact isNaN_add_right (isNaN_mul_left h)
  | 4, _, h => exact c3 0 0 h
  | 5, _, h => exact c0 0 0 h
  | 6, _, h => exact c0 0 1 h
  | 7, _, h => exact c0 0 2 h
  | 8, _, h => exact c3 1 0 h
  | 9, _, h => exact c0 1 0 h
  | 10, _, h => exact c0 1 1 h
  | 11, _, h => exact c0 1 2 h
  | 12, _, h => exact c3 2 0 h
  | 13, _, h => exact c0 2 0 h
  | 14, _, h => exact c0 2 1 h
  | 15, _, h => exact c0 2 2 h
  | k + 16, hk, _ => exact absurd hk (by omega)
theorem det_isNaN3 (m : Matrix3x3 S) (h : ¬ NoNaN m) : IsNaN m.det := by
  simp only [NoNaN, Comps.comps, Vector.mem_toList_iff, not_forall, not_not] at h
  obtain ⟨s, hs, hn⟩ := h
  obtain ⟨i, hi, rfl⟩ := Vector.getElem_of_mem hs
  clear hs
  unfold Matrix3x3.det
  match i, hi, hn with
  | 0, _, h => exact isNaN_sub_left (isNaN_sub_left (isNaN_sub_left (isNaN_add_left (isNaN_add_left
      (isNaN_mul_left (isNaN_mul_left h))))))
  | 1, _, h => exact isNaN_sub_left (isNaN_sub_left (isNaN_sub_left (isNaN_add_left (isNaN_add_right
      (isNaN_mul_left (isNaN_mul_left h))))))
  | 2, _, h => exact isNaN_sub_left (isNaN_sub_left (isNaN_sub_left (isNaN_add_right
      (isNaN_mul_left (isNaN_mul_left h)))))
  | 3, _, h => exact isNaN_sub_left (isNaN_sub_left (isNaN_sub_left (isNaN_add_right
      (isNaN_mul_left (isNaN_mul_right h)))))
  | 4, _, h => exact isNaN_sub_left (isNaN_sub_left (isNaN_sub_left (isNaN_add_left (isNaN_add_left
      (isNaN_mul_left (isNaN_mul_right h))))))
  | 5, _, h => exact isNaN_sub_left (isNaN_sub_left (isNaN_sub_left (isNaN_add_left (isNaN_add_right
      (isNaN_mul_left (isNaN_mul_right h))))))
  | 6, _, h => exact isNaN_sub_left (isNaN_sub_left (isNaN_sub_left (isNaN_add_left (isNaN_add_right
      (isNaN_mul_right h)))))
  | 7, _, h => exact isNaN_sub_left (isNaN_sub_left (isNaN_sub_left (isNaN_add_right (isNaN_mul_right h))))
  | 8, _, h => exact isNaN_sub_left (isNaN_sub_left (isNaN_sub_left (isNaN_add_left (isNaN_add_left
      (isNaN_mul_right h)))))
  | k + 9, hk, _ => exact absurd hk (by omega)

/-- **C45**: a matrix with a NaN entry anywhere is accepted by `inverse`, which returns an all-NaN matrix
instead of an error. -/
theorem C45_nan_accepted (m : Matrix4x4 S) (h : ¬ NoNaN m) : ∃ n, m.inverse = .ok n ∧ AllNaN n := by
  have hd := det_isNaN4 m h
  have hne : (m.detOf m.adjugate != zero) = true := by
    have : ¬ (m.detOf m.adjugate == zero) = true := fun h' => (beq_iff.1 h').1 hd
    simpa [bne] using this
  refine ⟨m.adjugate / m.detOf m.adjugate, if_pos hne, ?_⟩
  intro s hs
  simp only [Comps.comps, Vector.mem_toList_iff] at hs
  obtain ⟨i, hi, rfl⟩ := Vector.getElem_of_mem hs
  rw [Matrix4x4.divs]
  exact isNaN_div_right hd
/-- **C45**: the same for 3x3 matrices. -/
theorem C45_nan_accepted2 (m : Matrix3x3 S) (h : ¬ NoNaN m) : ∃ n, m.inverse = .ok n ∧ AllNaN n := by
  have hd := det_isNaN3 m h
  have hne : (m.det != zero) = true := by
    have : ¬ (m.det == zero) = true := fun h' => (beq_iff.1 h').1 hd
    simpa [bne] using this
  refine ⟨_, if_pos hne, ?_⟩
  intro s hs
  simp only [Comps.comps, Matrix3x3.new, Vector.mem_toList_iff] at hs
  simp at hs
  rcases hs with h | h | h | h | h | h | h | h | h <;> rw [h] <;> exact isNaN_div_right hd

/-! ## Non-vacuity -/

private theorem ex_fin3 : AllFinite (Point3.new (Ideal.of 3) (Ideal.of (-2)) (Ideal.of 7)) := by
  rw [Point3.allFinite]; exact ⟨trivial, trivial, trivial⟩
private theorem ex_finv3 : AllFinite (Vector3.new (Ideal.of 3) (Ideal.of (-2)) (Ideal.of 7)) := by
  rw [Vector3.allFinite]; exact ⟨trivial, trivial, trivial⟩

example := C46_float_translate3 _ _ _ ex_fin3 ex_finv3.noNaN ex_finv3
example := C46_float_scale3 (Ideal.of 2) (Ideal.of 0) (Ideal.of (-1)) _ _ trivial trivial trivial ex_fin3 ex_finv3
example := C49_float_translate3 _ ex_finv3
example := C54_from_eq_target _ _ (Vector3.yAxis : Vector3 Ideal) ex_fin3 ex_fin3
  (by rw [Point3.beq_iff]; exact ⟨beq_self_iff.2 (by simp [IsNaN, Point3.new, den, Ideal.of]),
      beq_self_iff.2 (by simp [IsNaN, Point3.new, den, Ideal.of]),
      beq_self_iff.2 (by simp [IsNaN, Point3.new, den, Ideal.of])⟩)
example : ∃ s ∈ Comps.comps (Transform3.scale (Ideal.of 2) (Ideal.of 0) (Ideal.of 1)).inverse,
    ¬ IsNaN s ∧ ¬ IsFinite s :=
  C49_float_scale_zero3 _ _ _ (.inr (.inl (beq_iff.2 ⟨by simp [IsNaN, den, Ideal.of], not_nan_zero, by
    simp [val, den, Ideal.of, zero]⟩)))
example := C41_float_identity3 (Matrix4x4.translate (Vector3.new (Ideal.of 3) (Ideal.of (-2)) (Ideal.of 7)))
  (by rw [Matrix4x4.allFinite, forall_lt_16]; mat_simp []; simp [IsFinite, den, Ideal.of, Vector3.new, one, zero])

end VecMath

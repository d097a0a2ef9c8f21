import Verif.Props.FloatFlat
/-! # C117: plane geometry in space – matrices and transforms -/

open Classical

namespace VecMath
open Scalar IEEE Relator

section
variable {S : Type} [Scalar S] [IEEE S]
local notation "Z" => SameNumber (S := S) (T := S)

theorem same_self (a : S) : Z a a := sameNumber_iff.2 rfl
theorem number_finite {a b : S} (h : Z a b) : IsFinite a ↔ IsFinite b := by
  rw [sameNumber_iff] at h
  unfold num at h
  unfold IsFinite
  rw [← Val.canon_isFin, h, Val.canon_isFin]
theorem number_symm {a b : S} (h : Z a b) : Z b a := by rw [sameNumber_iff] at *; exact h.symm
theorem number_trans {a b c : S} (h : Z a b) (h' : Z b c) : Z a c := by rw [sameNumber_iff] at *; exact h.trans h'
theorem one_mul_n {a b c : S} (h : Z one a) (h' : Z b c) : Z b (a * c) :=
  number_trans (sameNumber_iff.2 (num_one_mul b).symm) (Kept.mul h h')
theorem mul_one_n {a b c : S} (h : Z one a) (h' : Z b c) : Z b (c * a) :=
  number_trans (sameNumber_iff.2 (num_mul_one b).symm) (Kept.mul h' h)
theorem finite_of_one {a : S} (h : Z one a) : IsFinite a := (number_finite h).1 finite_one

/-! Rows times columns. -/
theorem row_plane {a b c x y w : S} {a' b' z' c' x' y' k w' : S} (ha : Z a a') (hb : Z b b') (hz : Vanishes z') (hc : Z c c')
    (hx : Z x x') (hy : Z y y') (hk : Vanishes k) (hw : Z w w') : Z (a * x + b * y + c * w) (a' * x' + b' * y' + z' * k + c' * w') :=
  Kept.add (add_z (Kept.add (Kept.mul ha hx) (Kept.mul hb hy)) (zero_mul_zero hz hk.finite)) (Kept.mul hc hw)

/-- **C117**: the product of two copies acts on the plane like the product; and if all entries are finite it is the copy of the product. -/
theorem C117_mul {a a' : Matrix3x3 S} {b b' : Matrix4x4 S} (h : FlatM Z a b) (h' : FlatM Z a' b') :
    PlaneM Z (a * a') (b * b') ∧ (AllFinite b → AllFinite b' → KeepsZ (b * b')) := by
  obtain ⟨⟨⟨h0, h1, h2⟩, ⟨h3, h4, h5⟩, h6, h7, h8⟩, ⟨z2, z6, z14⟩, ⟨z8, z9, z11⟩, o⟩ := h
  obtain ⟨⟨⟨g0, g1, g2⟩, ⟨g3, g4, g5⟩, g6, g7, g8⟩, ⟨y2, y6, y14⟩, ⟨y8, y9, y11⟩, q⟩ := h'
  constructor
  · exact ⟨⟨row_plane h0 h1 z2 h2 g0 g3 y8 g6, row_plane h0 h1 z2 h2 g1 g4 y9 g7, row_plane h0 h1 z2 h2 g2 g5 y11 g8⟩,
      ⟨row_plane h3 h4 z6 h5 g0 g3 y8 g6, row_plane h3 h4 z6 h5 g1 g4 y9 g7, row_plane h3 h4 z6 h5 g2 g5 y11 g8⟩,
      row_plane h6 h7 z14 h8 g0 g3 y8 g6, row_plane h6 h7 z14 h8 g1 g4 y9 g7, row_plane h6 h7 z14 h8 g2 g5 y11 g8⟩
  · intro f f'
    rw [Matrix4x4.allFinite] at f f'
    have col : ∀ {x y w : S}, IsFinite x → IsFinite y → IsFinite w → ∀ {z : S}, Vanishes z →
        Vanishes (x * b'.m[2] + y * b'.m[6] + z * b'.m[10] + w * b'.m[14]) := fun hx hy hw _ hz =>
      add_zero_zero (add_zero_zero (add_zero_zero (mul_zero_zero y2 hx) (mul_zero_zero y6 hy)) (zero_mul_zero hz (finite_of_one q)))
        (mul_zero_zero y14 hw)
    have row : ∀ {x y w z : S}, IsFinite x → IsFinite y → IsFinite w → Vanishes z →
        Vanishes (b.m[8] * x + b.m[9] * y + b.m[10] * z + b.m[11] * w) := fun hx hy hw hz =>
      add_zero_zero (add_zero_zero (add_zero_zero (zero_mul_zero z8 hx) (zero_mul_zero z9 hy)) (mul_zero_zero hz (finite_of_one o)))
        (zero_mul_zero z11 hw)
    refine ⟨⟨col (f 0 (by decide)) (f 1 (by decide)) (f 3 (by decide)) z2, col (f 4 (by decide)) (f 5 (by decide)) (f 7 (by decide)) z6,
      col (f 12 (by decide)) (f 13 (by decide)) (f 15 (by decide)) z14⟩,
      ⟨row (f' 0 (by decide)) (f' 4 (by decide)) (f' 12 (by decide)) y8, row (f' 1 (by decide)) (f' 5 (by decide)) (f' 13 (by decide)) y9,
        row (f' 3 (by decide)) (f' 7 (by decide)) (f' 15 (by decide)) y11⟩, ?_⟩
    show Z one (b.m[8] * b'.m[2] + b.m[9] * b'.m[6] + b.m[10] * b'.m[10] + b.m[11] * b'.m[14])
    exact add_z (z_add (one_mul_n o q) (add_zero_zero (zero_mul_zero z8 y2.finite) (zero_mul_zero z9 y6.finite))) (zero_mul_zero z11 y14.finite)

/-- **C117**: a copy takes vectors of the plane where the matrix takes them (on either side). -/
theorem C117_mul_vector {a : Matrix3x3 S} {b : Matrix4x4 S} {u : Vector2 S} {v : Vector3 S} (h : FlatM Z a b) (hv : FlatV Z u v)
    (hf : AllFinite v) : FlatV Z (a * u) (b * v) ∧ FlatV Z (u * a) (v * b) := by
  obtain ⟨⟨⟨h0, h1, h2⟩, ⟨h3, h4, h5⟩, h6, h7, h8⟩, ⟨z2, z6, z14⟩, ⟨z8, z9, z11⟩, o⟩ := h
  obtain ⟨vx, vy, vz⟩ := hv
  rw [Vector3.allFinite] at hf
  have r : ∀ {x y z x' y' : S}, Z x x' → Z y y' → Vanishes z → Z (x * u.x + y * u.y) (x' * v.x + y' * v.y + z * v.z) := fun hx hy hz =>
    add_z (Kept.add (Kept.mul hx vx) (Kept.mul hy vy)) (zero_mul_zero hz vz.finite)
  have r' : ∀ {x y z x' y' : S}, Z x x' → Z y y' → Vanishes z → Z (u.x * x + u.y * y) (v.x * x' + v.y * y' + v.z * z) := fun hx hy hz =>
    add_z (Kept.add (Kept.mul vx hx) (Kept.mul vy hy)) (zero_mul_zero vz hz.finite)
  exact ⟨⟨r h0 h1 z2, r h3 h4 z6, add_zero_zero (add_zero_zero (zero_mul_zero z8 hf.1) (zero_mul_zero z9 hf.2.1)) (mul_zero_zero vz (finite_of_one o))⟩,
    ⟨r' h0 h3 z8, r' h1 h4 z9, add_zero_zero (add_zero_zero (mul_zero_zero z2 hf.1) (mul_zero_zero z6 hf.2.1)) (zero_mul_zero vz (finite_of_one o))⟩⟩
/-- **C117**: a copy takes points of the plane where the matrix takes them, if they do not go to infinity (their weight is neither zero
nor NaN). -/
theorem C117_mul_point {a : Matrix3x3 S} {b : Matrix4x4 S} {p : Point2 S} {q : Point3 S} (h : FlatM Z a b) (hp : FlatP Z p q)
    (hf : AllFinite q) (hn : ¬ IsNaN (a.m[6] * p.x + a.m[7] * p.y + a.m[8])) (h0 : val (a.m[6] * p.x + a.m[7] * p.y + a.m[8]) ≠ 0) :
    FlatP Z (a * p) (b * q) := by
  obtain ⟨⟨⟨g0, g1, g2⟩, ⟨g3, g4, g5⟩, g6, g7, g8⟩, ⟨z2, z6, z14⟩, ⟨z8, z9, z11⟩, o⟩ := h
  obtain ⟨vx, vy, vz⟩ := hp
  rw [Point3.allFinite] at hf
  have r : ∀ {x y z w x' y' w' : S}, Z x x' → Z y y' → Vanishes z → Z w w' →
      Z (x * p.x + y * p.y + w) (x' * q.x + y' * q.y + z * q.z + w') := fun hx hy hz hw =>
    Kept.add (add_z (Kept.add (Kept.mul hx vx) (Kept.mul hy vy)) (zero_mul_zero hz vz.finite)) hw
  have hw := r g6 g7 z14 g8
  refine ⟨number_div (r g0 g1 z2 g2) hw fun _ => h0, number_div (r g3 g4 z6 g5) hw fun _ => h0, ?_⟩
  refine div_zero' (add_zero_zero (add_zero_zero (add_zero_zero (zero_mul_zero z8 hf.1) (zero_mul_zero z9 hf.2.1))
    (mul_zero_zero vz (finite_of_one o))) z11) (fun c => hn ((number_nan hw).2 c)) ?_
  rwa [← number_val hw]
/-- **C117**: transposing, and scaling by a finite factor, as far as the plane is concerned. -/
theorem C117_transpose {a : Matrix3x3 S} {b : Matrix4x4 S} (h : FlatM Z a b) : FlatM Z a.transpose b.transpose := by
  obtain ⟨⟨⟨h0, h1, h2⟩, ⟨h3, h4, h5⟩, h6, h7, h8⟩, ⟨z2, z6, z14⟩, ⟨z8, z9, z11⟩, o⟩ := h
  exact ⟨⟨⟨h0, h3, h6⟩, ⟨h1, h4, h7⟩, h2, h5, h8⟩, ⟨z8, z9, z11⟩, ⟨z2, z6, z14⟩, o⟩

/-! ## Transforms -/

theorem Transform3.allFinite' {t : Transform3 S} : AllFinite t ↔ AllFinite t.forward ∧ AllFinite t.inverse := by
  unfold AllFinite
  show (∀ s ∈ Comps.comps t.forward ++ Comps.comps t.inverse, _) ↔ _
  simp only [List.mem_append]
  exact ⟨fun h => ⟨fun s hs => h s (.inl hs), fun s hs => h s (.inr hs)⟩, fun h s hs => hs.elim (h.1 s) (h.2 s)⟩
theorem min_self_num (a : S) : num (fmin a a) = num a := by
  by_cases h : IsNaN a
  · exact (min_nan_left h).num
  · exact num_ext (by simp [isNaN_min]) fun _ => by rw [val_min h h, min_self]
theorem max_self_num (a : S) : num (fmax a a) = num a := by
  by_cases h : IsNaN a
  · exact (max_nan_left h).num
  · exact num_ext (by simp [isNaN_max]) fun _ => by rw [val_max h h, max_self]
theorem min_again {m a b : S} (h : num m = num (fmin a b)) : num (fmin m a) = num (fmin a b) ∧ num (fmin m b) = num (fmin a b) := by
  rw [num_min_congr h rfl, num_min_congr (a := m) (b := b) h rfl]
  by_cases ha : IsNaN a
  · have e := (min_nan_left (b := b) ha).num
    rw [num_min_congr e rfl, num_min_congr (a := fmin a b) (b := b) e rfl, (min_nan_right ha).num, min_self_num, e]; exact ⟨rfl, rfl⟩
  by_cases hb : IsNaN b
  · have e := (min_nan_right (a := a) hb).num
    rw [num_min_congr e rfl, num_min_congr (a := fmin a b) (b := b) e rfl, (min_nan_right hb).num, min_self_num]; exact ⟨rfl, rfl⟩
  have hm : ¬ IsNaN (fmin a b) := fun c => ha (isNaN_min.1 c).1
  refine ⟨num_ext ⟨fun c => (isNaN_min.1 c).1, fun c => (hm c).elim⟩ fun _ => ?_, num_ext ⟨fun c => (isNaN_min.1 c).1, fun c => (hm c).elim⟩ fun _ => ?_⟩
  · rw [val_min hm ha, val_min ha hb]; exact min_eq_left (min_le_left _ _)
  · rw [val_min hm hb, val_min ha hb]; exact min_eq_left (min_le_right _ _)
theorem max_again {m a b : S} (h : num m = num (fmax a b)) : num (fmax m a) = num (fmax a b) ∧ num (fmax m b) = num (fmax a b) := by
  rw [num_max_congr h rfl, num_max_congr (a := m) (b := b) h rfl]
  by_cases ha : IsNaN a
  · have e := (max_nan_left (b := b) ha).num
    rw [num_max_congr e rfl, num_max_congr (a := fmax a b) (b := b) e rfl, (max_nan_right ha).num, max_self_num, e]; exact ⟨rfl, rfl⟩
  by_cases hb : IsNaN b
  · have e := (max_nan_right (a := a) hb).num
    rw [num_max_congr e rfl, num_max_congr (a := fmax a b) (b := b) e rfl, (max_nan_right hb).num, max_self_num]; exact ⟨rfl, rfl⟩
  have hm : ¬ IsNaN (fmax a b) := fun c => ha (isNaN_max.1 c).1
  refine ⟨num_ext ⟨fun c => (isNaN_max.1 c).1, fun c => (hm c).elim⟩ fun _ => ?_, num_ext ⟨fun c => (isNaN_max.1 c).1, fun c => (hm c).elim⟩ fun _ => ?_⟩
  · rw [val_max hm ha, val_max ha hb]; exact max_eq_left (le_max_left _ _)
  · rw [val_max hm hb, val_max ha hb]; exact max_eq_left (le_max_right _ _)

/-- **C117**: the transforms of the plane and their copies: translations, rotations about the `z` axis, scalings that leave `z` alone;
inverses; and transforms with finite entries one after the other. -/
theorem C117_transforms :
    FlatT Z (Transform2.identity (S := S)) Transform3.identity ∧
    (FlatV Z ⇒ FlatT Z) Transform2.translate Transform3.translate ∧
    (∀ angle : S, FlatT Z (Transform2.rotate angle) (Transform3.rotateZ angle)) ∧
    (∀ sx sy : S, FlatT Z (Transform2.scale sx sy) (Transform3.scale sx sy one)) ∧
    (FlatT Z ⇒ FlatT Z) Transform2.inv Transform3.inv ∧
    (∀ (s s' : Transform2 S) (t t' : Transform3 S), FlatT Z s t → FlatT Z s' t' → AllFinite t → AllFinite t' →
      FlatT Z (s.andThen s') (t.andThen t')) := by
  have z : Vanishes (zero : S) := vanishes_zero
  have o : Z one one := Kept.one
  have zz : Z zero zero := Kept.zero
  have tr : (FlatV Z ⇒ FlatM Z) Matrix3x3.translate Matrix4x4.translate := fun u v h =>
    ⟨⟨⟨o, zz, h.1⟩, ⟨zz, o, h.2.1⟩, zz, zz, o⟩, ⟨z, z, z⟩, ⟨z, z, h.2.2⟩, o⟩
  have rot : ∀ angle : S, FlatM Z (Matrix3x3.rotate angle) (Matrix4x4.rotateZ angle) := fun a =>
    ⟨⟨⟨same_self _, same_self _, zz⟩, ⟨same_self _, same_self _, zz⟩, zz, zz, o⟩, ⟨z, z, z⟩, ⟨z, z, z⟩, o⟩
  have sc : ∀ sx sy w : S, Z one w → FlatM Z (Matrix3x3.scale sx sy) (Matrix4x4.scale sx sy w) := fun sx sy w hw =>
    ⟨⟨⟨same_self _, zz, zz⟩, ⟨zz, same_self _, zz⟩, zz, zz, o⟩, ⟨z, z, z⟩, ⟨z, z, z⟩, hw⟩
  have idm : FlatM Z (Matrix3x3.identity (S := S)) Matrix4x4.identity :=
    ⟨⟨⟨o, zz, zz⟩, ⟨zz, o, zz⟩, zz, zz, o⟩, ⟨z, z, z⟩, ⟨z, z, z⟩, o⟩
  have hneg : (FlatV Z ⇒ FlatV Z) (fun u => -u) (fun v => -v) := C117_vector.2.2.2.2.2.2.2.2.2.2.1
  refine ⟨⟨idm, idm⟩, fun u v h => ⟨tr h, tr (hneg h)⟩, fun a => ⟨rot a, C117_transpose (rot a)⟩,
    fun sx sy => ⟨sc sx sy _ o, sc _ _ _ (sameNumber_iff.2 (num_div_one one).symm)⟩, fun s t h => ⟨h.2, h.1⟩, ?_⟩
  intro s s' t t' h h' f f'
  rw [Transform3.allFinite'] at f f'
  have m1 := C117_mul h'.1 h.1
  have m2 := C117_mul h.2 h'.2
  exact ⟨⟨m1.1, m1.2 f'.1 f.1⟩, ⟨m2.1, m2.2 f.2 f'.2⟩⟩
/-- **C117**: any chain of transforms of the plane and of their copies, as long as no entry overflows. -/
theorem C117_chain {l : List (Transform2 S × Transform3 S)} (h : ∀ e ∈ l, FlatT Z e.1 e.2 ∧ AllFinite e.2) {s : Transform2 S} {t : Transform3 S}
    (hs : FlatT Z s t) (hf : ∀ l', l' <+: l → AllFinite ((l'.map Prod.snd).foldl Transform3.andThen t)) :
    FlatT Z ((l.map Prod.fst).foldl Transform2.andThen s) ((l.map Prod.snd).foldl Transform3.andThen t) := by
  induction l generalizing s t with
  | nil => exact hs
  | cons e l ih =>
    have he := h e (by simp)
    refine ih (fun e' he' => h e' (by simp [he'])) (C117_transforms.2.2.2.2.2 _ _ _ _ hs he.1 (hf [] (by simp)) he.2) ?_
    intro l' hl'
    exact hf (e :: l') (by simpa using hl')
/-- **C117**: transforming vectors of the plane. -/
theorem C117_transform_vector {s : Transform2 S} {t : Transform3 S} {u : Vector2 S} {v : Vector3 S} (h : FlatT Z s t) (hv : FlatV Z u v)
    (hf : AllFinite v) : FlatV Z (Transform.transform s u) (Transform.transform t v) := (C117_mul_vector h.1 hv hf).1
/-- The weight of a transformed point is a number other than zero. -/
def Transform2.Weighs (s : Transform2 S) (p : Point2 S) : Prop :=
  ¬ IsNaN (s.forward.m[6] * p.x + s.forward.m[7] * p.y + s.forward.m[8]) ∧ val (s.forward.m[6] * p.x + s.forward.m[7] * p.y + s.forward.m[8]) ≠ 0
/-- Affine transforms weigh every finite point. -/
theorem Transform2.weighs_affine {s : Transform2 S} {p : Point2 S} (h6 : Vanishes s.forward.m[6]) (h7 : Vanishes s.forward.m[7]) (h8 : Z one s.forward.m[8])
    (hp : AllFinite p) : s.Weighs p := by
  rw [Point2.allFinite] at hp
  have : Z one (s.forward.m[6] * p.x + s.forward.m[7] * p.y + s.forward.m[8]) :=
    z_add h8 (add_zero_zero (zero_mul_zero h6 hp.1) (zero_mul_zero h7 hp.2))
  refine ⟨fun c => (finite_one (S := S)).not_nan ((number_nan this).2 c), ?_⟩
  rw [← number_val this, val_one]; exact one_ne_zero
/-- **C117**: transforming points and rays of the plane. -/
theorem C117_transform_point {s : Transform2 S} {t : Transform3 S} {p : Point2 S} {q : Point3 S} (h : FlatT Z s t) (hp : FlatP Z p q)
    (hf : AllFinite q) (hw : s.Weighs p) : FlatP Z (Transform.transform s p) (Transform.transform t q) := C117_mul_point h.1 hp hf hw.1 hw.2
theorem C117_transform_ray {s : Transform2 S} {t : Transform3 S} {r : Ray2 S} {q : Ray3 S} (h : FlatT Z s t) (hr : FlatR Z r q)
    (hf : AllFinite q) (hw : s.Weighs r.origin) : FlatR Z (Transform.transform s r) (Transform.transform t q) := by
  rw [Ray3.allFinite] at hf
  exact ⟨C117_transform_point h hr.1 hf.1 hw, C117_transform_vector h hr.2 hf.2⟩
/-- **C117**: transforming flat boxes. -/
theorem C117_transform_box {s : Transform2 S} {t : Transform3 S} {a : BoundingBox2 S} {b : BoundingBox3 S} (h : FlatT Z s t) (hb : FlatB Z a b)
    (hf : AllFinite b.min) (hd : AllFinite b.diagonal) (hw : s.Weighs a.min) :
    FlatB Z (Transform.transform s a) (Transform.transform t b) := by
  obtain ⟨ox, oy, oz⟩ := C117_transform_point h hb.1 hf hw
  obtain ⟨dx, dy, dz⟩ := C117_transform_vector h (flat_diff hb.2 hb.1) hd
  have ex : Z ((Transform.transform s a.min : Point2 S).x + (Transform.transform s a.diagonal : Vector2 S).x)
    ((Transform.transform t b.min : Point3 S).x + (Transform.transform t b.diagonal : Vector3 S).x) := Kept.add ox dx
  have ey : Z ((Transform.transform s a.min : Point2 S).y + (Transform.transform s a.diagonal : Vector2 S).y)
    ((Transform.transform t b.min : Point3 S).y + (Transform.transform t b.diagonal : Vector3 S).y) := Kept.add oy dy
  have ez : Vanishes ((Transform.transform t b.min : Point3 S).z + (Transform.transform t b.diagonal : Vector3 S).z) := add_zero_zero oz dz
  revert ox oy oz ex ey ez
  show Z (Transform.transform s a.min : Point2 S).x _ → _
  have t2 : (Transform.transform s a : BoundingBox2 S) = (fun (o : Point2 S) (x y : S) => BoundingBox2.new
      ⟨fmin (fmin (fmin o.x x) o.x) x, fmin (fmin (fmin o.y o.y) y) y⟩
      ⟨fmax (fmax (fmax o.x x) o.x) x, fmax (fmax (fmax o.y o.y) y) y⟩)
      (Transform.transform s a.min : Point2 S) ((Transform.transform s a.min : Point2 S).x + (Transform.transform s a.diagonal : Vector2 S).x)
      ((Transform.transform s a.min : Point2 S).y + (Transform.transform s a.diagonal : Vector2 S).y) := rfl
  have t3 : (Transform.transform t b : BoundingBox3 S) = (fun (o : Point3 S) (x y z : S) => BoundingBox3.new
      ⟨fmin (fmin (fmin (fmin (fmin (fmin (fmin o.x x) o.x) x) o.x) x) o.x) x,
        fmin (fmin (fmin (fmin (fmin (fmin (fmin o.y o.y) y) y) o.y) o.y) y) y,
        fmin (fmin (fmin (fmin (fmin (fmin (fmin o.z o.z) o.z) o.z) z) z) z) z⟩
      ⟨fmax (fmax (fmax (fmax (fmax (fmax (fmax o.x x) o.x) x) o.x) x) o.x) x,
        fmax (fmax (fmax (fmax (fmax (fmax (fmax o.y o.y) y) y) o.y) o.y) y) y,
        fmax (fmax (fmax (fmax (fmax (fmax (fmax o.z o.z) o.z) o.z) z) z) z) z⟩)
      (Transform.transform t b.min : Point3 S) ((Transform.transform t b.min : Point3 S).x + (Transform.transform t b.diagonal : Vector3 S).x)
      ((Transform.transform t b.min : Point3 S).y + (Transform.transform t b.diagonal : Vector3 S).y)
      ((Transform.transform t b.min : Point3 S).z + (Transform.transform t b.diagonal : Vector3 S).z) := rfl
  rw [t2, t3]
  generalize (Transform.transform s a.min : Point2 S) = o
  generalize (Transform.transform t b.min : Point3 S) = o'
  generalize o.x + _ = x
  generalize o.y + _ = y
  generalize o'.x + _ = x'
  generalize o'.y + _ = y'
  generalize o'.z + _ = z'
  intro ox oy oz ex ey ez
  refine flat_new ⟨?_, ?_, ?_⟩ ⟨?_, ?_, ?_⟩
  · rw [sameNumber_iff] at *
    have m3 := (min_again (min_again (rfl : num (fmin o'.x x') = _)).1).2
    have m7 := (min_again (min_again (min_again (min_again m3).1).2).1).2
    exact (((min_again (min_again (rfl : num (fmin o.x x) = _)).1).2).trans (num_min_congr ox ex)).trans m7.symm
  · rw [sameNumber_iff] at *
    have m0 := num_min_congr (b := y) (min_self_num o.y) rfl
    have m0' := num_min_congr (b := y') (min_self_num o'.y) rfl
    have m7 := (min_again (min_again (min_again (min_again (min_again m0').2).1).1).2).2
    exact (((min_again m0).2).trans (num_min_congr oy ey)).trans m7.symm
  · exact min_zero' (min_zero' (min_zero' (min_zero' (min_zero' (min_zero' (min_zero' oz oz) oz) oz) ez) ez) ez) ez
  · rw [sameNumber_iff] at *
    have m3 := (max_again (max_again (rfl : num (fmax o'.x x') = _)).1).2
    have m7 := (max_again (max_again (max_again (max_again m3).1).2).1).2
    exact (((max_again (max_again (rfl : num (fmax o.x x) = _)).1).2).trans (num_max_congr ox ex)).trans m7.symm
  · rw [sameNumber_iff] at *
    have m0 := num_max_congr (b := y) (max_self_num o.y) rfl
    have m0' := num_max_congr (b := y') (max_self_num o'.y) rfl
    have m7 := (max_again (max_again (max_again (max_again (max_again m0').2).1).1).2).2
    exact (((max_again m0).2).trans (num_max_congr oy ey)).trans m7.symm
  · exact max_zero' (max_zero' (max_zero' (max_zero' (max_zero' (max_zero' (max_zero' oz oz) oz) oz) ez) ez) ez) ez
end
end VecMath

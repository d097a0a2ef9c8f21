import Verif.Props.FloatMatrix
import Verif.Props.FloatBasis
import Verif.Lemmas.Symm
/-!
# Layer F: chains of translations and scalings (C102)

Generated by `tools/gen/chain102.py`. The entries of these products are sums of products with the literals 0 and 1, so
all of them but one are exact.
-/

namespace VecMath
set_option linter.unusedSimpArgs false
set_option linter.unusedVariables false
set_option linter.unusedSectionVars false
open Scalar IEEE

section
variable {S : Type} [Scalar S] [IEEE S]
theorem nan_add_prod {a b c : S} (ha : IsFinite a) (hb : IsFinite b) (hc : IsFinite c) : ¬ IsNaN (a * b + c) := by
  intro h
  exact isNaN_add_finite hc (isNaN_mul_finite ha hb) ((isNaN_iff_num).2 (((same_add_comm c (a * b)).num).trans (isNaN_iff_num.1 h)))
end
/-! ## 2D -/
section
variable {S : Type} [Scalar S] [IEEE S]
/-- **C102**, 2D: `identity()` is a unit of `and_then` for finite transforms. -/
theorem C102_unit2 (t : Transform2 S) (ht : AllFinite t.forward) (ht' : AllFinite t.inverse) :
    (Transform2.identity.andThen t == t) = true ∧ (t.andThen Transform2.identity == t) = true := by
  have a := C41_float_identity2 t.forward ht
  have b := C41_float_identity2 t.inverse ht'
  exact ⟨Transform2.beq_iff.2 ⟨a.1, b.2⟩, Transform2.beq_iff.2 ⟨a.2, b.1⟩⟩
/-- A matrix equal to a translation, after a further translation. -/
theorem translate_mul2 (m m' : Matrix3x3 S) (u v w : Vector2 S) (hu : AllFinite u) (hv : AllFinite v) (h : (m == Matrix3x3.translate u) = true)
    (h' : (m' == Matrix3x3.translate v) = true) 
    (hw : num w.x = num (u.x + v.x) ∧ num w.y = num (u.y + v.y)) : (m * m' == Matrix3x3.translate w) = true := by
  have nn : ∀ {a b c : S}, num a = num (b + c) → IsFinite b → IsFinite c → ¬ IsNaN a := by
    intro a b c h hb hc
    rw [isNaN_iff_num, h, ← isNaN_iff_num]
    exact isNaN_add_finite hb hc.not_nan
  obtain ⟨w0, w1⟩ := hw
  rw [Vector2.allFinite] at hu hv
  obtain ⟨h0, h1⟩ := hu
  obtain ⟨g0, g1⟩ := hv
  rw [Matrix3x3.beq_iff, forall_lt_9] at h h' ⊢
  have tr : ∀ {a b : S}, (a == b) = true → num a = num b := fun h => num_of_beq h
  obtain ⟨a0, a1, a2, a3, a4, a5, a6, a7, a8⟩ := h
  obtain ⟨b0, b1, b2, b3, b4, b5, b6, b7, b8⟩ := h'
  replace a0 : num m.m[0] = num (one : S) := tr a0
  replace a1 : num m.m[1] = num (zero : S) := tr a1
  replace a2 : num m.m[2] = num u.x := tr a2
  replace a3 : num m.m[3] = num (zero : S) := tr a3
  replace a4 : num m.m[4] = num (one : S) := tr a4
  replace a5 : num m.m[5] = num u.y := tr a5
  replace a6 : num m.m[6] = num (zero : S) := tr a6
  replace a7 : num m.m[7] = num (zero : S) := tr a7
  replace a8 : num m.m[8] = num (one : S) := tr a8
  replace b0 : num m'.m[0] = num (one : S) := tr b0
  replace b1 : num m'.m[1] = num (zero : S) := tr b1
  replace b2 : num m'.m[2] = num v.x := tr b2
  replace b3 : num m'.m[3] = num (zero : S) := tr b3
  replace b4 : num m'.m[4] = num (one : S) := tr b4
  replace b5 : num m'.m[5] = num v.y := tr b5
  replace b6 : num m'.m[6] = num (zero : S) := tr b6
  replace b7 : num m'.m[7] = num (zero : S) := tr b7
  replace b8 : num m'.m[8] = num (one : S) := tr b8
  refine ⟨?_, ?_, ?_, ?_, ?_, ?_, ?_, ?_, ?_⟩ <;> refine beq_of_num' ?_ (by first | exact finite_one.not_nan | exact finite_zero.not_nan | exact nn (by assumption) (by assumption) (by assumption)) <;>
    mat_simp [Vector2.add_x, Vector2.add_y] <;> num_simp [w0, w1, a0, b0, a1, b1, a2, b2, a3, b3, a4, b4, a5, b5, a6, b6, a7, b7, a8, b8, h0, h1, g0, g1]
  all_goals exact (num_add _ _).symm.trans ((same_add_comm _ _).num.trans (num_add _ _))
/-- A transform equal to a translation, followed by a translation. -/
theorem translate_then2 (t t' : Transform2 S) (u v : Vector2 S) (hu : AllFinite u) (hv : AllFinite v) (h : (t == Transform2.translate u) = true)
    (h' : (t' == Transform2.translate v) = true) : (t.andThen t' == Transform2.translate (u + v)) = true := by
  obtain ⟨f, i⟩ := Transform2.beq_iff.1 h
  obtain ⟨f', i'⟩ := Transform2.beq_iff.1 h'
  have hu' : AllFinite (-u) := by
    rw [Vector2.allFinite] at hu ⊢
    exact ⟨finite_neg.2 hu.1, finite_neg.2 hu.2⟩
  have hv' : AllFinite (-v) := by
    rw [Vector2.allFinite] at hv ⊢
    exact ⟨finite_neg.2 hv.1, finite_neg.2 hv.2⟩
  refine Transform2.beq_iff.2 ⟨?_, ?_⟩
  · exact translate_mul2 _ _ v u _ hv hu f' f ⟨(same_add_comm _ _).num, (same_add_comm _ _).num⟩
  · exact translate_mul2 _ _ (-u) (-v) _ hu' hv' i i' ⟨(num_neg_add _ _).symm, (num_neg_add _ _).symm⟩
theorem translate_self2 (v : Vector2 S) (hv : AllFinite v) : (Transform2.translate v == Transform2.translate v) = true := by
  have hf := Vector2.allFinite.1 hv
  have key : ∀ u : Vector2 S, AllFinite u → (Matrix3x3.translate u == Matrix3x3.translate u) = true := by
    intro u hu
    rw [Vector2.allFinite] at hu
    rw [Matrix3x3.beq_iff, forall_lt_9]
    mat_simp []
    have r : ∀ {s : S}, IsFinite s → (s == s) = true := fun h => beq_iff.2 ⟨h.not_nan, h.not_nan, rfl⟩
    exact ⟨r finite_one, r finite_zero, r hu.1, r finite_zero, r finite_one, r hu.2, r finite_zero, r finite_zero, r finite_one⟩
  refine Transform2.beq_iff.2 ⟨key v hv, key (-v) ?_⟩
  rw [Vector2.allFinite]
  exact ⟨finite_neg.2 hf.1, finite_neg.2 hf.2⟩
/-- **C102**, 2D: two translations in a row are, exactly, the translation by the (rounded) sum. -/
theorem C102_translate2 (u v : Vector2 S) (hu : AllFinite u) (hv : AllFinite v) :
    ((Transform2.translate u).andThen (Transform2.translate v) == Transform2.translate (u + v)) = true :=
  translate_then2 _ _ u v hu hv (translate_self2 u hu) (translate_self2 v hv)
/-- **C102**, 2D: any chain of translations is, exactly, the translation by the sum as computed by `+=`, if no partial sum
overflows. -/
theorem C102_translations2 (vs : List (Vector2 S)) (hv : ∀ v ∈ vs, AllFinite v)
    (hs : ∀ us, us <+: vs → AllFinite (us.foldl Vector2.addAssign Vector2.zero)) :
    (vs.foldl (fun t v => t.andThen (Transform2.translate v)) Transform2.identity == Transform2.translate (vs.foldl Vector2.addAssign Vector2.zero)) = true := by
  induction vs using List.reverseRecOn with
  | nil =>
    have z : AllFinite (Vector2.zero : Vector2 S) := hs [] (List.prefix_rfl)
    have r0 : ((zero : S) == zero) = true := beq_iff.2 ⟨finite_zero.not_nan, finite_zero.not_nan, rfl⟩
    have r1 : ((one : S) == one) = true := beq_iff.2 ⟨finite_one.not_nan, finite_one.not_nan, rfl⟩
    have rn : ((zero : S) == -zero) = true := beq_iff.2 ⟨finite_zero.not_nan, (finite_neg.2 finite_zero).not_nan, by
      rw [finite_zero.val, (finite_neg.2 finite_zero).val, IEEE.real_neg, real_zero, neg_zero]⟩
    refine Transform2.beq_iff.2 ⟨?_, ?_⟩ <;> rw [Matrix3x3.beq_iff, forall_lt_9]
    · exact ⟨r1, r0, r0, r0, r1, r0, r0, r0, r1⟩
    · exact ⟨r1, r0, rn, r0, r1, rn, r0, r0, r1⟩
  | append_singleton us v ih =>
    rw [List.foldl_append, List.foldl_append]
    exact translate_then2 _ _ _ v (hs us (List.prefix_append _ _)) (hv v (by simp))
      (ih (fun w hw => hv w (by simp [hw])) (fun ws h => hs ws (h.trans (List.prefix_append _ _))))
      (translate_self2 v (hv v (by simp)))
/-- **C102**, 2D: two scalings in a row multiply the factors, in the forward and in the inverse direction; each entry is
rounded once. -/
theorem C102_scale2 (sx sy tx ty : S) (hsx : IsFinite sx) (hsy : IsFinite sy) (htx : IsFinite tx) (hty : IsFinite ty) :
    (((Transform2.scale sx sy).andThen (Transform2.scale tx ty)).forward == Matrix3x3.scale (tx * sx) (ty * sy)) = true ∧
    (IsFinite (recip sx) → IsFinite (recip tx) → IsFinite (recip sy) → IsFinite (recip ty) →
      (((Transform2.scale sx sy).andThen (Transform2.scale tx ty)).inverse == Matrix3x3.scale (recip sx * recip tx) (recip sy * recip ty)) = true) := by
  have key : ∀ sx sy tx ty : S, IsFinite sx → IsFinite sy → IsFinite tx → IsFinite ty →
      (Matrix3x3.scale sx sy * Matrix3x3.scale tx ty == Matrix3x3.scale (sx * tx) (sy * ty)) = true := by
    intro sx sy tx ty hsx hsy htx hty
    rw [Matrix3x3.beq_iff, forall_lt_9]
    refine ⟨?_, ?_, ?_, ?_, ?_, ?_, ?_, ?_, ?_⟩ <;> refine beq_of_num' ?_ (by first | exact finite_one.not_nan | exact finite_zero.not_nan | exact isNaN_mul_finite (by assumption) (by assumption)) <;>
      mat_simp [] <;> num_simp [hsx, hsy, htx, hty]
  exact ⟨key tx ty sx sy htx hty hsx hsy, fun kx lx ky ly => key _ _ _ _ kx ky lx ly⟩
/-- **C102**, 2D: `scale` then `translate` as one transform does to every finite point exactly what the two do one after
the other: `s*p` rounded, `+ v` rounded. -/
theorem C102_place2 (sx sy : S) (hsx : IsFinite sx) (hsy : IsFinite sy) (v : Vector2 S) (hv : AllFinite v) (p : Point2 S) (hp : AllFinite p) :
    (Transform.transform ((Transform2.scale sx sy).andThen (Transform2.translate v)) p == Point2.new (sx * p.x + v.x) (sy * p.y + v.y)) = true ∧
    (AllFinite (Transform.transform (Transform2.scale sx sy) p : Point2 S) →
      (Transform.transform ((Transform2.scale sx sy).andThen (Transform2.translate v)) p
        == Transform.transform (Transform2.translate v) (Transform.transform (Transform2.scale sx sy) p : Point2 S)) = true) := by
  have first : (Transform.transform ((Transform2.scale sx sy).andThen (Transform2.translate v)) p == Point2.new (sx * p.x + v.x) (sy * p.y + v.y)) = true := by
    show (Matrix3x3.translate v * Matrix3x3.scale sx sy * p == _) = true
    rw [Vector2.allFinite] at hv
    rw [Point2.allFinite] at hp
    obtain ⟨g0, g1⟩ := hv
    obtain ⟨p0, p1⟩ := hp
    rw [Point2.beq_iff]
    refine ⟨?_, ?_⟩ <;> refine beq_of_num' ?_ (nan_add_prod (by assumption) (by assumption) (by assumption)) <;>
      mat_simp [Point2.new] <;> refine num_div_of_one ?_ ?_ <;> num_simp [g0, g1, p0, p1, hsx, hsy]
  refine ⟨first, fun hf => ?_⟩
  have e1 := (C46_float_scale2 sx sy v p hsx hsy hp hv).1
  have e2 := (C46_float_translate2 v v _ hf hv.noNaN hv).1
  rw [Point2.beq_iff] at first e1 e2 ⊢
  have cong : ∀ {a b c d e : S}, (a == b * c + d) = true → (e == b * c) = true → ∀ f : S, (f == e + d) = true → (a == f) = true := by
    intro a b c d e h1 h2 f h3
    refine beq_of_num ?_ (beq_iff.1 h1).1
    rw [num_of_beq h1, num_of_beq h3]
    exact num_add_congr (num_of_beq h2).symm rfl
  exact ⟨cong first.1 e1.1 _ e2.1, cong first.2 e1.2 _ e2.2⟩
/-- **C102**, 2D: `translate` then `scale` as one transform scales point and offset separately. -/
theorem C102_shift_scale2 (sx sy : S) (hsx : IsFinite sx) (hsy : IsFinite sy) (v : Vector2 S) (hv : AllFinite v) (p : Point2 S) (hp : AllFinite p) (hox : IsFinite (sx * v.x)) (hoy : IsFinite (sy * v.y)) :
    (Transform.transform ((Transform2.translate v).andThen (Transform2.scale sx sy)) p == Point2.new (sx * p.x + sx * v.x) (sy * p.y + sy * v.y)) = true := by
  show (Matrix3x3.scale sx sy * Matrix3x3.translate v * p == _) = true
  rw [Vector2.allFinite] at hv
  rw [Point2.allFinite] at hp
  obtain ⟨g0, g1⟩ := hv
  obtain ⟨p0, p1⟩ := hp
  rw [Point2.beq_iff]
  refine ⟨?_, ?_⟩ <;> refine beq_of_num' ?_ (nan_add_prod (by assumption) (by assumption) (by assumption)) <;>
    mat_simp [Point2.new] <;> refine num_div_of_one ?_ ?_ <;> num_simp [g0, g1, p0, p1, hsx, hsy]
end
/-! ## 3D -/
section
variable {S : Type} [Scalar S] [IEEE S]
/-- **C102**, 3D: `identity()` is a unit of `and_then` for finite transforms. -/
theorem C102_unit3 (t : Transform3 S) (ht : AllFinite t.forward) (ht' : AllFinite t.inverse) :
    (Transform3.identity.andThen t == t) = true ∧ (t.andThen Transform3.identity == t) = true := by
  have a := C41_float_identity3 t.forward ht
  have b := C41_float_identity3 t.inverse ht'
  exact ⟨Transform3.beq_iff.2 ⟨a.1, b.2⟩, Transform3.beq_iff.2 ⟨a.2, b.1⟩⟩
/-- A matrix equal to a translation, after a further translation. -/
theorem translate_mul3 (m m' : Matrix4x4 S) (u v w : Vector3 S) (hu : AllFinite u) (hv : AllFinite v) (h : (m == Matrix4x4.translate u) = true)
    (h' : (m' == Matrix4x4.translate v) = true) 
    (hw : num w.x = num (u.x + v.x) ∧ num w.y = num (u.y + v.y) ∧ num w.z = num (u.z + v.z)) : (m * m' == Matrix4x4.translate w) = true := by
  have nn : ∀ {a b c : S}, num a = num (b + c) → IsFinite b → IsFinite c → ¬ IsNaN a := by
    intro a b c h hb hc
    rw [isNaN_iff_num, h, ← isNaN_iff_num]
    exact isNaN_add_finite hb hc.not_nan
  obtain ⟨w0, w1, w2⟩ := hw
  rw [Vector3.allFinite] at hu hv
  obtain ⟨h0, h1, h2⟩ := hu
  obtain ⟨g0, g1, g2⟩ := hv
  rw [Matrix4x4.beq_iff, forall_lt_16] at h h' ⊢
  have tr : ∀ {a b : S}, (a == b) = true → num a = num b := fun h => num_of_beq h
  obtain ⟨a0, a1, a2, a3, a4, a5, a6, a7, a8, a9, a10, a11, a12, a13, a14, a15⟩ := h
  obtain ⟨b0, b1, b2, b3, b4, b5, b6, b7, b8, b9, b10, b11, b12, b13, b14, b15⟩ := h'
  replace a0 : num m.m[0] = num (one : S) := tr a0
  replace a1 : num m.m[1] = num (zero : S) := tr a1
  replace a2 : num m.m[2] = num (zero : S) := tr a2
  replace a3 : num m.m[3] = num u.x := tr a3
  replace a4 : num m.m[4] = num (zero : S) := tr a4
  replace a5 : num m.m[5] = num (one : S) := tr a5
  replace a6 : num m.m[6] = num (zero : S) := tr a6
  replace a7 : num m.m[7] = num u.y := tr a7
  replace a8 : num m.m[8] = num (zero : S) := tr a8
  replace a9 : num m.m[9] = num (zero : S) := tr a9
  replace a10 : num m.m[10] = num (one : S) := tr a10
  replace a11 : num m.m[11] = num u.z := tr a11
  replace a12 : num m.m[12] = num (zero : S) := tr a12
  replace a13 : num m.m[13] = num (zero : S) := tr a13
  replace a14 : num m.m[14] = num (zero : S) := tr a14
  replace a15 : num m.m[15] = num (one : S) := tr a15
  replace b0 : num m'.m[0] = num (one : S) := tr b0
  replace b1 : num m'.m[1] = num (zero : S) := tr b1
  replace b2 : num m'.m[2] = num (zero : S) := tr b2
  replace b3 : num m'.m[3] = num v.x := tr b3
  replace b4 : num m'.m[4] = num (zero : S) := tr b4
  replace b5 : num m'.m[5] = num (one : S) := tr b5
  replace b6 : num m'.m[6] = num (zero : S) := tr b6
  replace b7 : num m'.m[7] = num v.y := tr b7
  replace b8 : num m'.m[8] = num (zero : S) := tr b8
  replace b9 : num m'.m[9] = num (zero : S) := tr b9
  replace b10 : num m'.m[10] = num (one : S) := tr b10
  replace b11 : num m'.m[11] = num v.z := tr b11
  replace b12 : num m'.m[12] = num (zero : S) := tr b12
  replace b13 : num m'.m[13] = num (zero : S) := tr b13
  replace b14 : num m'.m[14] = num (zero : S) := tr b14
  replace b15 : num m'.m[15] = num (one : S) := tr b15
  refine ⟨?_, ?_, ?_, ?_, ?_, ?_, ?_, ?_, ?_, ?_, ?_, ?_, ?_, ?_, ?_, ?_⟩ <;> refine beq_of_num' ?_ (by first | exact finite_one.not_nan | exact finite_zero.not_nan | exact nn (by assumption) (by assumption) (by assumption)) <;>
    mat_simp [Vector3.add_x, Vector3.add_y, Vector3.add_z] <;> num_simp [w0, w1, w2, a0, b0, a1, b1, a2, b2, a3, b3, a4, b4, a5, b5, a6, b6, a7, b7, a8, b8, a9, b9, a10, b10, a11, b11, a12, b12, a13, b13, a14, b14, a15, b15, h0, h1, h2, g0, g1, g2]
  all_goals exact (num_add _ _).symm.trans ((same_add_comm _ _).num.trans (num_add _ _))
/-- A transform equal to a translation, followed by a translation. -/
theorem translate_then3 (t t' : Transform3 S) (u v : Vector3 S) (hu : AllFinite u) (hv : AllFinite v) (h : (t == Transform3.translate u) = true)
    (h' : (t' == Transform3.translate v) = true) : (t.andThen t' == Transform3.translate (u + v)) = true := by
  obtain ⟨f, i⟩ := Transform3.beq_iff.1 h
  obtain ⟨f', i'⟩ := Transform3.beq_iff.1 h'
  have hu' : AllFinite (-u) := by
    rw [Vector3.allFinite] at hu ⊢
    exact ⟨finite_neg.2 hu.1, finite_neg.2 hu.2.1, finite_neg.2 hu.2.2⟩
  have hv' : AllFinite (-v) := by
    rw [Vector3.allFinite] at hv ⊢
    exact ⟨finite_neg.2 hv.1, finite_neg.2 hv.2.1, finite_neg.2 hv.2.2⟩
  refine Transform3.beq_iff.2 ⟨?_, ?_⟩
  · exact translate_mul3 _ _ v u _ hv hu f' f ⟨(same_add_comm _ _).num, (same_add_comm _ _).num, (same_add_comm _ _).num⟩
  · exact translate_mul3 _ _ (-u) (-v) _ hu' hv' i i' ⟨(num_neg_add _ _).symm, (num_neg_add _ _).symm, (num_neg_add _ _).symm⟩
theorem translate_self3 (v : Vector3 S) (hv : AllFinite v) : (Transform3.translate v == Transform3.translate v) = true := by
  have hf := Vector3.allFinite.1 hv
  have key : ∀ u : Vector3 S, AllFinite u → (Matrix4x4.translate u == Matrix4x4.translate u) = true := by
    intro u hu
    rw [Vector3.allFinite] at hu
    rw [Matrix4x4.beq_iff, forall_lt_16]
    mat_simp []
    have r : ∀ {s : S}, IsFinite s → (s == s) = true := fun h => beq_iff.2 ⟨h.not_nan, h.not_nan, rfl⟩
    exact ⟨r finite_one, r finite_zero, r finite_zero, r hu.1, r finite_zero, r finite_one, r finite_zero, r hu.2.1, r finite_zero, r finite_zero, r finite_one, r hu.2.2, r finite_zero, r finite_zero, r finite_zero, r finite_one⟩
  refine Transform3.beq_iff.2 ⟨key v hv, key (-v) ?_⟩
  rw [Vector3.allFinite]
  exact ⟨finite_neg.2 hf.1, finite_neg.2 hf.2.1, finite_neg.2 hf.2.2⟩
/-- **C102**, 3D: two translations in a row are, exactly, the translation by the (rounded) sum. -/
theorem C102_translate3 (u v : Vector3 S) (hu : AllFinite u) (hv : AllFinite v) :
    ((Transform3.translate u).andThen (Transform3.translate v) == Transform3.translate (u + v)) = true :=
  translate_then3 _ _ u v hu hv (translate_self3 u hu) (translate_self3 v hv)
/-- **C102**, 3D: any chain of translations is, exactly, the translation by the sum as computed by `+=`, if no partial sum
overflows. -/
theorem C102_translations3 (vs : List (Vector3 S)) (hv : ∀ v ∈ vs, AllFinite v)
    (hs : ∀ us, us <+: vs → AllFinite (us.foldl Vector3.addAssign Vector3.zero)) :
    (vs.foldl (fun t v => t.andThen (Transform3.translate v)) Transform3.identity == Transform3.translate (vs.foldl Vector3.addAssign Vector3.zero)) = true := by
  induction vs using List.reverseRecOn with
  | nil =>
    have z : AllFinite (Vector3.zero : Vector3 S) := hs [] (List.prefix_rfl)
    have r0 : ((zero : S) == zero) = true := beq_iff.2 ⟨finite_zero.not_nan, finite_zero.not_nan, rfl⟩
    have r1 : ((one : S) == one) = true := beq_iff.2 ⟨finite_one.not_nan, finite_one.not_nan, rfl⟩
    have rn : ((zero : S) == -zero) = true := beq_iff.2 ⟨finite_zero.not_nan, (finite_neg.2 finite_zero).not_nan, by
      rw [finite_zero.val, (finite_neg.2 finite_zero).val, IEEE.real_neg, real_zero, neg_zero]⟩
    refine Transform3.beq_iff.2 ⟨?_, ?_⟩ <;> rw [Matrix4x4.beq_iff, forall_lt_16]
    · exact ⟨r1, r0, r0, r0, r0, r1, r0, r0, r0, r0, r1, r0, r0, r0, r0, r1⟩
    · exact ⟨r1, r0, r0, rn, r0, r1, r0, rn, r0, r0, r1, rn, r0, r0, r0, r1⟩
  | append_singleton us v ih =>
    rw [List.foldl_append, List.foldl_append]
    exact translate_then3 _ _ _ v (hs us (List.prefix_append _ _)) (hv v (by simp))
      (ih (fun w hw => hv w (by simp [hw])) (fun ws h => hs ws (h.trans (List.prefix_append _ _))))
      (translate_self3 v (hv v (by simp)))
/-- **C102**, 3D: two scalings in a row multiply the factors, in the forward and in the inverse direction; each entry is
rounded once. -/
theorem C102_scale3 (sx sy sz tx ty tz : S) (hsx : IsFinite sx) (hsy : IsFinite sy) (hsz : IsFinite sz) (htx : IsFinite tx) (hty : IsFinite ty) (htz : IsFinite tz) :
    (((Transform3.scale sx sy sz).andThen (Transform3.scale tx ty tz)).forward == Matrix4x4.scale (tx * sx) (ty * sy) (tz * sz)) = true ∧
    (IsFinite (recip sx) → IsFinite (recip tx) → IsFinite (recip sy) → IsFinite (recip ty) → IsFinite (recip sz) → IsFinite (recip tz) →
      (((Transform3.scale sx sy sz).andThen (Transform3.scale tx ty tz)).inverse == Matrix4x4.scale (recip sx * recip tx) (recip sy * recip ty) (recip sz * recip tz)) = true) := by
  have key : ∀ sx sy sz tx ty tz : S, IsFinite sx → IsFinite sy → IsFinite sz → IsFinite tx → IsFinite ty → IsFinite tz →
      (Matrix4x4.scale sx sy sz * Matrix4x4.scale tx ty tz == Matrix4x4.scale (sx * tx) (sy * ty) (sz * tz)) = true := by
    intro sx sy sz tx ty tz hsx hsy hsz htx hty htz
    rw [Matrix4x4.beq_iff, forall_lt_16]
    refine ⟨?_, ?_, ?_, ?_, ?_, ?_, ?_, ?_, ?_, ?_, ?_, ?_, ?_, ?_, ?_, ?_⟩ <;> refine beq_of_num' ?_ (by first | exact finite_one.not_nan | exact finite_zero.not_nan | exact isNaN_mul_finite (by assumption) (by assumption)) <;>
      mat_simp [] <;> num_simp [hsx, hsy, hsz, htx, hty, htz]
  exact ⟨key tx ty tz sx sy sz htx hty htz hsx hsy hsz, fun kx lx ky ly kz lz => key _ _ _ _ _ _ kx ky kz lx ly lz⟩
/-- **C102**, 3D: `scale` then `translate` as one transform does to every finite point exactly what the two do one after
the other: `s*p` rounded, `+ v` rounded. -/
theorem C102_place3 (sx sy sz : S) (hsx : IsFinite sx) (hsy : IsFinite sy) (hsz : IsFinite sz) (v : Vector3 S) (hv : AllFinite v) (p : Point3 S) (hp : AllFinite p) :
    (Transform.transform ((Transform3.scale sx sy sz).andThen (Transform3.translate v)) p == Point3.new (sx * p.x + v.x) (sy * p.y + v.y) (sz * p.z + v.z)) = true ∧
    (AllFinite (Transform.transform (Transform3.scale sx sy sz) p : Point3 S) →
      (Transform.transform ((Transform3.scale sx sy sz).andThen (Transform3.translate v)) p
        == Transform.transform (Transform3.translate v) (Transform.transform (Transform3.scale sx sy sz) p : Point3 S)) = true) := by
  have first : (Transform.transform ((Transform3.scale sx sy sz).andThen (Transform3.translate v)) p == Point3.new (sx * p.x + v.x) (sy * p.y + v.y) (sz * p.z + v.z)) = true := by
    show (Matrix4x4.translate v * Matrix4x4.scale sx sy sz * p == _) = true
    rw [Vector3.allFinite] at hv
    rw [Point3.allFinite] at hp
    obtain ⟨g0, g1, g2⟩ := hv
    obtain ⟨p0, p1, p2⟩ := hp
    rw [Point3.beq_iff]
    refine ⟨?_, ?_, ?_⟩ <;> refine beq_of_num' ?_ (nan_add_prod (by assumption) (by assumption) (by assumption)) <;>
      mat_simp [Point3.new] <;> refine num_div_of_one ?_ ?_ <;> num_simp [g0, g1, g2, p0, p1, p2, hsx, hsy, hsz]
  refine ⟨first, fun hf => ?_⟩
  have e1 := (C46_float_scale3 sx sy sz v p hsx hsy hsz hp hv).1
  have e2 := (C46_float_translate3 v v _ hf hv.noNaN hv).1
  rw [Point3.beq_iff] at first e1 e2 ⊢
  have cong : ∀ {a b c d e : S}, (a == b * c + d) = true → (e == b * c) = true → ∀ f : S, (f == e + d) = true → (a == f) = true := by
    intro a b c d e h1 h2 f h3
    refine beq_of_num ?_ (beq_iff.1 h1).1
    rw [num_of_beq h1, num_of_beq h3]
    exact num_add_congr (num_of_beq h2).symm rfl
  exact ⟨cong first.1 e1.1 _ e2.1, cong first.2.1 e1.2.1 _ e2.2.1, cong first.2.2 e1.2.2 _ e2.2.2⟩
/-- **C102**, 3D: `translate` then `scale` as one transform scales point and offset separately. -/
theorem C102_shift_scale3 (sx sy sz : S) (hsx : IsFinite sx) (hsy : IsFinite sy) (hsz : IsFinite sz) (v : Vector3 S) (hv : AllFinite v) (p : Point3 S) (hp : AllFinite p) (hox : IsFinite (sx * v.x)) (hoy : IsFinite (sy * v.y)) (hoz : IsFinite (sz * v.z)) :
    (Transform.transform ((Transform3.translate v).andThen (Transform3.scale sx sy sz)) p == Point3.new (sx * p.x + sx * v.x) (sy * p.y + sy * v.y) (sz * p.z + sz * v.z)) = true := by
  show (Matrix4x4.scale sx sy sz * Matrix4x4.translate v * p == _) = true
  rw [Vector3.allFinite] at hv
  rw [Point3.allFinite] at hp
  obtain ⟨g0, g1, g2⟩ := hv
  obtain ⟨p0, p1, p2⟩ := hp
  rw [Point3.beq_iff]
  refine ⟨?_, ?_, ?_⟩ <;> refine beq_of_num' ?_ (nan_add_prod (by assumption) (by assumption) (by assumption)) <;>
    mat_simp [Point3.new] <;> refine num_div_of_one ?_ ?_ <;> num_simp [g0, g1, g2, p0, p1, p2, hsx, hsy, hsz]
end
end VecMath

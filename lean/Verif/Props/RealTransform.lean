import Verif.Props.RealMatrix
import Verif.Props.RealRotation
import Verif.Lemmas.LookAt
import Verif.Props.FloatMatrix
import Verif.Props.FloatEq
/-!
# Transforms in exact real arithmetic (layer R): C49-C52, C55

`Paired` (in `Verif.Spec.Real`): the two matrices of the transform are inverse to each other.
(Generated by tools/gen/gentx.py.)
-/

set_option linter.unusedSimpArgs false
set_option linter.unusedVariables false

namespace VecMath
open Scalar IEEE
open scoped Matrix

theorem Transform2.allFinite {t : Transform2 Ideal} : AllFinite t ↔ AllFinite t.forward ∧ AllFinite t.inverse := by
  unfold AllFinite
  show (∀ x ∈ Comps.comps t.forward ++ Comps.comps t.inverse, _) ↔ _
  simp only [List.mem_append, or_imp, forall_and]
theorem Transform3.allFinite {t : Transform3 Ideal} : AllFinite t ↔ AllFinite t.forward ∧ AllFinite t.inverse := by
  unfold AllFinite
  show (∀ x ∈ Comps.comps t.forward ++ Comps.comps t.inverse, _) ↔ _
  simp only [List.mem_append, or_imp, forall_and]

/-! ## Transform2 -/
section
variable {t a b c : Transform2 Ideal} {p : Point2 Ideal} {v : Vector2 Ideal}

/-- **C49**: every constructor pairs the forward matrix with its true inverse. -/
theorem C49_real2 (v : Vector2 Ideal) (hv : AllFinite v) (sx sy s : Ideal) (hs : (IsFinite sx ∧ real sx ≠ 0) ∧ (IsFinite sy ∧ real sy ≠ 0)) (hsu : IsFinite s ∧ real s ≠ 0) :
    (Transform2.identity : Transform2 Ideal).Paired ∧ (Transform2.translate v).Paired ∧ (Transform2.scale sx sy).Paired ∧
    (Transform2.scaleUniform s).Paired := by
  have key : ∀ sx sy : Ideal, ((IsFinite sx ∧ real sx ≠ 0) ∧ (IsFinite sy ∧ real sy ≠ 0)) → (Transform2.scale sx sy).Paired := by
    intro sx sy hs
    refine Transform2.paired_of_affine (Matrix3x3.fin_scale ⟨hs.1.1, hs.2.1⟩) (Matrix3x3.fin_scale ⟨Ideal.finite_recip hs.1.1 hs.1.2, Ideal.finite_recip hs.2.1 hs.2.2⟩)
      (Matrix3x3.scale_affine sx sy) (Matrix3x3.scale_affine (recip sx) (recip sy)) ?_ ?_
    · show (Matrix3x3.scale sx sy).linear * (Matrix3x3.scale (recip sx) (recip sy)).linear = 1
      rw [Matrix3x3.linear_scale, Matrix3x3.linear_scale, Matrix.diagonal_mul_diagonal, ← Matrix.diagonal_one]
      congr 1
      ext i; fin_cases i <;> simp [Ideal.real_recip hs.1.1 hs.1.2, Ideal.real_recip hs.2.1 hs.2.2, hs]
    · show (Matrix3x3.scale sx sy).linear.mulVec (Matrix3x3.scale (recip sx) (recip sy)).offset + (Matrix3x3.scale sx sy).offset = 0
      rw [Matrix3x3.offset_scale, Matrix3x3.offset_scale, Matrix.mulVec_zero, add_zero]
  refine ⟨?_, ?_, key sx sy hs, key s s ⟨hsu, hsu⟩⟩
  · refine (Transform2.paired_iff Matrix3x3.fin_identity Matrix3x3.fin_identity).2 ?_
    show (Matrix3x3.identity : Matrix3x3 Ideal).toReal * (Matrix3x3.identity : Matrix3x3 Ideal).toReal = 1
    rw [Matrix3x3.toReal_identity, mul_one]
  · refine Transform2.paired_of_affine (Matrix3x3.fin_translate hv) (Matrix3x3.fin_translate (Vector2.fin_neg hv)) (Matrix3x3.translate_affine v)
      (Matrix3x3.translate_affine (-v)) ?_ ?_
    · show (Matrix3x3.translate v).linear * (Matrix3x3.translate (-v)).linear = 1
      rw [Matrix3x3.linear_translate, Matrix3x3.linear_translate, mul_one]
    · show (Matrix3x3.translate v).linear.mulVec (Matrix3x3.translate (-v)).offset + (Matrix3x3.translate v).offset = 0
      rw [Matrix3x3.linear_translate, Matrix3x3.offset_translate, Matrix3x3.offset_translate, Matrix.one_mulVec, Vector2.toReal_neg hv, neg_add_cancel]

theorem C49_real_rotate2 (a : Ideal) (ha : IsFinite a) : (Transform2.rotate a).Paired :=
  Transform2.paired_transpose (Matrix3x3.fin_rotate ha) (Matrix3x3.rotate_affine ha) (Matrix3x3.offset_rotate ha)
    (by rw [Matrix3x3.linear_rotate ha, rot2_orth])

/-- **C50**: `a.and_then(b)` applies `a` first, then `b`: on points of nonzero weight, on vectors and rays
when `a` is affine. -/
theorem C50_real_point2 (a b : Transform2 Ideal) (p : Point2 Ideal) (ha : AllFinite a.forward) (hb : AllFinite b.forward)
    (hp : AllFinite p) (h1 : a.forward.weight p ≠ 0)
    (h2 : b.forward.weight (Transform.transform a p : Point2 Ideal) ≠ 0) :
    (Transform.transform (a.andThen b) p == Transform.transform b (Transform.transform a p : Point2 Ideal)) = true :=
  (C43_real_compose2 b.forward a.forward p hb ha hp h1 h2).2
theorem C50_real_vector2 (a b : Transform2 Ideal) (v : Vector2 Ideal) (ha : AllFinite a.forward) (hb : AllFinite b.forward)
    (hv : AllFinite v) (h1 : a.forward.Affine) :
    (Transform.transform (a.andThen b) v == Transform.transform b (Transform.transform a v : Vector2 Ideal)) = true := by
  show ((b.forward * a.forward) * v == b.forward * (a.forward * v)) = true
  rw [Vector2.beq_toReal (Matrix3x3.fin_mulv (Matrix3x3.fin_mul hb ha) hv) (Matrix3x3.fin_mulv hb (Matrix3x3.fin_mulv ha hv)),
    Matrix3x3.toReal_mulv' (Matrix3x3.fin_mul hb ha) hv, Matrix3x3.toReal_mulv' hb (Matrix3x3.fin_mulv ha hv), Matrix3x3.toReal_mulv' ha hv,
    h1.linear_mul hb ha, Matrix.mulVec_mulVec]
theorem C50_real_ray2 (a b : Transform2 Ideal) (r : Ray2 Ideal) (ha : AllFinite a.forward) (hb : AllFinite b.forward)
    (hr : AllFinite r) (h1 : a.forward.Affine) (h2 : b.forward.Affine) :
    (Transform.transform (a.andThen b) r == Transform.transform b (Transform.transform a r : Ray2 Ideal)) = true := by
  rw [Ray2.allFinite] at hr
  refine Ray2.beq_iff.2 ⟨?_, ?_⟩
  · exact C50_real_point2 a b r.origin ha hb hr.1 (by rw [h1.weight]; norm_num) (by rw [h2.weight]; norm_num)
  · exact C50_real_vector2 a b r.direction ha hb hr.2 h1
/-- **C50**: `and_then` is associative with the identity transform as unit. -/
theorem C50_real_monoid2 (a b c : Transform2 Ideal) (ha : AllFinite a) (hb : AllFinite b) (hc : AllFinite c) :
    ((a.andThen b).andThen c == a.andThen (b.andThen c)) = true ∧
    (Transform2.identity.andThen a == a) = true ∧ (a.andThen Transform2.identity == a) = true := by
  rw [Transform2.allFinite] at ha hb hc
  have z := finite_zero (S := Ideal)
  have as := fun x y w (hx : AllFinite x) (hy : AllFinite y) (hw : AllFinite w) =>
    (C41_real2 x y w zero hx hy hw z).2.2.1
  refine ⟨Transform2.beq_iff.2 ⟨?_, ?_⟩, Transform2.beq_iff.2 ⟨?_, ?_⟩, Transform2.beq_iff.2 ⟨?_, ?_⟩⟩
  · show (c.forward * (b.forward * a.forward) == (c.forward * b.forward) * a.forward) = true
    rw [(C58_matrix3x3).symm]
    exact as _ _ _ hc.1 hb.1 ha.1
  · exact as _ _ _ ha.2 hb.2 hc.2
  · exact (C41_float_identity2 _ ha.1).1
  · exact (C41_float_identity2 _ ha.2).2
  · exact (C41_float_identity2 _ ha.1).2
  · exact (C41_float_identity2 _ ha.2).1

/-- **C51**: `t.inverse()` undoes `t`, on every point of nonzero weight, and on vectors when `t` is affine. -/
theorem C51_real2 (t : Transform2 Ideal) (ht : AllFinite t) (h : t.Paired) (p : Point2 Ideal) (hp : AllFinite p)
    (v : Vector2 Ideal) (hv : AllFinite v) :
    (t.forward.weight p ≠ 0 → (Transform.transform t.inv (Transform.transform t p : Point2 Ideal) == p) = true) ∧
    (t.forward.Affine → (Transform.transform t.inv (Transform.transform t v : Vector2 Ideal) == v) = true) := by
  rw [Transform2.allFinite] at ht
  obtain ⟨hf, hi⟩ := ht
  have h1 := mul_eq_one_comm.1 ((Transform2.paired_iff hf hi).1 h)
  have h1' : (t.inverse * t.forward).toReal = 1 := by rw [Matrix3x3.toReal_mul hi hf, h1]
  constructor
  · intro hw
    show (t.inverse * (t.forward * p) == p) = true
    have e := Matrix3x3.weight_mul hi hf hp hw
    have e1 : (t.inverse * t.forward).weight p = 1 := by
      unfold Matrix3x3.weight; rw [h1', Matrix.one_mulVec]; rfl
    rw [e1] at e
    have hw2 : t.inverse.weight (t.forward * p) ≠ 0 := by
      intro h0; rw [h0, zero_mul] at e; exact one_ne_zero e
    have fp := Matrix3x3.fin_mulp hf hp hw
    rw [Point2.beq_toReal (Matrix3x3.fin_mulp hi fp hw2) hp]
    apply Point2.hom_inj
    rw [Matrix3x3.hom_mulp hi fp hw2, Matrix3x3.hom_mulp hf hp hw, Matrix.mulVec_smul, Matrix.mulVec_mulVec, h1, Matrix.one_mulVec, smul_smul,
      ← mul_inv, ← e, inv_one, one_smul]
  · intro haf
    show (t.inverse * (t.forward * v) == v) = true
    have fv := Matrix3x3.fin_mulv hf hv
    rw [Vector2.beq_toReal (Matrix3x3.fin_mulv hi fv) hv, Matrix3x3.toReal_mulv' hi fv, Matrix3x3.toReal_mulv' hf hv, Matrix.mulVec_mulVec,
      ← haf.linear_mul hi hf]
    have : (t.inverse * t.forward).linear = 1 := by
      unfold Matrix3x3.linear; rw [h1', ← Matrix3x3.toReal_identity]; exact Matrix3x3.linear_identity
    rw [this, Matrix.one_mulVec]

/-- **C55**: for an affine transform, transforming a ray commutes with evaluating it. -/
theorem C55_real2 (t : Transform2 Ideal) (ht : AllFinite t.forward) (h : t.forward.Affine) (r : Ray2 Ideal)
    (hr : AllFinite r) (s : Ideal) (hs : IsFinite s) :
    ((Transform.transform t r : Ray2 Ideal).at s == (Transform.transform t (r.at s) : Point2 Ideal)) = true := by
  rw [Ray2.allFinite] at hr
  have fd := Vector2.fin_mul hr.2 hs
  have fa := Point2.fin_addv hr.1 fd
  have f1 := Matrix3x3.fin_mulv ht hr.2
  have f2 := h.fin_mulp ht hr.1
  show (t.forward * r.origin + (t.forward * r.direction) * s == t.forward * (r.origin + r.direction * s)) = true
  rw [Point2.beq_toReal (Point2.fin_addv f2 (Vector2.fin_mul f1 hs)) (h.fin_mulp ht fa), Point2.toReal_addv f2 (Vector2.fin_mul f1 hs),
    Vector2.toReal_mul f1 hs, Matrix3x3.toReal_mulv' ht hr.2, h.toReal_mulp ht hr.1, h.toReal_mulp ht fa, Point2.toReal_addv hr.1 fd,
    Vector2.toReal_mul hr.2 hs, Matrix.mulVec_add, Matrix.mulVec_smul]
  abel
/-- **C55**: the inverse transform undoes the transform on rays. -/
theorem C55_real_inverse2 (t : Transform2 Ideal) (ht : AllFinite t) (hp : t.Paired) (h : t.forward.Affine) (r : Ray2 Ideal)
    (hr : AllFinite r) :
    (Transform.transform t.inv (Transform.transform t r : Ray2 Ideal) == r) = true := by
  rw [Ray2.allFinite] at hr
  have ⟨h1, h2⟩ := C51_real2 t ht hp r.origin hr.1 r.direction hr.2
  exact Ray2.beq_iff.2 ⟨h1 (by rw [h.weight]; norm_num), h2 h⟩

/-- **C52**: the transforms a program can build with valid arguments. `P` restricts the matrices that are
passed to `try_from`. -/
inductive Built2 (P : Matrix3x3 Ideal → Prop) : Transform2 Ideal → Prop
  | identity : Built2 P Transform2.identity
  | translate (v : Vector2 Ideal) : AllFinite v → Built2 P (Transform2.translate v)
  | rotate (a : Ideal) : IsFinite a → Built2 P (Transform2.rotate a)
  | scale (sx sy : Ideal) : ((IsFinite sx ∧ real sx ≠ 0) ∧ (IsFinite sy ∧ real sy ≠ 0)) → Built2 P (Transform2.scale sx sy)
  | scaleUniform (s : Ideal) : (IsFinite s ∧ real s ≠ 0) → Built2 P (Transform2.scaleUniform s)
  | tryFrom (m : Matrix3x3 Ideal) (t : Transform2 Ideal) : P m → Transform2.tryFrom m = .ok t → Built2 P t
  | andThen (a b : Transform2 Ideal) : Built2 P a → Built2 P b → Built2 P (a.andThen b)
  | inverse (a : Transform2 Ideal) : Built2 P a → Built2 P a.inv

theorem built_inv2 {P : Matrix3x3 Ideal → Prop} (hP : ∀ m, P m → AllFinite m) (t : Transform2 Ideal) (h : Built2 P t) :
    AllFinite t.forward ∧ AllFinite t.inverse ∧ t.Paired := by
  induction h with
  | identity =>
    exact ⟨Matrix3x3.fin_identity, Matrix3x3.fin_identity, (C49_real2 Vector2.zero Vector2.fin_zero one one one ⟨⟨finite_one, by rw [real_one]; norm_num⟩, ⟨finite_one, by rw [real_one]; norm_num⟩⟩ ⟨finite_one, by rw [real_one]; norm_num⟩).1⟩
  | translate v hv =>
    exact ⟨Matrix3x3.fin_translate hv, Matrix3x3.fin_translate (Vector2.fin_neg hv),
      (C49_real2 v hv one one one ⟨⟨finite_one, by rw [real_one]; norm_num⟩, ⟨finite_one, by rw [real_one]; norm_num⟩⟩ ⟨finite_one, by rw [real_one]; norm_num⟩).2.1⟩
  | rotate a ha =>
    exact ⟨Matrix3x3.fin_rotate ha, Matrix3x3.fin_transpose (Matrix3x3.fin_rotate ha), C49_real_rotate2 a ha⟩
  | scale sx sy hs =>
    exact ⟨Matrix3x3.fin_scale ⟨hs.1.1, hs.2.1⟩, Matrix3x3.fin_scale ⟨Ideal.finite_recip hs.1.1 hs.1.2, Ideal.finite_recip hs.2.1 hs.2.2⟩,
      (C49_real2 Vector2.zero Vector2.fin_zero sx sy one hs ⟨finite_one, by rw [real_one]; norm_num⟩).2.2.1⟩
  | scaleUniform s hs =>
    exact ⟨Matrix3x3.fin_scale ⟨hs.1, hs.1⟩, Matrix3x3.fin_scale ⟨Ideal.finite_recip hs.1 hs.2, Ideal.finite_recip hs.1 hs.2⟩,
      (C49_real2 Vector2.zero Vector2.fin_zero one one s ⟨⟨finite_one, by rw [real_one]; norm_num⟩, ⟨finite_one, by rw [real_one]; norm_num⟩⟩ hs).2.2.2⟩
  | tryFrom m t hm e =>
    have h2 := (C57_real2 m (hP m hm)).2 t e
    have h3 : ∃ n, m.inverse = .ok n ∧ t = ⟨m, n⟩ := by
      unfold Transform2.tryFrom at e
      rcases hn : m.inverse with _ | n
      · rw [hn] at e; cases e
      · rw [hn] at e; cases e; exact ⟨n, rfl, rfl⟩
    obtain ⟨n, hn, rfl⟩ := h3
    exact ⟨hP m hm, (Matrix3x3.inverse_ok (hP m hm) hn).2.1, h2.2⟩
  | andThen a b _ _ ia ib =>
    obtain ⟨fa, ga, pa⟩ := ia
    obtain ⟨fb, gb, pb⟩ := ib
    have ff := Matrix3x3.fin_mul fb fa
    have gg := Matrix3x3.fin_mul ga gb
    refine ⟨ff, gg, (Transform2.paired_iff ff gg).2 ?_⟩
    show (b.forward * a.forward).toReal * (a.inverse * b.inverse).toReal = 1
    rw [Matrix3x3.toReal_mul fb fa, Matrix3x3.toReal_mul ga gb, mul_assoc, ← mul_assoc a.forward.toReal, (Transform2.paired_iff fa ga).1 pa, one_mul,
      (Transform2.paired_iff fb gb).1 pb]
  | inverse a _ ia => exact ⟨ia.2.1, ia.1, ia.2.2.2, ia.2.2.1⟩

/-- **C52**: after any finite history of constructor, `try_from`, `and_then` and `inverse` calls, forward and
inverse matrix are finite and inverse to each other; so every point of nonzero weight survives the round trip. -/
theorem C52_paired2 (t : Transform2 Ideal) (h : Built2 AllFinite t) :
    AllFinite t.forward ∧ AllFinite t.inverse ∧ t.Paired ∧
    ∀ p : Point2 Ideal, AllFinite p → t.forward.weight p ≠ 0 →
      (Transform.transform t.inv (Transform.transform t p : Point2 Ideal) == p) = true := by
  obtain ⟨h1, h2, h3⟩ := built_inv2 (fun m hm => hm) t h
  exact ⟨h1, h2, h3, fun p hp => (C51_real2 t (Transform2.allFinite.2 ⟨h1, h2⟩) h3 p hp Vector2.zero Vector2.fin_zero).1⟩

theorem built_affine2 (t : Transform2 Ideal) (h : Built2 (fun m => AllFinite m ∧ m.Affine) t) :
    t.forward.Affine ∧ t.inverse.Affine := by
  have hP : ∀ m : Matrix3x3 Ideal, (AllFinite m ∧ m.Affine) → AllFinite m := fun m h => h.1
  have key : ∀ t, Built2 (fun m => AllFinite m ∧ m.Affine) t → t.forward.Affine → t.inverse.Affine := by
    intro t ht ha
    obtain ⟨hf, hi, hp⟩ := built_inv2 hP t ht
    exact inverse_affine2 hf ha hi ((Transform2.paired_iff hf hi).1 hp)
  have key2 : t.forward.Affine → t.forward.Affine ∧ t.inverse.Affine := fun ha => ⟨ha, key t h ha⟩
  induction h with
  | identity => exact ⟨Matrix3x3.identity_affine, Matrix3x3.identity_affine⟩
  | translate v hv => exact ⟨Matrix3x3.translate_affine v, Matrix3x3.translate_affine (-v)⟩
  | rotate a ha => exact key2 (Matrix3x3.rotate_affine ha)
  | scale sx sy hs => exact ⟨Matrix3x3.scale_affine sx sy, Matrix3x3.scale_affine (recip sx) (recip sy)⟩
  | scaleUniform s hs => exact ⟨Matrix3x3.scale_affine s s, Matrix3x3.scale_affine (recip s) (recip s)⟩
  | tryFrom m t hm e =>
    refine key2 ?_
    rw [((C57_real2 m hm.1).2 t e).1]; exact hm.2
  | andThen a b ha hb ia ib =>
    obtain ⟨fa, ga, pa⟩ := built_inv2 hP a ha
    obtain ⟨fb, gb, pb⟩ := built_inv2 hP b hb
    have ia := ia (fun h => ⟨h, key a ha h⟩)
    have ib := ib (fun h => ⟨h, key b hb h⟩)
    exact ⟨ib.1.mul ia.1 fb fa, ia.2.mul ib.2 ga gb⟩
  | inverse a ha ia =>
    have ia := ia (fun h => ⟨h, key a ha h⟩)
    exact ⟨ia.2, ia.1⟩

/-- **C52**: if moreover only affine matrices are passed to `try_from`, the transform is affine, no point ever
meets a zero weight, and points, vectors and rays survive the round trip in both directions. -/
theorem C52_affine2 (t : Transform2 Ideal) (h : Built2 (fun m => AllFinite m ∧ m.Affine) t) (p : Point2 Ideal) (hp : AllFinite p)
    (v : Vector2 Ideal) (hv : AllFinite v) :
    t.forward.Affine ∧ t.inverse.Affine ∧ t.forward.weight p = 1 ∧ t.inverse.weight p = 1 ∧
    (Transform.transform t.inv (Transform.transform t p : Point2 Ideal) == p) = true ∧
    (Transform.transform t (Transform.transform t.inv p : Point2 Ideal) == p) = true ∧
    (Transform.transform t.inv (Transform.transform t v : Vector2 Ideal) == v) = true ∧
    (Transform.transform t (Transform.transform t.inv v : Vector2 Ideal) == v) = true := by
  obtain ⟨h1, h2, h3⟩ := built_inv2 (fun m hm => hm.1) t h
  obtain ⟨a1, a2⟩ := built_affine2 t h
  have r1 := C51_real2 t (Transform2.allFinite.2 ⟨h1, h2⟩) h3 p hp v hv
  have r2 := C51_real2 t.inv (Transform2.allFinite.2 ⟨h2, h1⟩) ⟨h3.2, h3.1⟩ p hp v hv
  refine ⟨a1, a2, a1.weight p, a2.weight p, r1.1 ?_, r2.1 ?_, r1.2 a1, r2.2 a2⟩
  · rw [a1.weight]; norm_num
  · show t.inverse.weight p ≠ 0
    rw [a2.weight]; norm_num

theorem fold_built2 (P : Matrix3x3 Ideal → Prop) (ts : List (Transform2 Ideal)) (a : Transform2 Ideal) (ha : Built2 P a) (h : ∀ t ∈ ts, Built2 P t) :
    Built2 P (ts.foldl Transform2.andThen a) := by
  induction ts generalizing a with
  | nil => exact ha
  | cons t ts ih =>
    exact ih _ (.andThen a t ha (h t (by simp))) (fun t ht => h t (by simp [ht]))

/-- **C50**: chaining any list of affine transforms with `and_then` and applying the result once is the
same as applying them one after the other. -/
theorem C50_real_chain2 (ts : List (Transform2 Ideal)) (h : ∀ t ∈ ts, AllFinite t.forward ∧ t.forward.Affine) (p : Point2 Ideal)
    (hp : AllFinite p) :
    (Transform.transform (ts.foldl Transform2.andThen Transform2.identity) p ==
      ts.foldl (fun (q : Point2 Ideal) t => (Transform.transform t q : Point2 Ideal)) p) = true := by
  have key : ∀ (a : Transform2 Ideal) (q q' : Point2 Ideal), AllFinite a.forward → a.forward.Affine → AllFinite q → AllFinite q' →
      (a.forward * q).toReal = q'.toReal →
      AllFinite ((ts.foldl Transform2.andThen a).forward * q) ∧
      AllFinite (ts.foldl (fun (q : Point2 Ideal) t => (Transform.transform t q : Point2 Ideal)) q') ∧
      ((ts.foldl Transform2.andThen a).forward * q).toReal =
      (ts.foldl (fun (q : Point2 Ideal) t => (Transform.transform t q : Point2 Ideal)) q').toReal := by
    induction ts with
    | nil => intro a q q' fa aa fq fq' e; exact ⟨aa.fin_mulp fa fq, fq', e⟩
    | cons t ts ih =>
      intro a q q' fa aa fq fq' e
      obtain ⟨ft, at'⟩ := h t (by simp)
      rw [List.foldl_cons, List.foldl_cons]
      refine ih (fun t ht => h t (by simp [ht])) _ _ _ (Matrix3x3.fin_mul ft fa) (at'.mul aa ft fa) fq (at'.fin_mulp ft fq') ?_
      show ((t.forward * a.forward) * q).toReal = (t.forward * q').toReal
      rw [(at'.mul aa ft fa).toReal_mulp (Matrix3x3.fin_mul ft fa) fq, at'.toReal_mulp ft fq', ← e, aa.toReal_mulp fa fq,
        aa.linear_mul ft fa, aa.offset_mul ft fa, Matrix.mulVec_add, Matrix.mulVec_mulVec, add_assoc]
  have := key Transform2.identity p p Matrix3x3.fin_identity Matrix3x3.identity_affine hp hp (by
    show ((Matrix3x3.identity : Matrix3x3 Ideal) * p).toReal = _
    rw [Matrix3x3.identity_affine.toReal_mulp Matrix3x3.fin_identity hp, Matrix3x3.linear_identity, Matrix3x3.offset_identity, Matrix.one_mulVec, add_zero])
  exact (Point2.beq_toReal this.1 this.2.1).2 this.2.2
/-- **C52**: the rigid motions a program can build. -/
inductive Motion2 : Transform2 Ideal → Prop
  | identity : Motion2 Transform2.identity
  | translate (v : Vector2 Ideal) : AllFinite v → Motion2 (Transform2.translate v)
  | rotate (a : Ideal) : IsFinite a → Motion2 (Transform2.rotate a)
  | andThen (a b : Transform2 Ideal) : Motion2 a → Motion2 b → Motion2 (a.andThen b)
  | inverse (a : Transform2 Ideal) : Motion2 a → Motion2 a.inv

theorem motion_inv2 (t : Transform2 Ideal) (h : Motion2 t) :
    Built2 (fun m => AllFinite m ∧ m.Affine) t ∧ t.forward.linear.transpose * t.forward.linear = 1 ∧ t.forward.linear.det = 1 := by
  have orth : ∀ {f i : Matrix (Fin 2) (Fin 2) ℝ}, f * i = 1 → f.transpose * f = 1 → f.det = 1 →
      i.transpose * i = 1 ∧ i.det = 1 := by
    intro f i h1 h2 h3
    have : i = f.transpose := by
      have e : f.transpose * (f * i) = f.transpose := by rw [h1, mul_one]
      rwa [← mul_assoc, h2, one_mul] at e
    rw [this, Matrix.transpose_transpose, Matrix.det_transpose]
    exact ⟨mul_eq_one_comm.1 h2, h3⟩
  induction h with
  | identity =>
    refine ⟨.identity, ?_, ?_⟩
    · show (Matrix3x3.identity : Matrix3x3 Ideal).linear.transpose * (Matrix3x3.identity : Matrix3x3 Ideal).linear = 1
      rw [Matrix3x3.linear_identity, Matrix.transpose_one, mul_one]
    · show (Matrix3x3.identity : Matrix3x3 Ideal).linear.det = 1
      rw [Matrix3x3.linear_identity, Matrix.det_one]
  | translate v hv =>
    refine ⟨.translate v hv, ?_, ?_⟩
    · show (Matrix3x3.translate v).linear.transpose * (Matrix3x3.translate v).linear = 1
      rw [Matrix3x3.linear_translate, Matrix.transpose_one, mul_one]
    · show (Matrix3x3.translate v).linear.det = 1
      rw [Matrix3x3.linear_translate, Matrix.det_one]
  | rotate a ha =>
    refine ⟨.rotate a ha, ?_, ?_⟩
    · show (Matrix3x3.rotate a).linear.transpose * (Matrix3x3.rotate a).linear = 1
      rw [Matrix3x3.linear_rotate ha, rot2_orth]
    · show (Matrix3x3.rotate a).linear.det = 1
      rw [Matrix3x3.linear_rotate ha, rot2_det]
  | andThen a b _ _ ia ib =>
    obtain ⟨ba, oa, da⟩ := ia
    obtain ⟨bb, ob, db⟩ := ib
    have fa := (built_inv2 (fun m hm => hm.1) a ba).1
    have fb := (built_inv2 (fun m hm => hm.1) b bb).1
    have aa := (built_affine2 a ba).1
    refine ⟨.andThen a b ba bb, ?_, ?_⟩
    · show (b.forward * a.forward).linear.transpose * (b.forward * a.forward).linear = 1
      rw [aa.linear_mul fb fa, Matrix.transpose_mul, mul_assoc, ← mul_assoc b.forward.linear.transpose, ob, one_mul, oa]
    · show (b.forward * a.forward).linear.det = 1
      rw [aa.linear_mul fb fa, Matrix.det_mul, da, db, one_mul]
  | inverse a _ ia =>
    obtain ⟨ba, oa, da⟩ := ia
    obtain ⟨fa, ga, pa⟩ := built_inv2 (fun m hm => hm.1) a ba
    have ai := (built_affine2 a ba).2
    have h1 : a.forward.linear * a.inverse.linear = 1 := by
      rw [← ai.linear_mul fa ga, ← Matrix3x3.linear_identity]
      unfold Matrix3x3.linear
      rw [Matrix3x3.toReal_mul fa ga, (Transform2.paired_iff fa ga).1 pa, Matrix3x3.toReal_identity]
    exact ⟨.inverse a ba, orth h1 oa da⟩

/-- **C52**: every composition of translations, rotations, and their inverses preserves dot products,
lengths, distances and orientation, exactly; and so does its inverse. -/
theorem C52_rigid2 (t : Transform2 Ideal) (h : Motion2 t) : t.Rigid ∧ t.inv.Rigid := by
  have key : ∀ t : Transform2 Ideal, Motion2 t → t.Rigid := by
    intro t h
    obtain ⟨b, o, d⟩ := motion_inv2 t h
    exact Transform2.rigid_of (built_inv2 (fun m hm => hm.1) t b).1 (built_affine2 t b).1 o d
  exact ⟨key t h, key t.inv (.inverse t h)⟩
end

/-! ## Transform3 -/
section
variable {t a b c : Transform3 Ideal} {p : Point3 Ideal} {v : Vector3 Ideal}

/-- **C49**: every constructor pairs the forward matrix with its true inverse. -/
theorem C49_real3 (v : Vector3 Ideal) (hv : AllFinite v) (sx sy sz s : Ideal) (hs : (IsFinite sx ∧ real sx ≠ 0) ∧ (IsFinite sy ∧ real sy ≠ 0) ∧ (IsFinite sz ∧ real sz ≠ 0)) (hsu : IsFinite s ∧ real s ≠ 0) :
    (Transform3.identity : Transform3 Ideal).Paired ∧ (Transform3.translate v).Paired ∧ (Transform3.scale sx sy sz).Paired ∧
    (Transform3.scaleUniform s).Paired := by
  have key : ∀ sx sy sz : Ideal, ((IsFinite sx ∧ real sx ≠ 0) ∧ (IsFinite sy ∧ real sy ≠ 0) ∧ (IsFinite sz ∧ real sz ≠ 0)) → (Transform3.scale sx sy sz).Paired := by
    intro sx sy sz hs
    refine Transform3.paired_of_affine (Matrix4x4.fin_scale ⟨hs.1.1, hs.2.1.1, hs.2.2.1⟩) (Matrix4x4.fin_scale ⟨Ideal.finite_recip hs.1.1 hs.1.2, Ideal.finite_recip hs.2.1.1 hs.2.1.2, Ideal.finite_recip hs.2.2.1 hs.2.2.2⟩)
      (Matrix4x4.scale_affine sx sy sz) (Matrix4x4.scale_affine (recip sx) (recip sy) (recip sz)) ?_ ?_
    · show (Matrix4x4.scale sx sy sz).linear * (Matrix4x4.scale (recip sx) (recip sy) (recip sz)).linear = 1
      rw [Matrix4x4.linear_scale, Matrix4x4.linear_scale, Matrix.diagonal_mul_diagonal, ← Matrix.diagonal_one]
      congr 1
      ext i; fin_cases i <;> simp [Ideal.real_recip hs.1.1 hs.1.2, Ideal.real_recip hs.2.1.1 hs.2.1.2, Ideal.real_recip hs.2.2.1 hs.2.2.2, hs]
    · show (Matrix4x4.scale sx sy sz).linear.mulVec (Matrix4x4.scale (recip sx) (recip sy) (recip sz)).offset + (Matrix4x4.scale sx sy sz).offset = 0
      rw [Matrix4x4.offset_scale, Matrix4x4.offset_scale, Matrix.mulVec_zero, add_zero]
  refine ⟨?_, ?_, key sx sy sz hs, key s s s ⟨hsu, hsu, hsu⟩⟩
  · refine (Transform3.paired_iff Matrix4x4.fin_identity Matrix4x4.fin_identity).2 ?_
    show (Matrix4x4.identity : Matrix4x4 Ideal).toReal * (Matrix4x4.identity : Matrix4x4 Ideal).toReal = 1
    rw [Matrix4x4.toReal_identity, mul_one]
  · refine Transform3.paired_of_affine (Matrix4x4.fin_translate hv) (Matrix4x4.fin_translate (Vector3.fin_neg hv)) (Matrix4x4.translate_affine v)
      (Matrix4x4.translate_affine (-v)) ?_ ?_
    · show (Matrix4x4.translate v).linear * (Matrix4x4.translate (-v)).linear = 1
      rw [Matrix4x4.linear_translate, Matrix4x4.linear_translate, mul_one]
    · show (Matrix4x4.translate v).linear.mulVec (Matrix4x4.translate (-v)).offset + (Matrix4x4.translate v).offset = 0
      rw [Matrix4x4.linear_translate, Matrix4x4.offset_translate, Matrix4x4.offset_translate, Matrix.one_mulVec, Vector3.toReal_neg hv, neg_add_cancel]

theorem C49_real_rotatex (a : Ideal) (ha : IsFinite a) : (Transform3.rotateX a).Paired :=
  (isRot_rotateX ha).paired axis_unit_x
theorem C49_real_rotatey (a : Ideal) (ha : IsFinite a) : (Transform3.rotateY a).Paired :=
  (isRot_rotateY ha).paired axis_unit_y
theorem C49_real_rotatez (a : Ideal) (ha : IsFinite a) : (Transform3.rotateZ a).Paired :=
  (isRot_rotateZ ha).paired axis_unit_z
theorem C49_real_rotate_axis (k : Vector3 Ideal) (a : Ideal) (hk : AllFinite k) (h0 : k.toReal ≠ 0) (ha : IsFinite a) :
    (Transform3.rotateAxis k a).Paired :=
  (isRot_rotateAxis hk h0 ha).paired (unit_normalize hk h0)
theorem C49_real_look_at (o t : Point3 Ideal) (up : Vector3 Ideal) (f : Transform3 Ideal) (ho : AllFinite o) (ht : AllFinite t)
    (hu : AllFinite up) (h : crossProduct up.toReal (t.toReal - o.toReal) ≠ 0) (e : Transform3.lookAt o t up = .ok f) :
    f.Paired := by
  obtain ⟨r, d, m, -, -, -, -, -, -, fM, aM, e', ff, af, hm, -⟩ := lookAt_ok ho ht hu h
  rw [e'] at e; cases e
  exact (Transform3.paired_iff ff fM).2 hm

/-- **C50**: `a.and_then(b)` applies `a` first, then `b`: on points of nonzero weight, on vectors and rays
when `a` is affine. -/
theorem C50_real_point3 (a b : Transform3 Ideal) (p : Point3 Ideal) (ha : AllFinite a.forward) (hb : AllFinite b.forward)
    (hp : AllFinite p) (h1 : a.forward.weight p ≠ 0)
    (h2 : b.forward.weight (Transform.transform a p : Point3 Ideal) ≠ 0) :
    (Transform.transform (a.andThen b) p == Transform.transform b (Transform.transform a p : Point3 Ideal)) = true :=
  (C43_real_compose3 b.forward a.forward p hb ha hp h1 h2).2
theorem C50_real_vector3 (a b : Transform3 Ideal) (v : Vector3 Ideal) (ha : AllFinite a.forward) (hb : AllFinite b.forward)
    (hv : AllFinite v) (h1 : a.forward.Affine) :
    (Transform.transform (a.andThen b) v == Transform.transform b (Transform.transform a v : Vector3 Ideal)) = true := by
  show ((b.forward * a.forward) * v == b.forward * (a.forward * v)) = true
  rw [Vector3.beq_toReal (Matrix4x4.fin_mulv (Matrix4x4.fin_mul hb ha) hv) (Matrix4x4.fin_mulv hb (Matrix4x4.fin_mulv ha hv)),
    Matrix4x4.toReal_mulv' (Matrix4x4.fin_mul hb ha) hv, Matrix4x4.toReal_mulv' hb (Matrix4x4.fin_mulv ha hv), Matrix4x4.toReal_mulv' ha hv,
    h1.linear_mul hb ha, Matrix.mulVec_mulVec]
theorem C50_real_ray3 (a b : Transform3 Ideal) (r : Ray3 Ideal) (ha : AllFinite a.forward) (hb : AllFinite b.forward)
    (hr : AllFinite r) (h1 : a.forward.Affine) (h2 : b.forward.Affine) :
    (Transform.transform (a.andThen b) r == Transform.transform b (Transform.transform a r : Ray3 Ideal)) = true := by
  rw [Ray3.allFinite] at hr
  refine Ray3.beq_iff.2 ⟨?_, ?_⟩
  · exact C50_real_point3 a b r.origin ha hb hr.1 (by rw [h1.weight]; norm_num) (by rw [h2.weight]; norm_num)
  · exact C50_real_vector3 a b r.direction ha hb hr.2 h1
/-- **C50**: `and_then` is associative with the identity transform as unit. -/
theorem C50_real_monoid3 (a b c : Transform3 Ideal) (ha : AllFinite a) (hb : AllFinite b) (hc : AllFinite c) :
    ((a.andThen b).andThen c == a.andThen (b.andThen c)) = true ∧
    (Transform3.identity.andThen a == a) = true ∧ (a.andThen Transform3.identity == a) = true := by
  rw [Transform3.allFinite] at ha hb hc
  have z := finite_zero (S := Ideal)
  have as := fun x y w (hx : AllFinite x) (hy : AllFinite y) (hw : AllFinite w) =>
    (C41_real3 x y w zero hx hy hw z).2.2.1
  refine ⟨Transform3.beq_iff.2 ⟨?_, ?_⟩, Transform3.beq_iff.2 ⟨?_, ?_⟩, Transform3.beq_iff.2 ⟨?_, ?_⟩⟩
  · show (c.forward * (b.forward * a.forward) == (c.forward * b.forward) * a.forward) = true
    rw [(C58_matrix4x4).symm]
    exact as _ _ _ hc.1 hb.1 ha.1
  · exact as _ _ _ ha.2 hb.2 hc.2
  · exact (C41_float_identity3 _ ha.1).1
  · exact (C41_float_identity3 _ ha.2).2
  · exact (C41_float_identity3 _ ha.1).2
  · exact (C41_float_identity3 _ ha.2).1

/-- **C51**: `t.inverse()` undoes `t`, on every point of nonzero weight, and on vectors when `t` is affine. -/
theorem C51_real3 (t : Transform3 Ideal) (ht : AllFinite t) (h : t.Paired) (p : Point3 Ideal) (hp : AllFinite p)
    (v : Vector3 Ideal) (hv : AllFinite v) :
    (t.forward.weight p ≠ 0 → (Transform.transform t.inv (Transform.transform t p : Point3 Ideal) == p) = true) ∧
    (t.forward.Affine → (Transform.transform t.inv (Transform.transform t v : Vector3 Ideal) == v) = true) := by
  rw [Transform3.allFinite] at ht
  obtain ⟨hf, hi⟩ := ht
  have h1 := mul_eq_one_comm.1 ((Transform3.paired_iff hf hi).1 h)
  have h1' : (t.inverse * t.forward).toReal = 1 := by rw [Matrix4x4.toReal_mul hi hf, h1]
  constructor
  · intro hw
    show (t.inverse * (t.forward * p) == p) = true
    have e := Matrix4x4.weight_mul hi hf hp hw
    have e1 : (t.inverse * t.forward).weight p = 1 := by
      unfold Matrix4x4.weight; rw [h1', Matrix.one_mulVec]; rfl
    rw [e1] at e
    have hw2 : t.inverse.weight (t.forward * p) ≠ 0 := by
      intro h0; rw [h0, zero_mul] at e; exact one_ne_zero e
    have fp := Matrix4x4.fin_mulp hf hp hw
    rw [Point3.beq_toReal (Matrix4x4.fin_mulp hi fp hw2) hp]
    apply Point3.hom_inj
    rw [Matrix4x4.hom_mulp hi fp hw2, Matrix4x4.hom_mulp hf hp hw, Matrix.mulVec_smul, Matrix.mulVec_mulVec, h1, Matrix.one_mulVec, smul_smul,
      ← mul_inv, ← e, inv_one, one_smul]
  · intro haf
    show (t.inverse * (t.forward * v) == v) = true
    have fv := Matrix4x4.fin_mulv hf hv
    rw [Vector3.beq_toReal (Matrix4x4.fin_mulv hi fv) hv, Matrix4x4.toReal_mulv' hi fv, Matrix4x4.toReal_mulv' hf hv, Matrix.mulVec_mulVec,
      ← haf.linear_mul hi hf]
    have : (t.inverse * t.forward).linear = 1 := by
      unfold Matrix4x4.linear; rw [h1', ← Matrix4x4.toReal_identity]; exact Matrix4x4.linear_identity
    rw [this, Matrix.one_mulVec]

/-- **C55**: for an affine transform, transforming a ray commutes with evaluating it. -/
theorem C55_real3 (t : Transform3 Ideal) (ht : AllFinite t.forward) (h : t.forward.Affine) (r : Ray3 Ideal)
    (hr : AllFinite r) (s : Ideal) (hs : IsFinite s) :
    ((Transform.transform t r : Ray3 Ideal).at s == (Transform.transform t (r.at s) : Point3 Ideal)) = true := by
  rw [Ray3.allFinite] at hr
  have fd := Vector3.fin_mul hr.2 hs
  have fa := Point3.fin_addv hr.1 fd
  have f1 := Matrix4x4.fin_mulv ht hr.2
  have f2 := h.fin_mulp ht hr.1
  show (t.forward * r.origin + (t.forward * r.direction) * s == t.forward * (r.origin + r.direction * s)) = true
  rw [Point3.beq_toReal (Point3.fin_addv f2 (Vector3.fin_mul f1 hs)) (h.fin_mulp ht fa), Point3.toReal_addv f2 (Vector3.fin_mul f1 hs),
    Vector3.toReal_mul f1 hs, Matrix4x4.toReal_mulv' ht hr.2, h.toReal_mulp ht hr.1, h.toReal_mulp ht fa, Point3.toReal_addv hr.1 fd,
    Vector3.toReal_mul hr.2 hs, Matrix.mulVec_add, Matrix.mulVec_smul]
  abel
/-- **C55**: the inverse transform undoes the transform on rays. -/
theorem C55_real_inverse3 (t : Transform3 Ideal) (ht : AllFinite t) (hp : t.Paired) (h : t.forward.Affine) (r : Ray3 Ideal)
    (hr : AllFinite r) :
    (Transform.transform t.inv (Transform.transform t r : Ray3 Ideal) == r) = true := by
  rw [Ray3.allFinite] at hr
  have ⟨h1, h2⟩ := C51_real3 t ht hp r.origin hr.1 r.direction hr.2
  exact Ray3.beq_iff.2 ⟨h1 (by rw [h.weight]; norm_num), h2 h⟩

/-- **C52**: the transforms a program can build with valid arguments. `P` restricts the matrices that are
passed to `try_from`. -/
inductive Built3 (P : Matrix4x4 Ideal → Prop) : Transform3 Ideal → Prop
  | identity : Built3 P Transform3.identity
  | translate (v : Vector3 Ideal) : AllFinite v → Built3 P (Transform3.translate v)
  | rotateX (a : Ideal) : IsFinite a → Built3 P (Transform3.rotateX a)
  | rotateY (a : Ideal) : IsFinite a → Built3 P (Transform3.rotateY a)
  | rotateZ (a : Ideal) : IsFinite a → Built3 P (Transform3.rotateZ a)
  | rotateAxis (k : Vector3 Ideal) (a : Ideal) : AllFinite k → k.toReal ≠ 0 → IsFinite a →
      Built3 P (Transform3.rotateAxis k a)
  | lookAt (o t : Point3 Ideal) (up : Vector3 Ideal) (f : Transform3 Ideal) : AllFinite o → AllFinite t → AllFinite up →
      crossProduct up.toReal (t.toReal - o.toReal) ≠ 0 → Transform3.lookAt o t up = .ok f → Built3 P f
  | scale (sx sy sz : Ideal) : ((IsFinite sx ∧ real sx ≠ 0) ∧ (IsFinite sy ∧ real sy ≠ 0) ∧ (IsFinite sz ∧ real sz ≠ 0)) → Built3 P (Transform3.scale sx sy sz)
  | scaleUniform (s : Ideal) : (IsFinite s ∧ real s ≠ 0) → Built3 P (Transform3.scaleUniform s)
  | tryFrom (m : Matrix4x4 Ideal) (t : Transform3 Ideal) : P m → Transform3.tryFrom m = .ok t → Built3 P t
  | andThen (a b : Transform3 Ideal) : Built3 P a → Built3 P b → Built3 P (a.andThen b)
  | inverse (a : Transform3 Ideal) : Built3 P a → Built3 P a.inv

theorem built_inv3 {P : Matrix4x4 Ideal → Prop} (hP : ∀ m, P m → AllFinite m) (t : Transform3 Ideal) (h : Built3 P t) :
    AllFinite t.forward ∧ AllFinite t.inverse ∧ t.Paired := by
  induction h with
  | identity =>
    exact ⟨Matrix4x4.fin_identity, Matrix4x4.fin_identity, (C49_real3 Vector3.zero Vector3.fin_zero one one one one ⟨⟨finite_one, by rw [real_one]; norm_num⟩, ⟨finite_one, by rw [real_one]; norm_num⟩, ⟨finite_one, by rw [real_one]; norm_num⟩⟩ ⟨finite_one, by rw [real_one]; norm_num⟩).1⟩
  | translate v hv =>
    exact ⟨Matrix4x4.fin_translate hv, Matrix4x4.fin_translate (Vector3.fin_neg hv),
      (C49_real3 v hv one one one one ⟨⟨finite_one, by rw [real_one]; norm_num⟩, ⟨finite_one, by rw [real_one]; norm_num⟩, ⟨finite_one, by rw [real_one]; norm_num⟩⟩ ⟨finite_one, by rw [real_one]; norm_num⟩).2.1⟩
  | rotateX a ha =>
    exact ⟨(isRot_rotateX ha).fin, (isRot_rotateX ha).transpose.fin, (isRot_rotateX ha).paired axis_unit_x⟩
  | rotateY a ha =>
    exact ⟨(isRot_rotateY ha).fin, (isRot_rotateY ha).transpose.fin, (isRot_rotateY ha).paired axis_unit_y⟩
  | rotateZ a ha =>
    exact ⟨(isRot_rotateZ ha).fin, (isRot_rotateZ ha).transpose.fin, (isRot_rotateZ ha).paired axis_unit_z⟩
  | rotateAxis k a hk h0 ha =>
    exact ⟨(isRot_rotateAxis hk h0 ha).fin, (isRot_rotateAxis hk h0 ha).transpose.fin,
      (isRot_rotateAxis hk h0 ha).paired (unit_normalize hk h0)⟩
  | lookAt o t up f ho ht hu h e =>
    obtain ⟨r, d, m, -, -, -, -, -, -, fM, aM, e', ff, af, hm, -⟩ := lookAt_ok ho ht hu h
    rw [e'] at e; cases e
    exact ⟨ff, fM, (Transform3.paired_iff ff fM).2 hm⟩
  | scale sx sy sz hs =>
    exact ⟨Matrix4x4.fin_scale ⟨hs.1.1, hs.2.1.1, hs.2.2.1⟩, Matrix4x4.fin_scale ⟨Ideal.finite_recip hs.1.1 hs.1.2, Ideal.finite_recip hs.2.1.1 hs.2.1.2, Ideal.finite_recip hs.2.2.1 hs.2.2.2⟩,
      (C49_real3 Vector3.zero Vector3.fin_zero sx sy sz one hs ⟨finite_one, by rw [real_one]; norm_num⟩).2.2.1⟩
  | scaleUniform s hs =>
    exact ⟨Matrix4x4.fin_scale ⟨hs.1, hs.1, hs.1⟩, Matrix4x4.fin_scale ⟨Ideal.finite_recip hs.1 hs.2, Ideal.finite_recip hs.1 hs.2, Ideal.finite_recip hs.1 hs.2⟩,
      (C49_real3 Vector3.zero Vector3.fin_zero one one one s ⟨⟨finite_one, by rw [real_one]; norm_num⟩, ⟨finite_one, by rw [real_one]; norm_num⟩, ⟨finite_one, by rw [real_one]; norm_num⟩⟩ hs).2.2.2⟩
  | tryFrom m t hm e =>
    have h2 := (C57_real3 m (hP m hm)).2 t e
    have h3 : ∃ n, m.inverse = .ok n ∧ t = ⟨m, n⟩ := by
      unfold Transform3.tryFrom at e
      rcases hn : m.inverse with _ | n
      · rw [hn] at e; cases e
      · rw [hn] at e; cases e; exact ⟨n, rfl, rfl⟩
    obtain ⟨n, hn, rfl⟩ := h3
    exact ⟨hP m hm, (Matrix4x4.inverse_ok (hP m hm) hn).2.1, h2.2⟩
  | andThen a b _ _ ia ib =>
    obtain ⟨fa, ga, pa⟩ := ia
    obtain ⟨fb, gb, pb⟩ := ib
    have ff := Matrix4x4.fin_mul fb fa
    have gg := Matrix4x4.fin_mul ga gb
    refine ⟨ff, gg, (Transform3.paired_iff ff gg).2 ?_⟩
    show (b.forward * a.forward).toReal * (a.inverse * b.inverse).toReal = 1
    rw [Matrix4x4.toReal_mul fb fa, Matrix4x4.toReal_mul ga gb, mul_assoc, ← mul_assoc a.forward.toReal, (Transform3.paired_iff fa ga).1 pa, one_mul,
      (Transform3.paired_iff fb gb).1 pb]
  | inverse a _ ia => exact ⟨ia.2.1, ia.1, ia.2.2.2, ia.2.2.1⟩

/-- **C52**: after any finite history of constructor, `try_from`, `look_at`, `and_then` and `inverse` calls, forward and
inverse matrix are finite and inverse to each other; so every point of nonzero weight survives the round trip. -/
theorem C52_paired3 (t : Transform3 Ideal) (h : Built3 AllFinite t) :
    AllFinite t.forward ∧ AllFinite t.inverse ∧ t.Paired ∧
    ∀ p : Point3 Ideal, AllFinite p → t.forward.weight p ≠ 0 →
      (Transform.transform t.inv (Transform.transform t p : Point3 Ideal) == p) = true := by
  obtain ⟨h1, h2, h3⟩ := built_inv3 (fun m hm => hm) t h
  exact ⟨h1, h2, h3, fun p hp => (C51_real3 t (Transform3.allFinite.2 ⟨h1, h2⟩) h3 p hp Vector3.zero Vector3.fin_zero).1⟩

theorem built_affine3 (t : Transform3 Ideal) (h : Built3 (fun m => AllFinite m ∧ m.Affine) t) :
    t.forward.Affine ∧ t.inverse.Affine := by
  have hP : ∀ m : Matrix4x4 Ideal, (AllFinite m ∧ m.Affine) → AllFinite m := fun m h => h.1
  have key : ∀ t, Built3 (fun m => AllFinite m ∧ m.Affine) t → t.forward.Affine → t.inverse.Affine := by
    intro t ht ha
    obtain ⟨hf, hi, hp⟩ := built_inv3 hP t ht
    exact inverse_affine hf ha hi ((Transform3.paired_iff hf hi).1 hp)
  have key2 : t.forward.Affine → t.forward.Affine ∧ t.inverse.Affine := fun ha => ⟨ha, key t h ha⟩
  induction h with
  | identity => exact ⟨Matrix4x4.identity_affine, Matrix4x4.identity_affine⟩
  | translate v hv => exact ⟨Matrix4x4.translate_affine v, Matrix4x4.translate_affine (-v)⟩
  | rotateX a ha => exact key2 (isRot_rotateX ha).affine
  | rotateY a ha => exact key2 (isRot_rotateY ha).affine
  | rotateZ a ha => exact key2 (isRot_rotateZ ha).affine
  | rotateAxis k a hk h0 ha => exact key2 (isRot_rotateAxis hk h0 ha).affine
  | lookAt o t up f ho ht hu h e =>
    obtain ⟨r, d, m, -, -, -, -, -, -, fM, aM, e', ff, af, hm, -⟩ := lookAt_ok ho ht hu h
    rw [e'] at e; cases e
    exact ⟨af, aM⟩
  | scale sx sy sz hs => exact ⟨Matrix4x4.scale_affine sx sy sz, Matrix4x4.scale_affine (recip sx) (recip sy) (recip sz)⟩
  | scaleUniform s hs => exact ⟨Matrix4x4.scale_affine s s s, Matrix4x4.scale_affine (recip s) (recip s) (recip s)⟩
  | tryFrom m t hm e =>
    refine key2 ?_
    rw [((C57_real3 m hm.1).2 t e).1]; exact hm.2
  | andThen a b ha hb ia ib =>
    obtain ⟨fa, ga, pa⟩ := built_inv3 hP a ha
    obtain ⟨fb, gb, pb⟩ := built_inv3 hP b hb
    have ia := ia (fun h => ⟨h, key a ha h⟩)
    have ib := ib (fun h => ⟨h, key b hb h⟩)
    exact ⟨ib.1.mul ia.1 fb fa, ia.2.mul ib.2 ga gb⟩
  | inverse a ha ia =>
    have ia := ia (fun h => ⟨h, key a ha h⟩)
    exact ⟨ia.2, ia.1⟩

/-- **C52**: if moreover only affine matrices are passed to `try_from`, the transform is affine, no point ever
meets a zero weight, and points, vectors and rays survive the round trip in both directions. -/
theorem C52_affine3 (t : Transform3 Ideal) (h : Built3 (fun m => AllFinite m ∧ m.Affine) t) (p : Point3 Ideal) (hp : AllFinite p)
    (v : Vector3 Ideal) (hv : AllFinite v) :
    t.forward.Affine ∧ t.inverse.Affine ∧ t.forward.weight p = 1 ∧ t.inverse.weight p = 1 ∧
    (Transform.transform t.inv (Transform.transform t p : Point3 Ideal) == p) = true ∧
    (Transform.transform t (Transform.transform t.inv p : Point3 Ideal) == p) = true ∧
    (Transform.transform t.inv (Transform.transform t v : Vector3 Ideal) == v) = true ∧
    (Transform.transform t (Transform.transform t.inv v : Vector3 Ideal) == v) = true := by
  obtain ⟨h1, h2, h3⟩ := built_inv3 (fun m hm => hm.1) t h
  obtain ⟨a1, a2⟩ := built_affine3 t h
  have r1 := C51_real3 t (Transform3.allFinite.2 ⟨h1, h2⟩) h3 p hp v hv
  have r2 := C51_real3 t.inv (Transform3.allFinite.2 ⟨h2, h1⟩) ⟨h3.2, h3.1⟩ p hp v hv
  refine ⟨a1, a2, a1.weight p, a2.weight p, r1.1 ?_, r2.1 ?_, r1.2 a1, r2.2 a2⟩
  · rw [a1.weight]; norm_num
  · show t.inverse.weight p ≠ 0
    rw [a2.weight]; norm_num

theorem fold_built3 (P : Matrix4x4 Ideal → Prop) (ts : List (Transform3 Ideal)) (a : Transform3 Ideal) (ha : Built3 P a) (h : ∀ t ∈ ts, Built3 P t) :
    Built3 P (ts.foldl Transform3.andThen a) := by
  induction ts generalizing a with
  | nil => exact ha
  | cons t ts ih =>
    exact ih _ (.andThen a t ha (h t (by simp))) (fun t ht => h t (by simp [ht]))

/-- **C50**: chaining any list of affine transforms with `and_then` and applying the result once is the
same as applying them one after the other. -/
theorem C50_real_chain3 (ts : List (Transform3 Ideal)) (h : ∀ t ∈ ts, AllFinite t.forward ∧ t.forward.Affine) (p : Point3 Ideal)
    (hp : AllFinite p) :
    (Transform.transform (ts.foldl Transform3.andThen Transform3.identity) p ==
      ts.foldl (fun (q : Point3 Ideal) t => (Transform.transform t q : Point3 Ideal)) p) = true := by
  have key : ∀ (a : Transform3 Ideal) (q q' : Point3 Ideal), AllFinite a.forward → a.forward.Affine → AllFinite q → AllFinite q' →
      (a.forward * q).toReal = q'.toReal →
      AllFinite ((ts.foldl Transform3.andThen a).forward * q) ∧
      AllFinite (ts.foldl (fun (q : Point3 Ideal) t => (Transform.transform t q : Point3 Ideal)) q') ∧
      ((ts.foldl Transform3.andThen a).forward * q).toReal =
      (ts.foldl (fun (q : Point3 Ideal) t => (Transform.transform t q : Point3 Ideal)) q').toReal := by
    induction ts with
    | nil => intro a q q' fa aa fq fq' e; exact ⟨aa.fin_mulp fa fq, fq', e⟩
    | cons t ts ih =>
      intro a q q' fa aa fq fq' e
      obtain ⟨ft, at'⟩ := h t (by simp)
      rw [List.foldl_cons, List.foldl_cons]
      refine ih (fun t ht => h t (by simp [ht])) _ _ _ (Matrix4x4.fin_mul ft fa) (at'.mul aa ft fa) fq (at'.fin_mulp ft fq') ?_
      show ((t.forward * a.forward) * q).toReal = (t.forward * q').toReal
      rw [(at'.mul aa ft fa).toReal_mulp (Matrix4x4.fin_mul ft fa) fq, at'.toReal_mulp ft fq', ← e, aa.toReal_mulp fa fq,
        aa.linear_mul ft fa, aa.offset_mul ft fa, Matrix.mulVec_add, Matrix.mulVec_mulVec, add_assoc]
  have := key Transform3.identity p p Matrix4x4.fin_identity Matrix4x4.identity_affine hp hp (by
    show ((Matrix4x4.identity : Matrix4x4 Ideal) * p).toReal = _
    rw [Matrix4x4.identity_affine.toReal_mulp Matrix4x4.fin_identity hp, Matrix4x4.linear_identity, Matrix4x4.offset_identity, Matrix.one_mulVec, add_zero])
  exact (Point3.beq_toReal this.1 this.2.1).2 this.2.2
/-- **C52**: the rigid motions a program can build. -/
inductive Motion3 : Transform3 Ideal → Prop
  | identity : Motion3 Transform3.identity
  | translate (v : Vector3 Ideal) : AllFinite v → Motion3 (Transform3.translate v)
  | rotateX (a : Ideal) : IsFinite a → Motion3 (Transform3.rotateX a)
  | rotateY (a : Ideal) : IsFinite a → Motion3 (Transform3.rotateY a)
  | rotateZ (a : Ideal) : IsFinite a → Motion3 (Transform3.rotateZ a)
  | rotateAxis (k : Vector3 Ideal) (a : Ideal) : AllFinite k → k.toReal ≠ 0 → IsFinite a →
      Motion3 (Transform3.rotateAxis k a)
  | lookAt (o t : Point3 Ideal) (up : Vector3 Ideal) (f : Transform3 Ideal) : AllFinite o → AllFinite t → AllFinite up →
      crossProduct up.toReal (t.toReal - o.toReal) ≠ 0 → Transform3.lookAt o t up = .ok f → Motion3 f
  | andThen (a b : Transform3 Ideal) : Motion3 a → Motion3 b → Motion3 (a.andThen b)
  | inverse (a : Transform3 Ideal) : Motion3 a → Motion3 a.inv

theorem motion_inv3 (t : Transform3 Ideal) (h : Motion3 t) :
    Built3 (fun m => AllFinite m ∧ m.Affine) t ∧ t.forward.linear.transpose * t.forward.linear = 1 ∧ t.forward.linear.det = 1 := by
  have orth : ∀ {f i : Matrix (Fin 3) (Fin 3) ℝ}, f * i = 1 → f.transpose * f = 1 → f.det = 1 →
      i.transpose * i = 1 ∧ i.det = 1 := by
    intro f i h1 h2 h3
    have : i = f.transpose := by
      have e : f.transpose * (f * i) = f.transpose := by rw [h1, mul_one]
      rwa [← mul_assoc, h2, one_mul] at e
    rw [this, Matrix.transpose_transpose, Matrix.det_transpose]
    exact ⟨mul_eq_one_comm.1 h2, h3⟩
  induction h with
  | identity =>
    refine ⟨.identity, ?_, ?_⟩
    · show (Matrix4x4.identity : Matrix4x4 Ideal).linear.transpose * (Matrix4x4.identity : Matrix4x4 Ideal).linear = 1
      rw [Matrix4x4.linear_identity, Matrix.transpose_one, mul_one]
    · show (Matrix4x4.identity : Matrix4x4 Ideal).linear.det = 1
      rw [Matrix4x4.linear_identity, Matrix.det_one]
  | translate v hv =>
    refine ⟨.translate v hv, ?_, ?_⟩
    · show (Matrix4x4.translate v).linear.transpose * (Matrix4x4.translate v).linear = 1
      rw [Matrix4x4.linear_translate, Matrix.transpose_one, mul_one]
    · show (Matrix4x4.translate v).linear.det = 1
      rw [Matrix4x4.linear_translate, Matrix.det_one]
  | rotateX a ha =>
    refine ⟨.rotateX a ha, ?_, ?_⟩
    · show (Matrix4x4.rotateX a).linear.transpose * (Matrix4x4.rotateX a).linear = 1
      rw [(isRot_rotateX ha).linear, rod_orth axis_unit_x]
    · show (Matrix4x4.rotateX a).linear.det = 1
      rw [(isRot_rotateX ha).linear, rod_det axis_unit_x]
  | rotateY a ha =>
    refine ⟨.rotateY a ha, ?_, ?_⟩
    · show (Matrix4x4.rotateY a).linear.transpose * (Matrix4x4.rotateY a).linear = 1
      rw [(isRot_rotateY ha).linear, rod_orth axis_unit_y]
    · show (Matrix4x4.rotateY a).linear.det = 1
      rw [(isRot_rotateY ha).linear, rod_det axis_unit_y]
  | rotateZ a ha =>
    refine ⟨.rotateZ a ha, ?_, ?_⟩
    · show (Matrix4x4.rotateZ a).linear.transpose * (Matrix4x4.rotateZ a).linear = 1
      rw [(isRot_rotateZ ha).linear, rod_orth axis_unit_z]
    · show (Matrix4x4.rotateZ a).linear.det = 1
      rw [(isRot_rotateZ ha).linear, rod_det axis_unit_z]
  | rotateAxis k a hk h0 ha =>
    refine ⟨.rotateAxis k a hk h0 ha, ?_, ?_⟩
    · show (Matrix4x4.rotateAxis k a).linear.transpose * (Matrix4x4.rotateAxis k a).linear = 1
      rw [(isRot_rotateAxis hk h0 ha).linear, rod_orth (unit_normalize hk h0)]
    · show (Matrix4x4.rotateAxis k a).linear.det = 1
      rw [(isRot_rotateAxis hk h0 ha).linear, rod_det (unit_normalize hk h0)]
  | lookAt o t up f ho ht hu h e =>
    refine ⟨.lookAt o t up f ho ht hu h e, ?_⟩
    obtain ⟨r, d, m, hd, hr, hrd, -, -, -, fM, aM, e', ff, af, hm, hl, -⟩ := lookAt_ok ho ht hu h
    rw [e'] at e; cases e
    show m.linear.transpose * m.linear = 1 ∧ m.linear.det = 1
    rw [hl, Matrix.transpose_transpose, Matrix.det_transpose, cols_det hd hr hrd]
    exact ⟨mul_eq_one_comm.1 (cols_orth hd hr hrd), rfl⟩
  | andThen a b _ _ ia ib =>
    obtain ⟨ba, oa, da⟩ := ia
    obtain ⟨bb, ob, db⟩ := ib
    have fa := (built_inv3 (fun m hm => hm.1) a ba).1
    have fb := (built_inv3 (fun m hm => hm.1) b bb).1
    have aa := (built_affine3 a ba).1
    refine ⟨.andThen a b ba bb, ?_, ?_⟩
    · show (b.forward * a.forward).linear.transpose * (b.forward * a.forward).linear = 1
      rw [aa.linear_mul fb fa, Matrix.transpose_mul, mul_assoc, ← mul_assoc b.forward.linear.transpose, ob, one_mul, oa]
    · show (b.forward * a.forward).linear.det = 1
      rw [aa.linear_mul fb fa, Matrix.det_mul, da, db, one_mul]
  | inverse a _ ia =>
    obtain ⟨ba, oa, da⟩ := ia
    obtain ⟨fa, ga, pa⟩ := built_inv3 (fun m hm => hm.1) a ba
    have ai := (built_affine3 a ba).2
    have h1 : a.forward.linear * a.inverse.linear = 1 := by
      rw [← ai.linear_mul fa ga, ← Matrix4x4.linear_identity]
      unfold Matrix4x4.linear
      rw [Matrix4x4.toReal_mul fa ga, (Transform3.paired_iff fa ga).1 pa, Matrix4x4.toReal_identity]
    exact ⟨.inverse a ba, orth h1 oa da⟩

/-- **C52**: every composition of translations, rotations, `look_at`, and their inverses preserves dot products,
lengths, distances and orientation, exactly; and so does its inverse. -/
theorem C52_rigid3 (t : Transform3 Ideal) (h : Motion3 t) : t.Rigid ∧ t.inv.Rigid := by
  have key : ∀ t : Transform3 Ideal, Motion3 t → t.Rigid := by
    intro t h
    obtain ⟨b, o, d⟩ := motion_inv3 t h
    exact Transform3.rigid_of (built_inv3 (fun m hm => hm.1) t b).1 (built_affine3 t b).1 o d
  exact ⟨key t h, key t.inv (.inverse t h)⟩
end


/-! ## look_at -/
section
variable (o t : Point3 Ideal) (up : Vector3 Ideal)

theorem cross_degenerate {o t : Point3 Ideal} {up : Vector3 Ideal} (ho : AllFinite o) (ht : AllFinite t) (hu : AllFinite up) :
    (Api.cross up (t - o : Vector3 Ideal) == (Vector3.zero : Vector3 Ideal)) = true ↔
      crossProduct up.toReal (t.toReal - o.toReal) = 0 := by
  have fD := Vector3.fin_subp ht ho
  have fz : AllFinite (Vector3.zero : Vector3 Ideal) := Vector3.fin_zero
  rw [Vector3.beq_toReal (Vector3.fin_cross hu fD) fz, Vector3.toReal_cross hu fD, Vector3.toReal_subp ht ho]
  have : (Vector3.zero : Vector3 Ideal).toReal = 0 := by
    ext i; fin_cases i <;> simp [Vector3.toReal, Vector3.zero, real_zero]
  rw [this]

/-- **C53**: unless `up` is parallel to the view direction (their cross product is zero, which includes
`from == target` and a zero `up`), `look_at` returns a transform that takes `from` to the origin, `target` to the
point at its distance on the z axis, `up` into the half plane `x = 0, y > 0`; it is affine, a rigid motion, and its
stored inverse is the true inverse. -/
theorem C53_real (ho : AllFinite o) (ht : AllFinite t) (hu : AllFinite up)
    (h : (Api.cross up (t - o : Vector3 Ideal) == (Vector3.zero : Vector3 Ideal)) = false) :
    ∃ f, Transform3.lookAt o t up = .ok f ∧ AllFinite f ∧ f.forward.Affine ∧ f.Paired ∧ f.Rigid ∧ f.inv.Rigid ∧
      ((Transform.transform f o : Point3 Ideal) == Point3.origin) = true ∧
      ((Transform.transform f t : Point3 Ideal) == Point3.new zero zero (Api.distance o t)) = true ∧
      ((Transform.transform f up : Vector3 Ideal).x == zero) = true ∧
      Scalar.lt zero (Transform.transform f up : Vector3 Ideal).y = true := by
  have hc : crossProduct up.toReal (t.toReal - o.toReal) ≠ 0 := by
    intro h'; rw [(cross_degenerate ho ht hu).2 h'] at h; cases h
  obtain ⟨r, d, f, hd, hr, hrd, hD, hru, hnu, fM, aM, e, ff, af, hm, hl, hof⟩ := lookAt_ok ho ht hu hc
  refine ⟨_, e, Transform3.allFinite.2 ⟨ff, fM⟩, af, (Transform3.paired_iff ff fM).2 hm,
    (C52_rigid3 _ (.lookAt o t up _ ho ht hu hc e)).1, (C52_rigid3 _ (.lookAt o t up _ ho ht hu hc e)).2, ?_, ?_, ?_, ?_⟩
  · have f0 : AllFinite (Point3.origin : Point3 Ideal) := by rw [Point3.allFinite]; exact ⟨finite_zero, finite_zero, finite_zero⟩
    rw [Transform3.tr_point, Point3.beq_toReal (af.fin_mulp ff ho) f0, af.toReal_mulp ff ho, hl, hof, add_neg_cancel]
    ext i; fin_cases i <;> simp [Point3.toReal, Point3.origin, real_zero]
  · have f0 : AllFinite (Point3.new zero zero (Api.distance o t) : Point3 Ideal) := by
      rw [Point3.allFinite]; exact ⟨finite_zero, finite_zero, Point3.fin_distance ho ht⟩
    rw [Transform3.tr_point, Point3.beq_toReal (af.fin_mulp ff ht) f0, af.toReal_mulp ff ht, hl, hof, ← sub_eq_add_neg, ← Matrix.mulVec_sub, hD]
    have hdist : real (Api.distance o t) = √((t.toReal - o.toReal) ⬝ᵥ (t.toReal - o.toReal)) := by
      rw [Point3.distance_def, Vector3.real_length' (Vector3.fin_subp ht ho), Vector3.toReal_subp ht ho]
    rw [← hdist]
    have hnd : crossProduct d r ⬝ᵥ d = 0 := by rw [dotProduct_comm, dot_self_cross]
    rw [dot3] at hrd hnd hd
    rw [Matrix.mulVec_smul]
    ext i; fin_cases i
    · simp [Matrix.mulVec, dotProduct, Fin.sum_univ_succ, cols, Point3.toReal, Point3.new, real_zero]
      right; linarith
    · simp [Matrix.mulVec, dotProduct, Fin.sum_univ_succ, cols, Point3.toReal, Point3.new, real_zero]
      right; linarith
    · simp [Matrix.mulVec, dotProduct, Fin.sum_univ_succ, cols, Point3.toReal, Point3.new]
      rw [show d 0 * d 0 + (d 1 * d 1 + d 2 * d 2) = 1 by linarith, mul_one]
  · rw [Transform3.tr_vector]
    have fv := Matrix4x4.fin_mulv ff hu
    have hx := congrFun (Matrix4x4.toReal_mulv' ff hu) 0
    rw [Vector3.allFinite] at fv
    rw [Ideal.beq_real fv.1 finite_zero, real_zero]
    change real (f * up).x = _ at hx
    rw [hx, hl]
    rw [dot3] at hru
    simp [Matrix.mulVec, dotProduct, Fin.sum_univ_succ, cols]; linarith
  · rw [Transform3.tr_vector]
    have fv := Matrix4x4.fin_mulv ff hu
    have hx := congrFun (Matrix4x4.toReal_mulv' ff hu) 1
    rw [Vector3.allFinite] at fv
    rw [Ideal.lt_real finite_zero fv.2.1, real_zero]
    change real (f * up).y = _ at hx
    rw [hx, hl]
    rw [dot3] at hnu
    simp [Matrix.mulVec, dotProduct, Fin.sum_univ_succ, cols]; linarith

/-- **C54** is false of the code: whenever `up` is parallel to the view direction (including `from == target` and a
zero `up`), even in exact arithmetic `look_at` returns `Ok` of a transform whose forward matrix is entirely NaN, not
the documented error. -/
theorem C54_real (ho : AllFinite o) (ht : AllFinite t) (hu : AllFinite up)
    (h : (Api.cross up (t - o : Vector3 Ideal) == (Vector3.zero : Vector3 Ideal)) = true) :
    ∃ f, Transform3.lookAt o t up = .ok f ∧ AllNaN f.forward := by
  have fD := Vector3.fin_subp ht ho
  have rD := Vector3.toReal_subp ht ho
  rw [cross_degenerate ho ht hu] at h
  by_cases hD0 : (t - o).toReal = 0
  · refine C54_from_eq_target o t up ho ht ?_
    rw [Point3.beq_toReal ho ht]
    rw [rD, sub_eq_zero] at hD0
    exact hD0.symm
  have fz : AllFinite (Vector3.zero : Vector3 Ideal) := Vector3.fin_zero
  have ez : (Vector3.zero : Vector3 Ideal).toReal = 0 := by
    ext i; fin_cases i <;> simp [Vector3.toReal, Vector3.zero, real_zero]
  by_cases hU0 : up.toReal = 0
  · refine C54_zero_up o t up ?_
    rw [Vector3.beq_toReal hu fz, hU0, ez]
  obtain ⟨α, hα, eα, -⟩ := normalize_pos fD hD0
  obtain ⟨β, hβ, eβ, -⟩ := normalize_pos hu hU0
  have fd := Vector3.fin_normalize fD hD0
  have fu := Vector3.fin_normalize hu hU0
  apply lookAt_of_nan
  refine (normalize_zero_nan (CrossProduct.cross up.normalize (t - o).normalize) ?_).1
  show ((Api.cross up.normalize (t - o).normalize : Vector3 Ideal) == Vector3.zero) = true
  rw [Vector3.beq_toReal (Vector3.fin_cross fu fd) fz, Vector3.toReal_cross fu fd, eα, eβ, rD, map_smul, map_smul, LinearMap.smul_apply, h, ez,
    smul_zero, smul_zero]

/-- **C54**: so in exact arithmetic `look_at` never returns the documented error on finite input. -/
theorem C54_never_err (ho : AllFinite o) (ht : AllFinite t) (hu : AllFinite up) :
    ∀ e, Transform3.lookAt o t up ≠ .error e := by
  intro e he
  rcases hb : (Api.cross up (t - o : Vector3 Ideal) == (Vector3.zero : Vector3 Ideal)) with _ | _
  · obtain ⟨f, hf, -⟩ := C53_real o t up ho ht hu hb
    rw [hf] at he; cases he
  · obtain ⟨f, hf, -⟩ := C54_real o t up ho ht hu hb
    rw [hf] at he; cases he
end

/-! ## The hypotheses are met by concrete, non-trivial values -/

noncomputable def exV2 : Vector2 Ideal := ⟨.of 1, .of (-2)⟩
noncomputable def exV3 : Vector3 Ideal := ⟨.of 1, .of (-2), .of 4⟩
theorem exV2_fin : AllFinite exV2 := by rw [Vector2.allFinite]; exact ⟨trivial, trivial⟩
theorem exV3_fin : AllFinite exV3 := by rw [Vector3.allFinite]; exact ⟨trivial, trivial, trivial⟩
theorem exV3_ne : exV3.toReal ≠ 0 := fun h => by
  have := congrFun h 0; simp [Vector3.toReal, exV3] at this
example := C49_real2 exV2 exV2_fin (.of 3) (.of (-2)) (.of 5) ⟨⟨trivial, by norm_num⟩, ⟨trivial, by norm_num⟩⟩ ⟨trivial, by norm_num⟩
example := C49_real3 exV3 exV3_fin (.of 3) (.of (-2)) (.of 7) (.of 5)
  ⟨⟨trivial, by norm_num⟩, ⟨trivial, by norm_num⟩, ⟨trivial, by norm_num⟩⟩ ⟨trivial, by norm_num⟩
example := C49_real_rotate_axis exV3 (.of 2) exV3_fin exV3_ne trivial

/-- a projective transform and an affine one, both obtained from `try_from` -/
theorem exists_tr2 : ∃ t : Transform2 Ideal, t.forward = exM3 ∧ Built2 AllFinite t := by
  rcases Matrix3x3.inverse_cases exM3_fin with ⟨h, _⟩ | ⟨_, n, e, _⟩
  · rw [exM3_det] at h; norm_num at h
  · exact ⟨⟨exM3, n⟩, rfl, .tryFrom exM3 _ exM3_fin (by unfold Transform2.tryFrom; rw [e]; rfl)⟩
theorem exists_tr3 : ∃ t : Transform3 Ideal, t.forward = exA4 ∧ Built3 (fun m => AllFinite m ∧ m.Affine) t := by
  rcases Matrix4x4.inverse_cases exA4_fin with ⟨h, _⟩ | ⟨_, n, e, _⟩
  · rw [exA4_det] at h; norm_num at h
  · exact ⟨⟨exA4, n⟩, rfl, .tryFrom exA4 _ ⟨exA4_fin, exA4_affine⟩ (by unfold Transform3.tryFrom; rw [e]; rfl)⟩
example : ∃ (t : Transform2 Ideal) (p : Point2 Ideal), t.Paired ∧ ¬ t.forward.Affine ∧ t.forward.weight p ≠ 0 := by
  obtain ⟨t, e, h⟩ := exists_tr2
  refine ⟨t, exP2, (C52_paired2 t h).2.2.1, ?_, ?_⟩
  · rw [e]; intro h; have := h 0
    rw [Matrix3x3.toReal_eq] at this
    simp [exM3, Fin.last] at this
  · rw [e, exM3_weight]; norm_num
example := C50_real_point2 ⟨exM3, exM3⟩ ⟨exA3, exA3⟩ exP2 exM3_fin exA3_fin exP2_fin (by show exM3.weight _ ≠ 0; rw [exM3_weight]; norm_num)
  (by show exA3.weight _ ≠ 0; rw [exA3_affine.weight]; norm_num)
example := C50_real_vector3 ⟨exA4, exA4⟩ ⟨exM4, exM4⟩ exV3 exA4_fin exM4_fin exV3_fin exA4_affine
example := C50_real_chain3 [⟨exA4, exA4⟩, ⟨exA4, exM4⟩] (by simp [exA4_fin, exA4_affine]) exP3 exP3_fin
example : ∃ (t : Transform3 Ideal) (r : Ray3 Ideal), AllFinite t ∧ t.Paired ∧ t.forward.Affine ∧ AllFinite r := by
  obtain ⟨t, e, h⟩ := exists_tr3
  obtain ⟨h1, h2, h3⟩ := built_inv3 (fun m hm => hm.1) t h
  exact ⟨t, ⟨exP3, exV3⟩, Transform3.allFinite.2 ⟨h1, h2⟩, h3, by rw [e]; exact exA4_affine,
    by rw [Ray3.allFinite]; exact ⟨exP3_fin, exV3_fin⟩⟩
/-- a history with every kind of step -/
theorem exBuilt : ∃ t, Built3 (fun m => AllFinite m ∧ m.Affine) t ∧ ¬ t.Rigid := by
  refine ⟨((Transform3.scale (.of 2) (.of 1) (.of 1)).andThen (Transform3.rotateAxis exV3 (.of 1))).inv,
    .inverse _ (.andThen _ _ (.scale (.of 2) (.of 1) (.of 1) ⟨⟨trivial, by norm_num⟩, ⟨trivial, by norm_num⟩, ⟨trivial, by norm_num⟩⟩)
      (.rotateAxis exV3 (.of 1) exV3_fin exV3_ne trivial)), ?_⟩
  intro h
  have h := h.orientation
  have hs : (IsFinite (Ideal.of 2) ∧ real (Ideal.of 2) ≠ 0) ∧ (IsFinite (Ideal.of 1) ∧ real (Ideal.of 1) ≠ 0) ∧
    (IsFinite (Ideal.of 1) ∧ real (Ideal.of 1) ≠ 0) := ⟨⟨trivial, by norm_num⟩, ⟨trivial, by norm_num⟩, ⟨trivial, by norm_num⟩⟩
  have ir := (isRot_rotateAxis exV3_fin exV3_ne hs.2.1.1).transpose
  have fs : AllFinite (Matrix4x4.scale (recip (Ideal.of 2)) (recip (Ideal.of 1)) (recip (Ideal.of 1))) := Matrix4x4.fin_scale
    ⟨Ideal.finite_recip hs.1.1 hs.1.2, Ideal.finite_recip hs.2.1.1 hs.2.1.2, Ideal.finite_recip hs.2.2.1 hs.2.2.2⟩
  change (Matrix4x4.scale (recip (Ideal.of 2)) (recip (Ideal.of 1)) (recip (Ideal.of 1)) * (Matrix4x4.rotateAxis exV3 (.of 1)).transpose).linear.det = 1 at h
  rw [ir.affine.linear_mul fs ir.fin, Matrix.det_mul, ir.linear, rod_det (unit_normalize exV3_fin exV3_ne), Matrix4x4.linear_scale, Matrix.det_diagonal,
    Ideal.real_recip hs.1.1 hs.1.2, Ideal.real_recip hs.2.1.1 hs.2.1.2, mul_one] at h
  simp [Fin.prod_univ_succ] at h
example : ∃ t, Motion2 t ∧ t.forward.linear ≠ 1 := by
  refine ⟨_, .andThen _ _ (.translate exV2 exV2_fin) (.rotate (.of Real.pi) trivial), ?_⟩
  change (Matrix3x3.rotate (Ideal.of Real.pi) * Matrix3x3.translate exV2).linear ≠ 1
  have fp : IsFinite (Ideal.of Real.pi) := trivial
  rw [(Matrix3x3.translate_affine exV2).linear_mul (Matrix3x3.fin_rotate fp) (Matrix3x3.fin_translate exV2_fin),
    Matrix3x3.linear_rotate fp, Matrix3x3.linear_translate, mul_one]
  intro h
  have := congrFun (congrFun h 0) 0
  simp [rot2] at this
  norm_num at this
/-- a non-degenerate view, and a degenerate one (`up` along the view direction) -/
example := C53_real exP3 ⟨.of 3, .of (-4), .of 9⟩ exV3 exP3_fin (by rw [Point3.allFinite]; exact ⟨trivial, trivial, trivial⟩) exV3_fin
  (by
    rw [← Bool.not_eq_true, cross_degenerate exP3_fin (by rw [Point3.allFinite]; exact ⟨trivial, trivial, trivial⟩) exV3_fin]
    intro h
    have := congrFun h 0
    rw [cross_apply] at this
    simp [exP3, exV3, Point3.toReal, Vector3.toReal] at this
    norm_num at this)
example := C54_real exP3 ⟨.of 5, .of (-8), .of 13⟩ exV3 exP3_fin (by rw [Point3.allFinite]; exact ⟨trivial, trivial, trivial⟩) exV3_fin
  (by
    rw [cross_degenerate exP3_fin (by rw [Point3.allFinite]; exact ⟨trivial, trivial, trivial⟩) exV3_fin]
    rw [cross_apply]
    ext i; fin_cases i <;> simp [exP3, exV3, Point3.toReal, Vector3.toReal] <;> norm_num)
end VecMath

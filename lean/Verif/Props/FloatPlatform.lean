import Verif.Spec.Platform
import Verif.Lemmas.Num
import Verif.Props.Param2
import Verif.Props.Param3
/-! # C115: every conforming implementation of the scalar type gives the same results -/

open Classical

namespace VecMath
open Scalar IEEE Relator

theorem canon_toInt {f : ℝ → ℤ} (hf : f 0 = 0) {a a' : Val} (h : a.canon = a'.canon) : (a.toInt f).canon = (a'.toInt f).canon := by
  have key : ∀ a : Val, (a.toInt f).canon = (a.canon.toInt f).canon := by
    intro a
    rcases a with _ | s | _ | x <;> simp [Val.toInt, hf]
  rw [key, key a', h]
theorem canon_isMin {r a b r' a' b' : Val} (h : a.canon = a'.canon) (h' : b.canon = b'.canon) (hr : Val.IsMin r a b)
    (hr' : Val.IsMin r' a' b') : r.canon = r'.canon := by
  have e1 : a = .nan ↔ a' = .nan := by rw [← Val.canon_eq_nan, h, Val.canon_eq_nan]
  have e2 : b = .nan ↔ b' = .nan := by rw [← Val.canon_eq_nan, h', Val.canon_eq_nan]
  by_cases ha : a = .nan
  · rw [hr.1 ha, hr'.1 (e1.1 ha), h']
  · by_cases hb : b = .nan
    · rw [hr.2.1 hb, hr'.2.1 (e2.1 hb), h]
    · have v1 : a.ereal = a'.ereal := by rw [← Val.canon_ereal, h, Val.canon_ereal]
      have v2 : b.ereal = b'.ereal := by rw [← Val.canon_ereal, h', Val.canon_ereal]
      have hab : a.ereal = b.ereal → a.canon = b.canon := fun e => Val.canon_eq_iff.2 (.inr ⟨ha, hb, e⟩)
      rcases hr.2.2 ha hb with ⟨p, q⟩ | ⟨p, q⟩ <;> rcases hr'.2.2 (mt e1.2 ha) (mt e2.2 hb) with ⟨p', q'⟩ | ⟨p', q'⟩ <;>
        rw [p, p']
      · exact h
      · rw [← h']; exact hab (le_antisymm q (by rwa [v1, v2]))
      · rw [← h]; exact (hab (le_antisymm (by rwa [v1, v2]) q)).symm
      · exact h'
theorem canon_isMax {r a b r' a' b' : Val} (h : a.canon = a'.canon) (h' : b.canon = b'.canon) (hr : Val.IsMax r a b)
    (hr' : Val.IsMax r' a' b') : r.canon = r'.canon := by
  have e1 : a = .nan ↔ a' = .nan := by rw [← Val.canon_eq_nan, h, Val.canon_eq_nan]
  have e2 : b = .nan ↔ b' = .nan := by rw [← Val.canon_eq_nan, h', Val.canon_eq_nan]
  by_cases ha : a = .nan
  · rw [hr.1 ha, hr'.1 (e1.1 ha), h']
  · by_cases hb : b = .nan
    · rw [hr.2.1 hb, hr'.2.1 (e2.1 hb), h]
    · have v1 : a.ereal = a'.ereal := by rw [← Val.canon_ereal, h, Val.canon_ereal]
      have v2 : b.ereal = b'.ereal := by rw [← Val.canon_ereal, h', Val.canon_ereal]
      have hab : a.ereal = b.ereal → a.canon = b.canon := fun e => Val.canon_eq_iff.2 (.inr ⟨ha, hb, e⟩)
      rcases hr.2.2 ha hb with ⟨p, q⟩ | ⟨p, q⟩ <;> rcases hr'.2.2 (mt e1.2 ha) (mt e2.2 hb) with ⟨p', q'⟩ | ⟨p', q'⟩ <;>
        rw [p, p']
      · exact h
      · rw [← h']; exact hab (le_antisymm (by rwa [v1, v2]) q)
      · rw [← h]; exact (hab (le_antisymm q (by rwa [v1, v2]))).symm
      · exact h'
theorem roundR_zero : Val.roundR 0 = 0 := by norm_num [Val.roundR]
theorem truncR_zero : Val.truncR 0 = 0 := by norm_num [Val.truncR]

variable {S T : Type} [Scalar S] [IEEE S] [Scalar T] [IEEE T]

theorem sameNumber_iff {a : S} {b : T} : SameNumber a b ↔ num a = num b := by
  unfold SameNumber num
  rw [Val.canon_eq_iff]
  rfl
theorem bool_eq {a b : Bool} {p q : Prop} (ha : a = true ↔ p) (hb : b = true ↔ q) (h : p ↔ q) : a = b := by
  rw [Bool.eq_iff_iff, ha, hb, h]
theorem isNaN_num' {a : S} {b : T} (h : num a = num b) : IsNaN a ↔ IsNaN b := by rw [isNaN_iff_num, isNaN_iff_num, h]

theorem val_num' {a : S} {b : T} (h : num a = num b) : val a = val b := by rw [val_num, val_num, h]

theorem kept_datum (h : SameFormat S T) : Kept (SameDatum (S := S) (T := T)) where
  zero := den_zero.trans den_zero.symm
  one := den_one.trans den_one.symm
  half := den_half.trans den_half.symm
  two := den_two.trans den_two.symm
  infinity := den_infinity.trans den_infinity.symm
  negInfinity := den_negInfinity.trans den_negInfinity.symm
  add := fun a b e c d e' => by unfold SameDatum at *; rw [den_add, den_add, e, e', h]
  sub := fun a b e c d e' => by unfold SameDatum at *; rw [den_sub, den_sub, e, e', h]
  mul := fun a b e c d e' => by unfold SameDatum at *; rw [den_mul, den_mul, e, e', h]
  neg := fun a b e => by unfold SameDatum at *; rw [den_neg, den_neg, e]
  abs := fun a b e => by unfold SameDatum at *; rw [den_abs, den_abs, e]
  sqrt := fun a b e => by unfold SameDatum at *; rw [den_sqrt, den_sqrt, e, h]
  floor := fun a b e => by unfold SameDatum at *; rw [den_floor, den_floor, e]
  ceil := fun a b e => by unfold SameDatum at *; rw [den_ceil, den_ceil, e]
  round := fun a b e => by unfold SameDatum at *; rw [den_round, den_round, e]
  trunc := fun a b e => by unfold SameDatum at *; rw [den_trunc, den_trunc, e]
  lt := fun a b e c d e' => by
    unfold SameDatum at *; exact bool_eq (den_lt _ _) (den_lt _ _) (by rw [e, e'])
  le := fun a b e c d e' => by
    unfold SameDatum at *; exact bool_eq (den_le _ _) (den_le _ _) (by rw [e, e'])
  beq := fun a b e c d e' => by
    unfold SameDatum at *; exact bool_eq (den_beq _ _) (den_beq _ _) (by rw [e, e'])
theorem keptDiv_datum (h : SameFormat S T) : KeptDiv (SameDatum (S := S) (T := T)) where
  div := fun a b e c d e' => by unfold SameDatum at *; rw [den_div, den_div, e, e', h]

theorem kept_number (h : SameFormat S T) : Kept (SameNumber (S := S) (T := T)) where
  zero := sameNumber_iff.2 (by unfold num; rw [den_zero, den_zero])
  one := sameNumber_iff.2 (by unfold num; rw [den_one, den_one])
  half := sameNumber_iff.2 (by unfold num; rw [den_half, den_half])
  two := sameNumber_iff.2 (by unfold num; rw [den_two, den_two])
  infinity := sameNumber_iff.2 (by unfold num; rw [den_infinity, den_infinity])
  negInfinity := sameNumber_iff.2 (by unfold num; rw [den_negInfinity, den_negInfinity])
  add := fun a b e c d e' => by
    rw [sameNumber_iff] at *; unfold num at *; rw [den_add, den_add, ← h]; exact Rounding.canon_add _ e e'
  sub := fun a b e c d e' => by
    rw [sameNumber_iff] at *; unfold num at *; rw [den_sub, den_sub, ← h]; exact Rounding.canon_sub _ e e'
  mul := fun a b e c d e' => by
    rw [sameNumber_iff] at *; unfold num at *; rw [den_mul, den_mul, ← h]; exact Rounding.canon_mul _ e e'
  neg := fun a b e => by rw [sameNumber_iff] at *; unfold num at *; rw [den_neg, den_neg]; exact Rounding.canon_neg e
  abs := fun a b e => by rw [sameNumber_iff] at *; unfold num at *; rw [den_abs, den_abs]; exact Rounding.canon_abs e
  sqrt := fun a b e => by rw [sameNumber_iff] at *; unfold num at *; rw [den_sqrt, den_sqrt, ← h]; exact Rounding.canon_sqrt _ e
  floor := fun a b e => by
    rw [sameNumber_iff] at *; unfold num at *; rw [den_floor, den_floor]; exact canon_toInt Int.floor_zero e
  ceil := fun a b e => by
    rw [sameNumber_iff] at *; unfold num at *; rw [den_ceil, den_ceil]; exact canon_toInt Int.ceil_zero e
  round := fun a b e => by
    rw [sameNumber_iff] at *; unfold num at *; rw [den_round, den_round]; exact canon_toInt roundR_zero e
  trunc := fun a b e => by
    rw [sameNumber_iff] at *; unfold num at *; rw [den_trunc, den_trunc]; exact canon_toInt truncR_zero e
  lt := fun a b e c d e' => by
    rw [sameNumber_iff] at *
    exact bool_eq lt_iff lt_iff (by rw [isNaN_num' e, isNaN_num' e', val_num' e, val_num' e'])
  le := fun a b e c d e' => by
    rw [sameNumber_iff] at *
    exact bool_eq le_iff le_iff (by rw [isNaN_num' e, isNaN_num' e', val_num' e, val_num' e'])
  beq := fun a b e c d e' => by
    rw [sameNumber_iff] at *
    exact bool_eq beq_iff beq_iff (by rw [isNaN_num' e, isNaN_num' e', val_num' e, val_num' e'])
theorem keptMin_number : KeptMin (SameNumber (S := S) (T := T)) where
  fmin := fun a b e c d e' => by
    rw [sameNumber_iff] at *; unfold num at *; exact canon_isMin e e' (den_fmin _ _) (den_fmin _ _)
  fmax := fun a b e c d e' => by
    rw [sameNumber_iff] at *; unfold num at *; exact canon_isMax e e' (den_fmax _ _) (den_fmax _ _)
theorem datum_number {a : S} {b : T} (h : SameDatum a b) : SameNumber a b := by
  rw [sameNumber_iff]; unfold num; rw [show den a = den b from h]

/-- On two conforming implementations of a format, the operations other than `min`, `max`, `sin` and `cos` give the same datum, and the
operations other than division, `sin` and `cos` give the same number when the operands are the same numbers. -/
theorem C115_platform (h : SameFormat S T) :
    (Kept (SameDatum (S := S) (T := T)) ∧ KeptDiv (SameDatum (S := S) (T := T))) ∧
    (Kept (SameNumber (S := S) (T := T)) ∧ KeptMin (SameNumber (S := S) (T := T))) :=
  ⟨⟨kept_datum h, keptDiv_datum h⟩, ⟨kept_number h, keptMin_number⟩⟩

section ray
/-- Same box, same ray: the same hits at the same distances (zeros of either sign counting as equal), in 2D. -/
theorem C115_platform_ray2 (h : SameFormat S T) : (B2 SameDatum ⇒ R2 SameDatum ⇒ Option.Rel (Rg SameNumber))
    (fun (a : BoundingBox2 S) (r : Ray2 S) => Api.intersect a r) (fun (a : BoundingBox2 T) (r : Ray2 T) => Api.intersect a r) := by
  haveI := kept_datum h; haveI := keptDiv_datum h; haveI := kept_number h; haveI := keptMin_number (S := S) (T := T)
  exact BoundingBox2.rel_intersectRay' fun _ _ => datum_number
/-- Same box, same ray: the same hits at the same distances, in 3D. -/
theorem C115_platform_ray3 (h : SameFormat S T) : (B3 SameDatum ⇒ R3 SameDatum ⇒ Option.Rel (Rg SameNumber))
    (fun (a : BoundingBox3 S) (r : Ray3 S) => Api.intersect a r) (fun (a : BoundingBox3 T) (r : Ray3 T) => Api.intersect a r) := by
  haveI := kept_datum h; haveI := keptDiv_datum h; haveI := kept_number h; haveI := keptMin_number (S := S) (T := T)
  exact BoundingBox3.rel_intersectRay' fun _ _ => datum_number
/-- Same transform, same box: the same transformed box, in 2D. -/
theorem C115_platform_box2 (h : SameFormat S T) : (T2 SameDatum ⇒ B2 SameDatum ⇒ B2 SameNumber)
    (fun (t : Transform2 S) (a : BoundingBox2 S) => Transform.transform t a)
    (fun (t : Transform2 T) (a : BoundingBox2 T) => Transform.transform t a) := by
  haveI := kept_datum h; haveI := keptDiv_datum h; haveI := kept_number h; haveI := keptMin_number (S := S) (T := T)
  exact Transform2.rel_transform_box' fun _ _ => datum_number
/-- Same transform, same box: the same transformed box, in 3D. -/
theorem C115_platform_box3 (h : SameFormat S T) : (T3 SameDatum ⇒ B3 SameDatum ⇒ B3 SameNumber)
    (fun (t : Transform3 S) (a : BoundingBox3 S) => Transform.transform t a)
    (fun (t : Transform3 T) (a : BoundingBox3 T) => Transform.transform t a) := by
  haveI := kept_datum h; haveI := keptDiv_datum h; haveI := kept_number h; haveI := keptMin_number (S := S) (T := T)
  exact Transform3.rel_transform_box' fun _ _ => datum_number
/-- Same camera: the same view, or the same refusal. -/
theorem C115_platform_lookAt (h : SameFormat S T) : (P3 SameDatum ⇒ P3 SameDatum ⇒ V3 SameDatum ⇒ Outcome (T3 SameDatum))
    (Transform3.lookAt (S := S)) (Transform3.lookAt (S := T)) := by
  haveI := kept_datum h; haveI := keptDiv_datum h
  exact Transform3.rel_lookAt
/-- Same matrices: the same inverses, or the same refusals. -/
theorem C115_platform_inverse (h : SameFormat S T) :
    (M3 SameDatum ⇒ Outcome (M3 SameDatum)) (Matrix3x3.inverse (S := S)) (Matrix3x3.inverse (S := T)) ∧
    (M4 SameDatum ⇒ Outcome (M4 SameDatum)) (Matrix4x4.inverse (S := S)) (Matrix4x4.inverse (S := T)) := by
  haveI := kept_datum h; haveI := keptDiv_datum h
  exact ⟨Matrix3x3.rel_inverse, Matrix4x4.rel_inverse⟩
end ray

end VecMath

import Verif.Props.FloatVector
/-!
# Componentwise functions in IEEE arithmetic (layer F): C18-C22
-/

open Classical

namespace VecMath
open Scalar IEEE
variable {S : Type} [Scalar S] [IEEE S]

/-! ## C18: min and max -/

section scalar
variable {a b c : S}
theorem min_le_left' (ha : ¬ IsNaN a) (hb : ¬ IsNaN b) : (fmin a b ≤? a) = true :=
  le_iff.2 ⟨by rw [isNaN_min]; tauto, ha, by rw [val_min ha hb]; exact min_le_left _ _⟩
theorem min_le_right' (ha : ¬ IsNaN a) (hb : ¬ IsNaN b) : (fmin a b ≤? b) = true :=
  le_iff.2 ⟨by rw [isNaN_min]; tauto, hb, by rw [val_min ha hb]; exact min_le_right _ _⟩
theorem le_min' (ha : (c ≤? a) = true) (hb : (c ≤? b) = true) : (c ≤? fmin a b) = true := by
  rw [le_iff] at *
  exact ⟨ha.1, by rw [isNaN_min]; tauto, by rw [val_min ha.2.1 hb.2.1]; exact le_min ha.2.2 hb.2.2⟩
theorem le_max_left' (ha : ¬ IsNaN a) (hb : ¬ IsNaN b) : (a ≤? fmax a b) = true :=
  le_iff.2 ⟨ha, by rw [isNaN_max]; tauto, by rw [val_max ha hb]; exact le_max_left _ _⟩
theorem le_max_right' (ha : ¬ IsNaN a) (hb : ¬ IsNaN b) : (b ≤? fmax a b) = true :=
  le_iff.2 ⟨hb, by rw [isNaN_max]; tauto, by rw [val_max ha hb]; exact le_max_right _ _⟩
theorem max_le' (ha : (a ≤? c) = true) (hb : (b ≤? c) = true) : (fmax a b ≤? c) = true := by
  rw [le_iff] at *
  exact ⟨by rw [isNaN_max]; tauto, ha.2.1, by rw [val_max ha.1 hb.1]; exact max_le ha.2.2 hb.2.2⟩
theorem min_nn (ha : ¬ IsNaN a) : ¬ IsNaN (fmin a b) := by rw [isNaN_min]; tauto
theorem max_nn (ha : ¬ IsNaN a) : ¬ IsNaN (fmax a b) := by rw [isNaN_max]; tauto
theorem min_comm' (ha : ¬ IsNaN a) (hb : ¬ IsNaN b) : (fmin a b == fmin b a) = true :=
  beq_iff.2 ⟨min_nn ha, min_nn hb, by rw [val_min ha hb, val_min hb ha, min_comm]⟩
theorem max_comm' (ha : ¬ IsNaN a) (hb : ¬ IsNaN b) : (fmax a b == fmax b a) = true :=
  beq_iff.2 ⟨max_nn ha, max_nn hb, by rw [val_max ha hb, val_max hb ha, max_comm]⟩
theorem min_assoc' (ha : ¬ IsNaN a) (hb : ¬ IsNaN b) (hc : ¬ IsNaN c) :
    (fmin (fmin a b) c == fmin a (fmin b c)) = true :=
  beq_iff.2 ⟨min_nn (min_nn ha), min_nn ha, by
    rw [val_min (min_nn ha) hc, val_min ha hb, val_min ha (min_nn hb), val_min hb hc, min_assoc]⟩
theorem max_assoc' (ha : ¬ IsNaN a) (hb : ¬ IsNaN b) (hc : ¬ IsNaN c) :
    (fmax (fmax a b) c == fmax a (fmax b c)) = true :=
  beq_iff.2 ⟨max_nn (max_nn ha), max_nn ha, by
    rw [val_max (max_nn ha) hc, val_max ha hb, val_max ha (max_nn hb), val_max hb hc, max_assoc]⟩
theorem min_self' : Same (fmin a a) a := by rcases min_same (a := a) (b := a) with h | h <;> exact h
theorem max_self' : Same (fmax a a) a := by rcases max_same (a := a) (b := a) with h | h <;> exact h
theorem min_max' (ha : ¬ IsNaN a) (hb : ¬ IsNaN b) : (fmin a (fmax a b) == a) = true :=
  beq_iff.2 ⟨min_nn ha, ha, by
    rw [val_min ha (max_nn ha), val_max ha hb]; exact min_eq_left (le_max_left _ _)⟩
theorem max_min' (ha : ¬ IsNaN a) (hb : ¬ IsNaN b) : (fmax a (fmin a b) == a) = true :=
  beq_iff.2 ⟨max_nn ha, ha, by
    rw [val_max ha (min_nn ha), val_min ha hb]; exact max_eq_left (min_le_left _ _)⟩
end scalar

/-- The laws for scalars (`f32::min`/`max` through the crate's `min`/`max`). -/
theorem C18_scalar (a b c : S) :
    (¬ IsNaN a → ¬ IsNaN b → (Api.min a b ≤? a) = true ∧ (Api.min a b ≤? b) = true ∧
      (a ≤? Api.max a b) = true ∧ (b ≤? Api.max a b) = true) ∧
    ((c ≤? a) = true → (c ≤? b) = true → (c ≤? Api.min a b) = true) ∧
    ((a ≤? c) = true → (b ≤? c) = true → (Api.max a b ≤? c) = true) ∧
    (¬ IsNaN a → ¬ IsNaN b → (Api.min a b == Api.min b a) = true ∧ (Api.max a b == Api.max b a) = true ∧
      (Api.min a (Api.max a b) == a) = true ∧ (Api.max a (Api.min a b) == a) = true) ∧
    (¬ IsNaN a → ¬ IsNaN b → ¬ IsNaN c → (Api.min (Api.min a b) c == Api.min a (Api.min b c)) = true ∧
      (Api.max (Api.max a b) c == Api.max a (Api.max b c)) = true) ∧
    (Same (Api.min a a) a ∧ Same (Api.max a a) a) ∧
    (IsNaN a → Same (Api.min a b) b ∧ Same (Api.max a b) b) ∧
    (IsNaN b → Same (Api.min a b) a ∧ Same (Api.max a b) a) :=
  ⟨fun ha hb => ⟨min_le_left' ha hb, min_le_right' ha hb, le_max_left' ha hb, le_max_right' ha hb⟩,
   le_min', max_le',
   fun ha hb => ⟨min_comm' ha hb, max_comm' ha hb, min_max' ha hb, max_min' ha hb⟩,
   fun ha hb hc => ⟨min_assoc' ha hb hc, max_assoc' ha hb hc⟩, ⟨min_self', max_self'⟩,
   fun h => ⟨min_nan_left h, max_nan_left h⟩, fun h => ⟨min_nan_right h, max_nan_right h⟩⟩

theorem C18_vector2 : MinMaxLaws (Vector2 S) where
  min_le_left a b ha hb := by
    rw [Vector2.noNaN] at ha hb
    exact Vector2.leAll.2 ⟨min_le_left' ha.1 hb.1, min_le_left' ha.2 hb.2⟩
  min_le_right a b ha hb := by
    rw [Vector2.noNaN] at ha hb
    exact Vector2.leAll.2 ⟨min_le_right' ha.1 hb.1, min_le_right' ha.2 hb.2⟩
  le_max_left a b ha hb := by
    rw [Vector2.noNaN] at ha hb
    exact Vector2.leAll.2 ⟨le_max_left' ha.1 hb.1, le_max_left' ha.2 hb.2⟩
  le_max_right a b ha hb := by
    rw [Vector2.noNaN] at ha hb
    exact Vector2.leAll.2 ⟨le_max_right' ha.1 hb.1, le_max_right' ha.2 hb.2⟩
  le_min a b c ha hb := by
    rw [Vector2.leAll] at ha hb
    exact Vector2.leAll.2 ⟨le_min' ha.1 hb.1, le_min' ha.2 hb.2⟩
  max_le a b c ha hb := by
    rw [Vector2.leAll] at ha hb
    exact Vector2.leAll.2 ⟨max_le' ha.1 hb.1, max_le' ha.2 hb.2⟩
  min_comm a b ha hb := by
    rw [Vector2.noNaN] at ha hb
    exact Vector2.beq_iff.2 ⟨min_comm' ha.1 hb.1, min_comm' ha.2 hb.2⟩
  max_comm a b ha hb := by
    rw [Vector2.noNaN] at ha hb
    exact Vector2.beq_iff.2 ⟨max_comm' ha.1 hb.1, max_comm' ha.2 hb.2⟩
  min_max a b ha hb := by
    rw [Vector2.noNaN] at ha hb
    exact Vector2.beq_iff.2 ⟨min_max' ha.1 hb.1, min_max' ha.2 hb.2⟩
  max_min a b ha hb := by
    rw [Vector2.noNaN] at ha hb
    exact Vector2.beq_iff.2 ⟨max_min' ha.1 hb.1, max_min' ha.2 hb.2⟩
  min_assoc a b c ha hb hc := by
    rw [Vector2.noNaN] at ha hb hc
    exact Vector2.beq_iff.2 ⟨min_assoc' ha.1 hb.1 hc.1, min_assoc' ha.2 hb.2 hc.2⟩
  max_assoc a b c ha hb hc := by
    rw [Vector2.noNaN] at ha hb hc
    exact Vector2.beq_iff.2 ⟨max_assoc' ha.1 hb.1 hc.1, max_assoc' ha.2 hb.2 hc.2⟩
  min_self a := Vector2.sameAll.2 ⟨min_self', min_self'⟩
  max_self a := Vector2.sameAll.2 ⟨max_self', max_self'⟩
  nan a b i x y m M hx hy hm hM := by
    rcases i with _ | _ | i <;> simp [Comps.comps] at hx hy hm hM
    all_goals
      subst hx hy hm hM
      exact ⟨fun h => ⟨min_nan_left h, max_nan_left h⟩, fun h => ⟨min_nan_right h, max_nan_right h⟩⟩
  mem a b i x y m M hx hy hm hM := by
    rcases i with _ | _ | i <;> simp [Comps.comps] at hx hy hm hM
    all_goals
      subst hx hy hm hM
      exact ⟨min_same, max_same⟩
theorem C18_vector3 : MinMaxLaws (Vector3 S) where
  min_le_left a b ha hb := by
    rw [Vector3.noNaN] at ha hb
    exact Vector3.leAll.2 ⟨min_le_left' ha.1 hb.1, min_le_left' ha.2.1 hb.2.1, min_le_left' ha.2.2 hb.2.2⟩
  min_le_right a b ha hb := by
    rw [Vector3.noNaN] at ha hb
    exact Vector3.leAll.2 ⟨min_le_right' ha.1 hb.1, min_le_right' ha.2.1 hb.2.1, min_le_right' ha.2.2 hb.2.2⟩
  le_max_left a b ha hb := by
    rw [Vector3.noNaN] at ha hb
    exact Vector3.leAll.2 ⟨le_max_left' ha.1 hb.1, le_max_left' ha.2.1 hb.2.1, le_max_left' ha.2.2 hb.2.2⟩
  le_max_right a b ha hb := by
    rw [Vector3.noNaN] at ha hb
    exact Vector3.leAll.2 ⟨le_max_right' ha.1 hb.1, le_max_right' ha.2.1 hb.2.1, le_max_right' ha.2.2 hb.2.2⟩
  le_min a b c ha hb := by
    rw [Vector3.leAll] at ha hb
    exact Vector3.leAll.2 ⟨le_min' ha.1 hb.1, le_min' ha.2.1 hb.2.1, le_min' ha.2.2 hb.2.2⟩
  max_le a b c ha hb := by
    rw [Vector3.leAll] at ha hb
    exact Vector3.leAll.2 ⟨max_le' ha.1 hb.1, max_le' ha.2.1 hb.2.1, max_le' ha.2.2 hb.2.2⟩
  min_comm a b ha hb := by
    rw [Vector3.noNaN] at ha hb
    exact Vector3.beq_iff.2 ⟨min_comm' ha.1 hb.1, min_comm' ha.2.1 hb.2.1, min_comm' ha.2.2 hb.2.2⟩
  max_comm a b ha hb := by
    rw [Vector3.noNaN] at ha hb
    exact Vector3.beq_iff.2 ⟨max_comm' ha.1 hb.1, max_comm' ha.2.1 hb.2.1, max_comm' ha.2.2 hb.2.2⟩
  min_max a b ha hb := by
    rw [Vector3.noNaN] at ha hb
    exact Vector3.beq_iff.2 ⟨min_max' ha.1 hb.1, min_max' ha.2.1 hb.2.1, min_max' ha.2.2 hb.2.2⟩
  max_min a b ha hb := by
    rw [Vector3.noNaN] at ha hb
    exact Vector3.beq_iff.2 ⟨max_min' ha.1 hb.1, max_min' ha.2.1 hb.2.1, max_min' ha.2.2 hb.2.2⟩
  min_assoc a b c ha hb hc := by
    rw [Vector3.noNaN] at ha hb hc
    exact Vector3.beq_iff.2 ⟨min_assoc' ha.1 hb.1 hc.1, min_assoc' ha.2.1 hb.2.1 hc.2.1, min_assoc' ha.2.2 hb.2.2 hc.2.2⟩
  max_assoc a b c ha hb hc := by
    rw [Vector3.noNaN] at ha hb hc
    exact Vector3.beq_iff.2 ⟨max_assoc' ha.1 hb.1 hc.1, max_assoc' ha.2.1 hb.2.1 hc.2.1, max_assoc' ha.2.2 hb.2.2 hc.2.2⟩
  min_self a := Vector3.sameAll.2 ⟨min_self', min_self', min_self'⟩
  max_self a := Vector3.sameAll.2 ⟨max_self', max_self', max_self'⟩
  nan a b i x y m M hx hy hm hM := by
    rcases i with _ | _ | _ | i <;> simp [Comps.comps] at hx hy hm hM
    all_goals
      subst hx hy hm hM
      exact ⟨fun h => ⟨min_nan_left h, max_nan_left h⟩, fun h => ⟨min_nan_right h, max_nan_right h⟩⟩
  mem a b i x y m M hx hy hm hM := by
    rcases i with _ | _ | _ | i <;> simp [Comps.comps] at hx hy hm hM
    all_goals
      subst hx hy hm hM
      exact ⟨min_same, max_same⟩
theorem C18_point2 : MinMaxLaws (Point2 S) where
  min_le_left a b ha hb := by
    rw [Point2.noNaN] at ha hb
    exact Point2.leAll.2 ⟨min_le_left' ha.1 hb.1, min_le_left' ha.2 hb.2⟩
  min_le_right a b ha hb := by
    rw [Point2.noNaN] at ha hb
    exact Point2.leAll.2 ⟨min_le_right' ha.1 hb.1, min_le_right' ha.2 hb.2⟩
  le_max_left a b ha hb := by
    rw [Point2.noNaN] at ha hb
    exact Point2.leAll.2 ⟨le_max_left' ha.1 hb.1, le_max_left' ha.2 hb.2⟩
  le_max_right a b ha hb := by
    rw [Point2.noNaN] at ha hb
    exact Point2.leAll.2 ⟨le_max_right' ha.1 hb.1, le_max_right' ha.2 hb.2⟩
  le_min a b c ha hb := by
    rw [Point2.leAll] at ha hb
    exact Point2.leAll.2 ⟨le_min' ha.1 hb.1, le_min' ha.2 hb.2⟩
  max_le a b c ha hb := by
    rw [Point2.leAll] at ha hb
    exact Point2.leAll.2 ⟨max_le' ha.1 hb.1, max_le' ha.2 hb.2⟩
  min_comm a b ha hb := by
    rw [Point2.noNaN] at ha hb
    exact Point2.beq_iff.2 ⟨min_comm' ha.1 hb.1, min_comm' ha.2 hb.2⟩
  max_comm a b ha hb := by
    rw [Point2.noNaN] at ha hb
    exact Point2.beq_iff.2 ⟨max_comm' ha.1 hb.1, max_comm' ha.2 hb.2⟩
  min_max a b ha hb := by
    rw [Point2.noNaN] at ha hb
    exact Point2.beq_iff.2 ⟨min_max' ha.1 hb.1, min_max' ha.2 hb.2⟩
  max_min a b ha hb := by
    rw [Point2.noNaN] at ha hb
    exact Point2.beq_iff.2 ⟨max_min' ha.1 hb.1, max_min' ha.2 hb.2⟩
  min_assoc a b c ha hb hc := by
    rw [Point2.noNaN] at ha hb hc
    exact Point2.beq_iff.2 ⟨min_assoc' ha.1 hb.1 hc.1, min_assoc' ha.2 hb.2 hc.2⟩
  max_assoc a b c ha hb hc := by
    rw [Point2.noNaN] at ha hb hc
    exact Point2.beq_iff.2 ⟨max_assoc' ha.1 hb.1 hc.1, max_assoc' ha.2 hb.2 hc.2⟩
  min_self a := Point2.sameAll.2 ⟨min_self', min_self'⟩
  max_self a := Point2.sameAll.2 ⟨max_self', max_self'⟩
  nan a b i x y m M hx hy hm hM := by
    rcases i with _ | _ | i <;> simp [Comps.comps] at hx hy hm hM
    all_goals
      subst hx hy hm hM
      exact ⟨fun h => ⟨min_nan_left h, max_nan_left h⟩, fun h => ⟨min_nan_right h, max_nan_right h⟩⟩
  mem a b i x y m M hx hy hm hM := by
    rcases i with _ | _ | i <;> simp [Comps.comps] at hx hy hm hM
    all_goals
      subst hx hy hm hM
      exact ⟨min_same, max_same⟩
theorem C18_point3 : MinMaxLaws (Point3 S) where
  min_le_left a b ha hb := by
    rw [Point3.noNaN] at ha hb
    exact Point3.leAll.2 ⟨min_le_left' ha.1 hb.1, min_le_left' ha.2.1 hb.2.1, min_le_left' ha.2.2 hb.2.2⟩
  min_le_right a b ha hb := by
    rw [Point3.noNaN] at ha hb
    exact Point3.leAll.2 ⟨min_le_right' ha.1 hb.1, min_le_right' ha.2.1 hb.2.1, min_le_right' ha.2.2 hb.2.2⟩
  le_max_left a b ha hb := by
    rw [Point3.noNaN] at ha hb
    exact Point3.leAll.2 ⟨le_max_left' ha.1 hb.1, le_max_left' ha.2.1 hb.2.1, le_max_left' ha.2.2 hb.2.2⟩
  le_max_right a b ha hb := by
    rw [Point3.noNaN] at ha hb
    exact Point3.leAll.2 ⟨le_max_right' ha.1 hb.1, le_max_right' ha.2.1 hb.2.1, le_max_right' ha.2.2 hb.2.2⟩
  le_min a b c ha hb := by
    rw [Point3.leAll] at ha hb
    exact Point3.leAll.2 ⟨le_min' ha.1 hb.1, le_min' ha.2.1 hb.2.1, le_min' ha.2.2 hb.2.2⟩
  max_le a b c ha hb := by
    rw [Point3.leAll] at ha hb
    exact Point3.leAll.2 ⟨max_le' ha.1 hb.1, max_le' ha.2.1 hb.2.1, max_le' ha.2.2 hb.2.2⟩
  min_comm a b ha hb := by
    rw [Point3.noNaN] at ha hb
    exact Point3.beq_iff.2 ⟨min_comm' ha.1 hb.1, min_comm' ha.2.1 hb.2.1, min_comm' ha.2.2 hb.2.2⟩
  max_comm a b ha hb := by
    rw [Point3.noNaN] at ha hb
    exact Point3.beq_iff.2 ⟨max_comm' ha.1 hb.1, max_comm' ha.2.1 hb.2.1, max_comm' ha.2.2 hb.2.2⟩
  min_max a b ha hb := by
    rw [Point3.noNaN] at ha hb
    exact Point3.beq_iff.2 ⟨min_max' ha.1 hb.1, min_max' ha.2.1 hb.2.1, min_max' ha.2.2 hb.2.2⟩
  max_min a b ha hb := by
    rw [Point3.noNaN] at ha hb
    exact Point3.beq_iff.2 ⟨max_min' ha.1 hb.1, max_min' ha.2.1 hb.2.1, max_min' ha.2.2 hb.2.2⟩
  min_assoc a b c ha hb hc := by
    rw [Point3.noNaN] at ha hb hc
    exact Point3.beq_iff.2 ⟨min_assoc' ha.1 hb.1 hc.1, min_assoc' ha.2.1 hb.2.1 hc.2.1, min_assoc' ha.2.2 hb.2.2 hc.2.2⟩
  max_assoc a b c ha hb hc := by
    rw [Point3.noNaN] at ha hb hc
    exact Point3.beq_iff.2 ⟨max_assoc' ha.1 hb.1 hc.1, max_assoc' ha.2.1 hb.2.1 hc.2.1, max_assoc' ha.2.2 hb.2.2 hc.2.2⟩
  min_self a := Point3.sameAll.2 ⟨min_self', min_self', min_self'⟩
  max_self a := Point3.sameAll.2 ⟨max_self', max_self', max_self'⟩
  nan a b i x y m M hx hy hm hM := by
    rcases i with _ | _ | _ | i <;> simp [Comps.comps] at hx hy hm hM
    all_goals
      subst hx hy hm hM
      exact ⟨fun h => ⟨min_nan_left h, max_nan_left h⟩, fun h => ⟨min_nan_right h, max_nan_right h⟩⟩
  mem a b i x y m M hx hy hm hM := by
    rcases i with _ | _ | _ | i <;> simp [Comps.comps] at hx hy hm hM
    all_goals
      subst hx hy hm hM
      exact ⟨min_same, max_same⟩

/-- A NaN component is really dropped: `min((NaN, 1), (2, NaN)) = (2, 1)`. -/
example : SameAll (Api.min (Point2.new (⟨.nan⟩ : Ideal) (Ideal.of 1)) (Point2.new (Ideal.of 2) ⟨.nan⟩))
    (Point2.new (Ideal.of 2) (Ideal.of 1)) :=
  Point2.sameAll.2 ⟨min_nan_left (S := Ideal) rfl, min_nan_right (S := Ideal) rfl⟩

/-! ## C19: integer rounding -/

theorem toInt_not_finite {f : ℝ → ℤ} {a g : S} (hg : den g = (den a).toInt f) (h : ¬ IsFinite a) :
    Same g a := by
  unfold Same; rw [hg]
  rcases Val.not_isFin_iff.1 h with h | ⟨s, h⟩ <;> rw [h] <;> rfl
theorem toInt_nan {f : ℝ → ℤ} {a g : S} (hg : den g = (den a).toInt f) (h : IsNaN a) : IsNaN g := by
  unfold IsNaN at *; rw [hg, h]; rfl

theorem floorOf (x : S) : FloorOf x (Scalar.floor x) :=
  ⟨toInt_nan (den_floor x), toInt_not_finite (den_floor x), fun h => by
    obtain ⟨h1, h2⟩ := toInt_spec Int.floor_zero (den_floor x) h
    exact ⟨h1, _, h2, Int.floor_le _, fun m hm => Int.le_floor.2 hm⟩⟩
theorem ceilOf (x : S) : CeilOf x (Scalar.ceil x) :=
  ⟨toInt_nan (den_ceil x), toInt_not_finite (den_ceil x), fun h => by
    obtain ⟨h1, h2⟩ := toInt_spec Int.ceil_zero (den_ceil x) h
    exact ⟨h1, _, h2, Int.le_ceil _, fun m hm => Int.ceil_le.2 hm⟩⟩

theorem truncR_spec (x : ℝ) : |(Val.truncR x : ℝ)| ≤ |x| ∧ |x| < |(Val.truncR x : ℝ)| + 1 ∧
    0 ≤ (Val.truncR x : ℝ) * x := by
  unfold Val.truncR; split_ifs with h
  · have hf : (0 : ℝ) ≤ ⌊x⌋ := by exact_mod_cast Int.floor_nonneg.2 h
    rw [abs_of_nonneg hf, abs_of_nonneg h]
    exact ⟨Int.floor_le x, Int.lt_floor_add_one x, mul_nonneg hf h⟩
  · have h' : x ≤ 0 := (not_le.1 h).le
    have hf : (⌈x⌉ : ℝ) ≤ 0 := by
      have : ⌈x⌉ ≤ 0 := Int.ceil_le.2 (by simpa using h')
      exact_mod_cast this
    rw [abs_of_nonpos hf, abs_of_nonpos h']
    refine ⟨by linarith [Int.le_ceil x], by linarith [Int.ceil_lt_add_one x],
      mul_nonneg_of_nonpos_of_nonpos hf h'⟩
theorem truncOf (x : S) : TruncOf x (Scalar.trunc x) :=
  ⟨toInt_nan (den_trunc x), toInt_not_finite (den_trunc x), fun h => by
    obtain ⟨h1, h2⟩ := toInt_spec truncR_zero (den_trunc x) h
    exact ⟨h1, _, h2, truncR_spec _⟩⟩

theorem roundR_spec (x : ℝ) : |x - Val.roundR x| ≤ 1 / 2 ∧
    (|x - Val.roundR x| = 1 / 2 → |x| < |(Val.roundR x : ℝ)|) := by
  unfold Val.roundR; split_ifs with h
  · have h1 := Int.floor_le (x + 1 / 2)
    have h2 := Int.lt_floor_add_one (x + 1 / 2)
    refine ⟨abs_le.2 ⟨by linarith, by linarith⟩, fun h3 => ?_⟩
    have hf : (0 : ℝ) ≤ ⌊x + 1 / 2⌋ := by exact_mod_cast Int.floor_nonneg.2 (by linarith)
    rw [abs_of_nonneg h, abs_of_nonneg hf]
    rcases abs_choice (x - ⌊x + 1 / 2⌋) with h4 | h4 <;> rw [h4] at h3 <;> linarith
  · have h' : x < 0 := not_le.1 h
    have h1 := Int.le_ceil (x - 1 / 2)
    have h2 := Int.ceil_lt_add_one (x - 1 / 2)
    refine ⟨abs_le.2 ⟨by linarith, by linarith⟩, fun h3 => ?_⟩
    have hf : (⌈x - 1 / 2⌉ : ℝ) ≤ 0 := by
      have : ⌈x - 1 / 2⌉ ≤ 0 := Int.ceil_le.2 (by push_cast; linarith)
      exact_mod_cast this
    rw [abs_of_nonpos h'.le, abs_of_nonpos hf]
    rcases abs_choice (x - ⌈x - 1 / 2⌉) with h4 | h4 <;> rw [h4] at h3 <;> linarith
theorem roundOf (x : S) : RoundOf x (Scalar.round x) :=
  ⟨toInt_nan (den_round x), toInt_not_finite (den_round x), fun h => by
    obtain ⟨h1, h2⟩ := toInt_spec roundR_zero (den_round x) h
    exact ⟨h1, _, h2, roundR_spec _⟩⟩

theorem fract_real {x : S} (h : IsFinite x) :
    IsFinite (Scalar.fract x) ∧ real (Scalar.fract x) = real x - Val.truncR (real x) := by
  obtain ⟨h1, h2⟩ := toInt_spec truncR_zero (den_trunc x) h
  have h3 := sub_finite h h1
  rw [h2, Rounding.finish_rep _ (rep_fract h.rep)] at h3
  unfold Scalar.fract IsFinite real
  rw [h3]; simp [real]
theorem fractOf (x : S) : FractOf x (Scalar.fract x) := by
  refine ⟨fun h => ?_, fun h => ?_⟩
  · have h1 := toInt_not_finite (den_trunc x) h
    unfold Scalar.fract IsNaN
    rw [den_sub, show den (Scalar.trunc x) = den x from h1, Rounding.sub_eq_nan]
    rcases Val.not_isFin_iff.1 h with h | ⟨s, h⟩
    · exact .inl h
    · exact .inr (.inr ⟨s, h, h⟩)
  · obtain ⟨h1, h2⟩ := fract_real h
    refine ⟨h1, ?_, ?_, _, by rw [h2]; ring⟩ <;> rw [h2]
    · obtain ⟨t1, t2, t3⟩ := truncR_spec (real x)
      rcases le_total 0 (real x) with hx | hx
      · unfold Val.truncR; rw [if_pos hx]
        exact abs_lt.2 ⟨by linarith [Int.floor_le (real x)], by linarith [Int.lt_floor_add_one (real x)]⟩
      · by_cases h0 : 0 ≤ real x
        · have : real x = 0 := le_antisymm hx h0
          rw [this]; simp [Val.truncR]
        unfold Val.truncR; rw [if_neg h0]
        exact abs_lt.2 ⟨by linarith [Int.ceil_lt_add_one (real x)], by linarith [Int.le_ceil (real x)]⟩
    · by_cases hx : 0 ≤ real x
      · unfold Val.truncR; rw [if_pos hx]
        exact mul_nonneg (by linarith [Int.floor_le (real x)]) hx
      · unfold Val.truncR; rw [if_neg hx]
        exact mul_nonneg_of_nonpos_of_nonpos (by linarith [Int.le_ceil (real x)]) (not_le.1 hx).le
theorem trunc_add_fract {x : S} (h : IsFinite x) : (Scalar.trunc x + Scalar.fract x == x) = true := by
  obtain ⟨h1, h2⟩ := toInt_spec truncR_zero (den_trunc x) h
  obtain ⟨h3, h4⟩ := fract_real h
  have h5 := add_finite h1 h3
  rw [h2, h4, show (Val.truncR (real x) : ℝ) + (real x - Val.truncR (real x)) = real x by ring,
    Rounding.finish_rep _ h.rep] at h5
  refine beq_iff.2 ⟨by unfold IsNaN; rw [h5]; simp, h.not_nan, ?_⟩
  rw [h.val]; unfold val; rw [h5]; simp

theorem C19_vector2 (v : Vector2 S) :
    List.Forall₂ FloorOf (Comps.comps v) (Comps.comps v.floor) ∧
    List.Forall₂ CeilOf (Comps.comps v) (Comps.comps v.ceil) ∧
    List.Forall₂ RoundOf (Comps.comps v) (Comps.comps v.round) ∧
    List.Forall₂ TruncOf (Comps.comps v) (Comps.comps v.trunc) ∧
    List.Forall₂ FractOf (Comps.comps v) (Comps.comps v.fract) ∧
    (AllFinite v → (v.trunc + v.fract == v) = true) := by
  refine ⟨?_, ?_, ?_, ?_, ?_, fun h => ?_⟩
  · simp [Comps.comps, floorOf]
  · simp [Comps.comps, ceilOf]
  · simp [Comps.comps, roundOf]
  · simp [Comps.comps, truncOf]
  · simp [Comps.comps, fractOf]
  · rw [Vector2.allFinite] at h
    exact Vector2.beq_iff.2 ⟨trunc_add_fract h.1, trunc_add_fract h.2⟩
theorem C19_vector3 (v : Vector3 S) :
    List.Forall₂ FloorOf (Comps.comps v) (Comps.comps v.floor) ∧
    List.Forall₂ CeilOf (Comps.comps v) (Comps.comps v.ceil) ∧
    List.Forall₂ RoundOf (Comps.comps v) (Comps.comps v.round) ∧
    List.Forall₂ TruncOf (Comps.comps v) (Comps.comps v.trunc) ∧
    List.Forall₂ FractOf (Comps.comps v) (Comps.comps v.fract) ∧
    (AllFinite v → (v.trunc + v.fract == v) = true) := by
  refine ⟨?_, ?_, ?_, ?_, ?_, fun h => ?_⟩
  · simp [Comps.comps, floorOf]
  · simp [Comps.comps, ceilOf]
  · simp [Comps.comps, roundOf]
  · simp [Comps.comps, truncOf]
  · simp [Comps.comps, fractOf]
  · rw [Vector3.allFinite] at h
    exact Vector3.beq_iff.2 ⟨trunc_add_fract h.1, trunc_add_fract h.2.1, trunc_add_fract h.2.2⟩
theorem C19_point2 (v : Point2 S) :
    List.Forall₂ FloorOf (Comps.comps v) (Comps.comps v.floor) ∧
    List.Forall₂ CeilOf (Comps.comps v) (Comps.comps v.ceil) ∧
    List.Forall₂ RoundOf (Comps.comps v) (Comps.comps v.round) ∧
    List.Forall₂ TruncOf (Comps.comps v) (Comps.comps v.trunc) ∧
    List.Forall₂ FractOf (Comps.comps v) (Comps.comps v.fract) ∧
    (AllFinite v → (v.trunc + Vector2.fromPoint v.fract == v) = true) := by
  refine ⟨?_, ?_, ?_, ?_, ?_, fun h => ?_⟩
  · simp [Comps.comps, floorOf]
  · simp [Comps.comps, ceilOf]
  · simp [Comps.comps, roundOf]
  · simp [Comps.comps, truncOf]
  · simp [Comps.comps, fractOf]
  · rw [Point2.allFinite] at h
    exact Point2.beq_iff.2 ⟨trunc_add_fract h.1, trunc_add_fract h.2⟩
theorem C19_point3 (v : Point3 S) :
    List.Forall₂ FloorOf (Comps.comps v) (Comps.comps v.floor) ∧
    List.Forall₂ CeilOf (Comps.comps v) (Comps.comps v.ceil) ∧
    List.Forall₂ RoundOf (Comps.comps v) (Comps.comps v.round) ∧
    List.Forall₂ TruncOf (Comps.comps v) (Comps.comps v.trunc) ∧
    List.Forall₂ FractOf (Comps.comps v) (Comps.comps v.fract) ∧
    (AllFinite v → (v.trunc + Vector3.fromPoint v.fract == v) = true) := by
  refine ⟨?_, ?_, ?_, ?_, ?_, fun h => ?_⟩
  · simp [Comps.comps, floorOf]
  · simp [Comps.comps, ceilOf]
  · simp [Comps.comps, roundOf]
  · simp [Comps.comps, truncOf]
  · simp [Comps.comps, fractOf]
  · rw [Point3.allFinite] at h
    exact Point3.beq_iff.2 ⟨trunc_add_fract h.1, trunc_add_fract h.2.1, trunc_add_fract h.2.2⟩

/-- The rounding relations determine the result: `2.5` rounds to `3`, `-2.5` to `-3`, and
truncates to `-2`. -/
example : real (Scalar.round (Ideal.of 2.5)) = 3 ∧ real (Scalar.round (Ideal.of (-2.5))) = -3 ∧
    real (Scalar.trunc (Ideal.of (-2.5))) = -2 := by
  have h : ∀ x, real (Scalar.round (Ideal.of x)) = Val.roundR x := fun x =>
    (toInt_spec roundR_zero (den_round _) (Ideal.finite_of x)).2
  have h' : ∀ x, real (Scalar.trunc (Ideal.of x)) = Val.truncR x := fun x =>
    (toInt_spec truncR_zero (den_trunc _) (Ideal.finite_of x)).2
  rw [h, h, h', Val.roundR, Val.roundR, Val.truncR, if_pos (by norm_num), if_neg (by norm_num),
    if_neg (by norm_num)]
  refine ⟨?_, ?_, ?_⟩
  · have : ⌊(2.5 : ℝ) + 1 / 2⌋ = 3 := by rw [Int.floor_eq_iff]; norm_num
    rw [this]; norm_num
  · have : ⌈(-2.5 : ℝ) - 1 / 2⌉ = -3 := by rw [Int.ceil_eq_iff]; norm_num
    rw [this]; norm_num
  · have : ⌈(-2.5 : ℝ)⌉ = -2 := by rw [Int.ceil_eq_iff]; norm_num
    rw [this]; norm_num

/-! ## C20: abs -/

theorem absOf (x : S) : AbsOf x (Scalar.abs x) :=
  ⟨fun h => le_iff.2 ⟨not_nan_zero, by simpa using h, by rw [val_zero]; exact val_abs_nonneg x⟩,
   same_abs_or x⟩
theorem same_abs_abs (x : S) : Same (Scalar.abs (Scalar.abs x)) (Scalar.abs x) := by
  simp [Same, den_abs]
theorem same_abs_neg (x : S) : Same (Scalar.abs (-x)) (Scalar.abs x) := by
  simp [Same, den_abs, den_neg]
theorem C20_vector2 (v : Vector2 S) :
    List.Forall₂ AbsOf (Comps.comps v) (Comps.comps v.abs) ∧ SameAll v.abs.abs v.abs ∧
    SameAll (-v).abs v.abs :=
  ⟨by simp [Comps.comps, absOf], Vector2.sameAll.2 ⟨same_abs_abs _, same_abs_abs _⟩,
   Vector2.sameAll.2 ⟨same_abs_neg _, same_abs_neg _⟩⟩
theorem C20_vector3 (v : Vector3 S) :
    List.Forall₂ AbsOf (Comps.comps v) (Comps.comps v.abs) ∧ SameAll v.abs.abs v.abs ∧
    SameAll (-v).abs v.abs :=
  ⟨by simp [Comps.comps, absOf], Vector3.sameAll.2 ⟨same_abs_abs _, same_abs_abs _, same_abs_abs _⟩,
   Vector3.sameAll.2 ⟨same_abs_neg _, same_abs_neg _, same_abs_neg _⟩⟩
theorem C20_point2 (v : Point2 S) :
    List.Forall₂ AbsOf (Comps.comps v) (Comps.comps v.abs) ∧ SameAll v.abs.abs v.abs ∧
    SameAll (-v).abs v.abs :=
  ⟨by simp [Comps.comps, absOf], Point2.sameAll.2 ⟨same_abs_abs _, same_abs_abs _⟩,
   Point2.sameAll.2 ⟨same_abs_neg _, same_abs_neg _⟩⟩
theorem C20_point3 (v : Point3 S) :
    List.Forall₂ AbsOf (Comps.comps v) (Comps.comps v.abs) ∧ SameAll v.abs.abs v.abs ∧
    SameAll (-v).abs v.abs :=
  ⟨by simp [Comps.comps, absOf], Point3.sameAll.2 ⟨same_abs_abs _, same_abs_abs _, same_abs_abs _⟩,
   Point3.sameAll.2 ⟨same_abs_neg _, same_abs_neg _, same_abs_neg _⟩⟩

/-! ## C21: extremal dimensions -/

theorem firstMin2 {f : Dimension2 → S} (h : ∀ d, ¬ IsNaN (f d)) :
    IsFirstMin Dimension2.pos f (if f .X ≤? f .Y then .X else .Y) := by
  have hx := h .X
  have hy := h .Y
  unfold IsFirstMin
  split_ifs with h1
  · rw [le_of_not_nan hx hy] at h1
    constructor
    · rintro (_ | _)
      · exact le_self hx
      · exact (le_of_not_nan hx hy).2 h1
    · rintro (_ | _) h2 <;> simp [Dimension2.pos] at h2
  · rw [le_of_not_nan hx hy, not_le] at h1
    constructor
    · rintro (_ | _)
      · exact (le_of_not_nan hy hx).2 h1.le
      · exact le_self hy
    · rintro (_ | _) h2
      · exact (lt_of_not_nan hy hx).2 h1
      · simp at h2
theorem lastMax2 {f : Dimension2 → S} (h : ∀ d, ¬ IsNaN (f d)) :
    IsLastMax Dimension2.pos f (if f .X >? f .Y then .X else .Y) := by
  have hx := h .X
  have hy := h .Y
  unfold IsLastMax
  split_ifs with h1
  · rw [lt_of_not_nan hy hx] at h1
    constructor
    · rintro (_ | _)
      · exact le_self hx
      · exact (le_of_not_nan hy hx).2 h1.le
    · rintro (_ | _) h2
      · simp at h2
      · exact (lt_of_not_nan hy hx).2 h1
  · rw [lt_of_not_nan hy hx, not_lt] at h1
    constructor
    · rintro (_ | _)
      · exact (le_of_not_nan hx hy).2 h1
      · exact le_self hy
    · rintro (_ | _) h2 <;> simp [Dimension2.pos] at h2
theorem firstMin3 {f : Dimension3 → S} (h : ∀ d, ¬ IsNaN (f d)) :
    IsFirstMin Dimension3.pos f
      (if f .X ≤? f .Y && f .X ≤? f .Z then .X else if f .Y ≤? f .Z then .Y else .Z) := by
  have hx := h .X
  have hy := h .Y
  have hz := h .Z
  simp only [Bool.and_eq_true, le_of_not_nan hx hy, le_of_not_nan hx hz, le_of_not_nan hy hz]
  have le : ∀ d e, (f d ≤? f e) = true ↔ val (f d) ≤ val (f e) := fun d e => le_of_not_nan (h d) (h e)
  have lt : ∀ d e, (f d <? f e) = true ↔ val (f d) < val (f e) := fun d e => lt_of_not_nan (h d) (h e)
  simp only [IsFirstMin, le, lt]
  split_ifs with h1 h2
  · refine ⟨?_, ?_⟩
    · rintro (_ | _ | _) <;> simp [h1]
    · rintro (_ | _ | _) <;> simp [Dimension3.pos]
  · have h3 : val (f .Y) < val (f .X) := by
      by_contra hc; exact h1 ⟨not_lt.1 hc, (not_lt.1 hc).trans h2⟩
    refine ⟨?_, ?_⟩
    · rintro (_ | _ | _) <;> simp [h2, h3.le]
    · rintro (_ | _ | _) <;> simp [Dimension3.pos, h3]
  · rw [not_le] at h2
    have h3 : val (f .Z) < val (f .X) := by
      by_contra hc; exact h1 ⟨(not_lt.1 hc).trans h2.le, not_lt.1 hc⟩
    refine ⟨?_, ?_⟩
    · rintro (_ | _ | _) <;> simp [h2.le, h3.le]
    · rintro (_ | _ | _) <;> simp [Dimension3.pos, h3, h2]
theorem lastMax3 {f : Dimension3 → S} (h : ∀ d, ¬ IsNaN (f d)) :
    IsLastMax Dimension3.pos f
      (if f .X >? f .Y && f .X >? f .Z then .X else if f .Y >? f .Z then .Y else .Z) := by
  have hx := h .X
  have hy := h .Y
  have hz := h .Z
  simp only [Bool.and_eq_true, lt_of_not_nan hy hx, lt_of_not_nan hz hx, lt_of_not_nan hz hy]
  have le : ∀ d e, (f d ≤? f e) = true ↔ val (f d) ≤ val (f e) := fun d e => le_of_not_nan (h d) (h e)
  have lt : ∀ d e, (f d <? f e) = true ↔ val (f d) < val (f e) := fun d e => lt_of_not_nan (h d) (h e)
  simp only [IsLastMax, le, lt]
  split_ifs with h1 h2
  · refine ⟨?_, ?_⟩
    · rintro (_ | _ | _) <;> simp [h1.1.le, h1.2.le]
    · rintro (_ | _ | _) <;> simp [Dimension3.pos, h1]
  · have h3 : val (f .X) ≤ val (f .Y) := by
      by_contra hc; exact h1 ⟨not_le.1 hc, h2.trans (not_le.1 hc)⟩
    refine ⟨?_, ?_⟩
    · rintro (_ | _ | _) <;> simp [h2.le, h3]
    · rintro (_ | _ | _) <;> simp [Dimension3.pos, h2]
  · rw [not_lt] at h2
    have h3 : val (f .X) ≤ val (f .Z) := by
      by_contra hc; exact h1 ⟨h2.trans_lt (not_le.1 hc), not_le.1 hc⟩
    refine ⟨?_, ?_⟩
    · rintro (_ | _ | _) <;> simp [h2, h3]
    · rintro (_ | _ | _) <;> simp [Dimension3.pos]

theorem C21_vector2 (v : Vector2 S) (h : NoNaN v) :
    IsFirstMin Dimension2.pos (fun d => Scalar.abs (v.index d)) v.minDimension ∧
    IsLastMax Dimension2.pos (fun d => Scalar.abs (v.index d)) v.maxDimension := by
  rw [Vector2.noNaN] at h
  have h' : ∀ d, ¬ IsNaN (Scalar.abs (v.index d)) := by
    intro d; rw [isNaN_abs]; cases d <;> simp [Vector2.index, h]
  exact ⟨firstMin2 h', lastMax2 h'⟩
theorem C21_vector3 (v : Vector3 S) (h : NoNaN v) :
    IsFirstMin Dimension3.pos (fun d => Scalar.abs (v.index d)) v.minDimension ∧
    IsLastMax Dimension3.pos (fun d => Scalar.abs (v.index d)) v.maxDimension := by
  rw [Vector3.noNaN] at h
  have h' : ∀ d, ¬ IsNaN (Scalar.abs (v.index d)) := by
    intro d; rw [isNaN_abs]; cases d <;> simp [Vector3.index, h]
  exact ⟨firstMin3 h', lastMax3 h'⟩
theorem C21_point2 (v : Point2 S) (h : NoNaN v) :
    IsFirstMin Dimension2.pos (fun d => Scalar.abs (v.index d)) v.minDimension ∧
    IsLastMax Dimension2.pos (fun d => Scalar.abs (v.index d)) v.maxDimension := by
  rw [Point2.noNaN] at h
  have h' : ∀ d, ¬ IsNaN (Scalar.abs (v.index d)) := by
    intro d; rw [isNaN_abs]; cases d <;> simp [Point2.index, h]
  exact ⟨firstMin2 h', lastMax2 h'⟩
theorem C21_point3 (v : Point3 S) (h : NoNaN v) :
    IsFirstMin Dimension3.pos (fun d => Scalar.abs (v.index d)) v.minDimension ∧
    IsLastMax Dimension3.pos (fun d => Scalar.abs (v.index d)) v.maxDimension := by
  rw [Point3.noNaN] at h
  have h' : ∀ d, ¬ IsNaN (Scalar.abs (v.index d)) := by
    intro d; rw [isNaN_abs]; cases d <;> simp [Point3.index, h]
  exact ⟨firstMin3 h', lastMax3 h'⟩
/-- Bounding boxes: the extents themselves are compared (an extent is NaN only for a box that is
infinite in that dimension at one end twice, e.g. `inf - inf`, or has NaN corners). -/
theorem C21_boundingBox2 (b : BoundingBox2 S) (h : ∀ d, ¬ IsNaN (b.extent d)) :
    IsFirstMin Dimension2.pos b.extent b.minDimension ∧
    IsLastMax Dimension2.pos b.extent b.maxDimension :=
  ⟨firstMin2 h, lastMax2 h⟩
/-- Bounding boxes: the extents themselves are compared (an extent is NaN only for a box that is
infinite in that dimension at one end twice, e.g. `inf - inf`, or has NaN corners). -/
theorem C21_boundingBox3 (b : BoundingBox3 S) (h : ∀ d, ¬ IsNaN (b.extent d)) :
    IsFirstMin Dimension3.pos b.extent b.minDimension ∧
    IsLastMax Dimension3.pos b.extent b.maxDimension :=
  ⟨firstMin3 h, lastMax3 h⟩

/-- Ties: of `(1, -1, 1)` the first smallest is X and the last largest is Z. -/
example : (Vector3.new (Ideal.of 1) (Ideal.of (-1)) (Ideal.of 1)).minDimension = .X ∧
    (Vector3.new (Ideal.of 1) (Ideal.of (-1)) (Ideal.of 1)).maxDimension = .Z := by
  simp [Vector3.minDimension, Vector3.maxDimension, Ideal.lt_real, Ideal.le_real]
example : ∀ d, ¬ IsNaN ((BoundingBox3.new (Point3.new (Ideal.of 0) (Ideal.of 0) (Ideal.of 0))
    (Point3.new (Ideal.of 1) (Ideal.of 2) (Ideal.of 3))).extent d) := by
  intro d; apply IsFinite.not_nan
  cases d <;> simp [BoundingBox3.extent, BoundingBox3.width, BoundingBox3.height, BoundingBox3.depth]

/-! ## C22: scalars as one-dimensional vectors and points -/

theorem C22_length (s : S) :
    Same (Api.length s) (Scalar.abs s) ∧ (IsNaN (Api.length s) ↔ IsNaN s) ∧
    (¬ IsNaN s → (Scalar.zero ≤? Api.length s) = true) ∧
    (Same (Api.length s) s ∨ Same (Api.length s) (-s)) :=
  ⟨Same.refl _, isNaN_abs, (absOf s).1, (absOf s).2⟩

theorem C22_distance_symmetric (s t : S) : Same (Api.distance s t) (Api.distance t s) := by
  show Same (Scalar.abs (t - s)) (Scalar.abs (s - t))
  by_cases h : IsNaN (t - s)
  · exact (isNaN_abs.2 h).trans (isNaN_abs.2 (isNaN_sub_comm.1 h)).symm
  · have h1 := beq_iff.1 (sub_neg_beq h)
    have h2 : ¬ IsNaN (s - t) := fun h' => h (isNaN_sub_comm.1 h')
    unfold Same; rw [den_abs, den_abs]
    have hv : (den (t - s)).ereal = -(den (s - t)).ereal := by
      have := h1.2.2; rwa [val_neg] at this
    have e : ∀ a b : Val, a ≠ .nan → b ≠ .nan → a.ereal = - b.ereal → a.abs = b.abs := by
      intro a b ha hb hab
      induction a using Val.cases_inf_fin with
      | hn => exact absurd rfl ha
      | hi s => induction b using Val.cases_inf_fin with
        | hn => exact absurd rfl hb
        | hi t => rfl
        | hf b hb' => rw [hb'.ereal] at hab; cases s <;> simp [← EReal.coe_neg] at hab
      | hf a ha' => induction b using Val.cases_inf_fin with
        | hn => exact absurd rfl hb
        | hi t => rw [ha'.ereal] at hab; cases t <;> simp at hab
        | hf b hb' =>
          rw [ha'.ereal, hb'.ereal] at hab
          have hab' : a.real = - b.real := by exact_mod_cast hab
          have r : ∀ v : Val, v.IsFin → v.abs = .fin |v.real| := by
            intro v hv
            exact Val.IsFin.cases (P := fun v => v.abs = .fin |v.real|) hv (by simp [Val.abs])
              (fun x => rfl)
          rw [r a ha', r b hb', hab', _root_.abs_neg]
    exact e _ _ h h2 hv

/-- Gradual underflow: distinct finite scalars have nonzero distance. -/
theorem C22_distance_zero (s t : S) (hs : IsFinite s) (ht : IsFinite t) :
    (Api.distance s t == Scalar.zero) = true ↔ (s == t) = true := by
  show (Scalar.abs (t - s) == Scalar.zero) = true ↔ _
  have h0 : (Scalar.abs (t - s) == Scalar.zero) = true ↔ (t - s == Scalar.zero) = true := by
    rw [beq_iff, beq_iff, isNaN_abs, val_zero, val_abs_eq_max]
    constructor
    · rintro ⟨h1, h2, h3⟩
      refine ⟨h1, h2, le_antisymm (h3 ▸ le_max_left _ _) ?_⟩
      have : - val (t - s) ≤ 0 := h3 ▸ le_max_right _ _
      simpa using EReal.neg_le_neg_iff.2 this
    · rintro ⟨h1, h2, h3⟩
      exact ⟨h1, h2, by rw [h3]; simp⟩
  rw [h0]
  constructor
  · intro h
    have h2 := (sub_eq_zero_iff ht hs).1 ((beq_iff.1 h).2.2.trans val_zero)
    exact (beq_of_finite hs ht).2 h2.symm
  · exact sub_beq_zero hs ht

/-- Relative length: `is_shorter_than`, `shortest`, ... compare `length`, and the selection is one of the
arguments, at least as good as both, the second on ties and NaN. -/
theorem C22_relative_length (s t : S) :
    (RelativeLength.isShorterThan s t = true ↔ (Api.length s <? Api.length t) = true) ∧
    (RelativeLength.isLongerThan s t = true ↔ (Api.length t <? Api.length s) = true) ∧
    Api.shortest s t = (if Api.length s <? Api.length t then s else t) ∧
    Api.longest s t = (if Api.length t <? Api.length s then s else t) ∧
    (¬ IsNaN s → ¬ IsNaN t →
      ((Api.length (Api.shortest s t) ≤? Api.length s) = true ∧
       (Api.length (Api.shortest s t) ≤? Api.length t) = true) ∧
      (Api.length s ≤? Api.length (Api.longest s t)) = true ∧
      (Api.length t ≤? Api.length (Api.longest s t)) = true) ∧
    ((IsNaN s ∨ IsNaN t) → Api.shortest s t = t ∧ Api.longest s t = t) := by
  refine ⟨Iff.rfl, Iff.rfl, rfl, rfl, fun hs ht => ?_, fun h => ?_⟩
  · have ls : ¬ IsNaN (Api.length s) := by simpa [(C22_length s).2.1] using hs
    have lt : ¬ IsNaN (Api.length t) := by simpa [(C22_length t).2.1] using ht
    constructor
    · by_cases h : (Api.length s <? Api.length t) = true
      · rw [show Api.shortest s t = s from if_pos h]
        exact ⟨le_self ls, (le_of_not_nan ls lt).2 ((lt_of_not_nan ls lt).1 h).le⟩
      · rw [show Api.shortest s t = t from if_neg h]
        exact ⟨le_of_not_lt' ls lt h, le_self lt⟩
    · by_cases h : (Api.length t <? Api.length s) = true
      · rw [show Api.longest s t = s from if_pos h]
        exact ⟨le_self ls, (le_of_not_nan lt ls).2 ((lt_of_not_nan lt ls).1 h).le⟩
      · rw [show Api.longest s t = t from if_neg h]
        exact ⟨le_of_not_lt' lt ls h, le_self lt⟩
  · have n : ∀ a b : S, (Api.length a <? Api.length b) = true → ¬ IsNaN a ∧ ¬ IsNaN b := fun a b h => by
      rw [lt_iff, (C22_length a).2.1, (C22_length b).2.1] at h; tauto
    constructor
    · exact if_neg fun h' => by have := n _ _ h'; tauto
    · exact if_neg fun h' => by have := n _ _ h'; tauto

theorem C22_relative_distance (p s t : S) :
    (RelativeDistance.isCloserTo p s t = true ↔ (Api.distance p s <? Api.distance p t) = true) ∧
    (RelativeDistance.isFartherFrom p s t = true ↔ (Api.distance p t <? Api.distance p s) = true) ∧
    Api.closest p s t = (if Api.distance p s <? Api.distance p t then s else t) ∧
    Api.farthest p s t = (if Api.distance p t <? Api.distance p s then s else t) ∧
    (¬ IsNaN (Api.distance p s) → ¬ IsNaN (Api.distance p t) →
      ((Api.distance p (Api.closest p s t) ≤? Api.distance p s) = true ∧
       (Api.distance p (Api.closest p s t) ≤? Api.distance p t) = true) ∧
      (Api.distance p s ≤? Api.distance p (Api.farthest p s t)) = true ∧
      (Api.distance p t ≤? Api.distance p (Api.farthest p s t)) = true) ∧
    ((IsNaN (Api.distance p s) ∨ IsNaN (Api.distance p t)) →
      Api.closest p s t = t ∧ Api.farthest p s t = t) := by
  refine ⟨Iff.rfl, Iff.rfl, rfl, rfl, fun ls lt => ?_, fun h => ?_⟩
  · constructor
    · by_cases h : (Api.distance p s <? Api.distance p t) = true
      · rw [show Api.closest p s t = s from if_pos h]
        exact ⟨le_self ls, (le_of_not_nan ls lt).2 ((lt_of_not_nan ls lt).1 h).le⟩
      · rw [show Api.closest p s t = t from if_neg h]
        exact ⟨le_of_not_lt' ls lt h, le_self lt⟩
    · by_cases h : (Api.distance p t <? Api.distance p s) = true
      · rw [show Api.farthest p s t = s from if_pos h]
        exact ⟨le_self ls, (le_of_not_nan lt ls).2 ((lt_of_not_nan lt ls).1 h).le⟩
      · rw [show Api.farthest p s t = t from if_neg h]
        exact ⟨le_of_not_lt' lt ls h, le_self lt⟩
  · constructor
    · exact if_neg fun h' => by rw [lt_iff] at h'; tauto
    · exact if_neg fun h' => by rw [lt_iff] at h'; tauto

end VecMath

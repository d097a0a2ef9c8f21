import Verif.Props.FloatPlatform
import Verif.Lemmas.Symm
import Verif.Lemmas.FloatSlab
/-! # C116: which functions can tell `+0` from `-0` -/

open Classical

namespace VecMath
open Scalar IEEE Relator

/-! The numerator of a quotient. -/
theorem canon_div_left (A : Rounding) {a a' : Val} (b : Val) (h : a.canon = a'.canon) : (A.div a b).canon = (A.div a' b).canon := by
  have key : ∀ a b : Val, (A.div a b).canon = (A.div a.canon b).canon := by
    intro a b
    rcases a with _ | s | _ | x <;> rcases b with _ | t | _ | y <;> simp [Rounding.div]
    by_cases hy : y = 0 <;> simp [hy, Rounding.finish]
  rw [key, key a', h]

/-! Squares, their sums and roots carry no minus sign. -/
theorem neg?_finish (A : Rounding) {x : ℝ} (h : 0 ≤ x) : (A.finish false x).neg? = false := by
  have hx : ¬ x < 0 := not_lt.2 h
  have hr : ¬ A.rnd x < 0 := by
    have := A.rnd_mono h
    have h0 : A.rnd 0 = 0 := by
      have := A.rnd_neg 0; rw [neg_zero] at this; linarith
    rw [h0] at this; exact not_lt.2 this
  unfold Rounding.finish
  split_ifs <;> simp [Val.mkZero, Val.neg?, hx, hr]
theorem neg?_mul_self (A : Rounding) (a : Val) : (A.mul a a).neg? = false := by
  rcases a with _ | s | _ | x
  · rfl
  · simp [Rounding.mul, Val.neg?]
  · simp only [Rounding.mul, Bool.xor_self]; exact neg?_finish A (by simp [Val.real])
  · simp only [Rounding.mul, Bool.xor_self]; exact neg?_finish A (mul_self_nonneg _)
theorem real_nonneg_of {a : Val} (h : a.neg? = false) : 0 ≤ a.real := by
  rcases a with _ | s | _ | x
  · exact le_rfl
  · exact le_rfl
  · exact le_rfl
  · simpa [Val.neg?, Val.real] using h
theorem neg?_add (A : Rounding) {a b : Val} (ha : a.neg? = false) (hb : b.neg? = false) : (A.add a b).neg? = false := by
  have h1 := real_nonneg_of ha
  have h2 := real_nonneg_of hb
  rcases a with _ | s | _ | x <;> rcases b with _ | t | _ | y <;> simp only [Rounding.add] <;>
    first
      | rfl
      | exact ha
      | exact hb
      | (rw [ha]; exact neg?_finish A (add_nonneg h1 h2))
      | (split_ifs <;> first | exact ha | rfl)
theorem neg?_sqrt (A : Rounding) {a : Val} (ha : a.neg? = false) : (A.sqrt a).neg? = false := by
  rcases a with _ | s | _ | x
  · rfl
  · simp only [Rounding.sqrt]; split_ifs <;> rfl
  · exact ha
  · simp only [Rounding.sqrt]
    split_ifs
    · rfl
    · exact neg?_finish A (Real.sqrt_nonneg x)
/-- A datum without a minus sign is determined by its number. -/
theorem canon_inj {a a' : Val} (h : a.canon = a'.canon) (ha : a.neg? = false) (ha' : a'.neg? = false) : a = a' := by
  rcases a with _ | s | _ | x <;> rcases a' with _ | s' | _ | x' <;> simp_all [Val.canon, Val.neg?]

variable {S : Type} [Scalar S] [IEEE S]

instance : Kept (SameNumber (S := S) (T := S)) := kept_number rfl
instance : KeptMin (SameNumber (S := S) (T := S)) := keptMin_number
theorem num_quot_left {a a' b b' : S} (h : num a = num a') (hb : den b = den b') : num (a / b) = num (a' / b') := by
  unfold num at *; rw [den_div, den_div, hb]; exact canon_div_left _ _ h
/-- Quotients of the same numbers are the same number unless the divisor is zero. -/
theorem number_div {a a' b b' : S} (h : SameNumber a a') (h' : SameNumber b b') (hb : ¬ IsNaN b → val b ≠ 0) : SameNumber (a / b) (a' / b') := by
  rw [sameNumber_iff] at *
  by_cases hn : IsNaN b
  · have hn' : IsNaN b' := (isNaN_num' h').1 hn
    exact num_quot_left h (hn.trans hn'.symm)
  · exact num_div_congr h h' (hb hn)

theorem neg?_length2 (v : Vector2 S) : (den (Api.length v)).neg? = false := by
  show (den (Scalar.sqrt (v.x * v.x + v.y * v.y))).neg? = false
  rw [den_sqrt, den_add, den_mul, den_mul]
  exact neg?_sqrt _ (neg?_add _ (neg?_mul_self _ _) (neg?_mul_self _ _))
theorem neg?_length3 (v : Vector3 S) : (den (Api.length v)).neg? = false := by
  show (den (Scalar.sqrt (v.x * v.x + v.y * v.y + v.z * v.z))).neg? = false
  rw [den_sqrt, den_add, den_add, den_mul, den_mul, den_mul]
  exact neg?_sqrt _ (neg?_add _ (neg?_add _ (neg?_mul_self _ _) (neg?_mul_self _ _)) (neg?_mul_self _ _))

/-- The same numbers, zeros of either sign counting as equal. -/
local notation "Z" => SameNumber (S := S) (T := S)

/-- **C116**: equal components are the same numbers. -/
theorem C116_eq2 {u v : Vector2 S} (h : (u == v) = true) : V2 Z u v := by
  have h : (u.x == v.x && u.y == v.y) = true := h
  simp only [Bool.and_eq_true] at h
  exact ⟨sameNumber_iff.2 (num_of_beq h.1), sameNumber_iff.2 (num_of_beq h.2)⟩
theorem C116_eq3 {u v : Vector3 S} (h : (u == v) = true) : V3 Z u v := by
  have h : (u.x == v.x && u.y == v.y && u.z == v.z) = true := h
  simp only [Bool.and_eq_true] at h
  exact ⟨sameNumber_iff.2 (num_of_beq h.1.1), sameNumber_iff.2 (num_of_beq h.1.2), sameNumber_iff.2 (num_of_beq h.2)⟩

/-- **C116**: no operation but division (and possibly `sin` and `cos`) can tell `+0` from `-0`, so neither can any function that does
without it (`C115_vector2`, ...). -/
theorem C116_kept : Kept Z ∧ KeptMin Z := ⟨inferInstance, inferInstance⟩

/-- **C116**: normalizing does not see the signs of zeros: the length it divides by is never `-0`. -/
theorem C116_normalize2 : (V2 Z ⇒ V2 Z) (Vector2.normalize (S := S)) Vector2.normalize := by
  intro u v h
  have hl := Vector2.rel_length h
  rw [sameNumber_iff] at hl
  have e := canon_inj hl (neg?_length2 u) (neg?_length2 v)
  exact ⟨sameNumber_iff.2 (num_quot_left (sameNumber_iff.1 h.1) e), sameNumber_iff.2 (num_quot_left (sameNumber_iff.1 h.2) e)⟩
theorem C116_normalize3 : (V3 Z ⇒ V3 Z) (Vector3.normalize (S := S)) Vector3.normalize := by
  intro u v h
  have hl := Vector3.rel_length h
  rw [sameNumber_iff] at hl
  have e := canon_inj hl (neg?_length3 u) (neg?_length3 v)
  exact ⟨sameNumber_iff.2 (num_quot_left (sameNumber_iff.1 h.1) e), sameNumber_iff.2 (num_quot_left (sameNumber_iff.1 h.2.1) e),
    sameNumber_iff.2 (num_quot_left (sameNumber_iff.1 h.2.2) e)⟩

/-- **C116**: inverting a matrix does not see the signs of zeros: it never divides by a zero determinant. -/
theorem C116_inverse3x3 : (M3 Z ⇒ Outcome (M3 Z)) (Matrix3x3.inverse (S := S)) Matrix3x3.inverse := by
  intro a b h0
  have hd : SameNumber a.det b.det := by param h0 h0
  have hb : (a.det == zero) = (b.det == zero) := Kept.beq (ρ := Z) hd Kept.zero
  show Outcome _ (if !(a.det == zero) then _ else _) (if !(b.det == zero) then _ else _)
  cases hz : (a.det == zero) with
  | true => rw [hz] at hb; rw [← hb]; exact .error _
  | false =>
    have hv : ¬ IsNaN a.det → val a.det ≠ 0 := by
      intro hn e
      have : (a.det == zero) = true := beq_iff.2 ⟨hn, by unfold IsNaN; rw [den_zero]; simp, by rw [e, val_zero]⟩
      rw [hz] at this; cases this
    rw [hz] at hb; rw [← hb]
    refine .ok ?_
    refine M3.mk ?_ ?_ ?_ ?_ ?_ ?_ ?_ ?_ ?_ <;> refine number_div ?_ hd hv <;> param h0 h0
theorem C116_inverse4x4 : (M4 Z ⇒ Outcome (M4 Z)) (Matrix4x4.inverse (S := S)) Matrix4x4.inverse := by
  intro a b h0
  have ha := Matrix4x4.rel_adjugate h0
  have hd : SameNumber (a.detOf a.adjugate) (b.detOf b.adjugate) := by
    unfold Matrix4x4.detOf
    param h0 ha
  have hb : (a.detOf a.adjugate == zero) = (b.detOf b.adjugate == zero) := Kept.beq (ρ := Z) hd Kept.zero
  show Outcome _ (if !(a.detOf a.adjugate == zero) then _ else _) (if !(b.detOf b.adjugate == zero) then _ else _)
  cases hz : (a.detOf a.adjugate == zero) with
  | true => rw [hz] at hb; rw [← hb]; exact .error _
  | false =>
    have hv : ¬ IsNaN (a.detOf a.adjugate) → val (a.detOf a.adjugate) ≠ 0 := by
      intro hn e
      have : (a.detOf a.adjugate == zero) = true := beq_iff.2 ⟨hn, by unfold IsNaN; rw [den_zero]; simp, by rw [e, val_zero]⟩
      rw [hz] at this; cases this
    rw [hz] at hb; rw [← hb]
    refine .ok ?_
    intro k hk
    show SameNumber (Vector.ofFn _)[k] (Vector.ofFn _)[k]
    rw [Vector.getElem_ofFn, Vector.getElem_ofFn]
    exact number_div (ha _ _) hd hv
/-- **C116**: nor does making a transform from a matrix. -/
theorem C116_tryFrom2 : (M3 Z ⇒ Outcome (T2 Z)) (Transform2.tryFrom (S := S)) Transform2.tryFrom := by
  intro a b h
  have := C116_inverse3x3 h
  unfold Transform2.tryFrom
  revert this
  generalize Matrix3x3.inverse a = x
  generalize Matrix3x3.inverse b = y
  rintro (e | h')
  · exact .error _
  · exact .ok ⟨h, h'⟩
theorem C116_tryFrom3 : (M4 Z ⇒ Outcome (T3 Z)) (Transform3.tryFrom (S := S)) Transform3.tryFrom := by
  intro a b h
  have := C116_inverse4x4 h
  unfold Transform3.tryFrom
  revert this
  generalize Matrix4x4.inverse a = x
  generalize Matrix4x4.inverse b = y
  rintro (e | h')
  · exact .error _
  · exact .ok ⟨h, h'⟩
/-- **C116**: nor does making a view. -/
theorem C116_lookAt : (P3 Z ⇒ P3 Z ⇒ V3 Z ⇒ Outcome (T3 Z)) (Transform3.lookAt (S := S))
    Transform3.lookAt := by
  intro o o' ho t t' ht u u' hu
  have hi : M4 Z (Matrix4x4.inverseLookAt o t u) (Matrix4x4.inverseLookAt o' t' u') := by
    have hd := C116_normalize3 (Point3.rel_diff ht ho)
    have hr := C116_normalize3 (Vector3.rel_cross (C116_normalize3 hu) hd)
    have hn := Vector3.rel_cross hd hr
    exact M4.mk hr.1 hn.1 hd.1 ho.1 hr.2.1 hn.2.1 hd.2.1 ho.2.1 hr.2.2 hn.2.2 hd.2.2 ho.2.2 Kept.zero Kept.zero Kept.zero Kept.one
  have := C116_inverse4x4 hi
  simp only [Transform3.lookAt]
  revert this
  generalize (Matrix4x4.inverseLookAt o t u).inverse = x
  generalize (Matrix4x4.inverseLookAt o' t' u').inverse = y
  rintro (e | h)
  · exact .error _
  · exact .ok ⟨h, hi⟩
/-- **C116**: nor does making a rotation about an axis, if `sin` and `cos` don't. -/
theorem C116_rotateAxis [KeptTrig Z] :
    (V3 Z ⇒ Z ⇒ T3 Z) (Transform3.rotateAxis (S := S)) Transform3.rotateAxis := by
  intro v v' hv a a' ha
  obtain ⟨_, _, _⟩ := C116_normalize3 hv
  have hm : M4 Z (Matrix4x4.rotateAxis v a) (Matrix4x4.rotateAxis v' a') := by
    refine M4.mk ?_ ?_ ?_ ?_ ?_ ?_ ?_ ?_ ?_ ?_ ?_ ?_ ?_ ?_ ?_ ?_ <;> para
  exact ⟨hm, Matrix4x4.rel_transpose hm⟩

/-- **C116**: dividing by a scalar that is not zero does not see the signs of zeros. -/
theorem C116_div2 {u v : Vector2 S} {s t : S} (h : V2 Z u v) (hs : SameNumber s t) (h0 : ¬ IsNaN s → val s ≠ 0) : V2 Z (u / s) (v / t) :=
  ⟨number_div h.1 hs h0, number_div h.2 hs h0⟩
theorem C116_div3 {u v : Vector3 S} {s t : S} (h : V3 Z u v) (hs : SameNumber s t) (h0 : ¬ IsNaN s → val s ≠ 0) : V3 Z (u / s) (v / t) :=
  ⟨number_div h.1 hs h0, number_div h.2.1 hs h0, number_div h.2.2 hs h0⟩

/-- **C116**: a transform applied to a point does not see the signs of zeros where the point's weight is not zero. -/
theorem C116_point2 {a b : Matrix3x3 S} {p q : Point2 S} (h : M3 Z a b) (hp : P2 Z p q)
    (hw : ¬ IsNaN (a.m[6] * p.x + a.m[7] * p.y + a.m[8]) → val (a.m[6] * p.x + a.m[7] * p.y + a.m[8]) ≠ 0) : P2 Z (a * p) (b * q) := by
  obtain ⟨_, _⟩ := hp
  have hW : SameNumber (a.m[6] * p.x + a.m[7] * p.y + a.m[8]) (b.m[6] * q.x + b.m[7] * q.y + b.m[8]) := by param h h
  exact ⟨number_div (by param h h) hW hw, number_div (by param h h) hW hw⟩
theorem C116_point3 {a b : Matrix4x4 S} {p q : Point3 S} (h : M4 Z a b) (hp : P3 Z p q)
    (hw : ¬ IsNaN (a.m[12] * p.x + a.m[13] * p.y + a.m[14] * p.z + a.m[15]) →
      val (a.m[12] * p.x + a.m[13] * p.y + a.m[14] * p.z + a.m[15]) ≠ 0) : P3 Z (a * p) (b * q) := by
  obtain ⟨_, _, _⟩ := hp
  have hW : SameNumber (a.m[12] * p.x + a.m[13] * p.y + a.m[14] * p.z + a.m[15])
      (b.m[12] * q.x + b.m[13] * q.y + b.m[14] * q.z + b.m[15]) := by param h h
  exact ⟨number_div (by param h h) hW hw, number_div (by param h h) hW hw, number_div (by param h h) hW hw⟩

/-- **C116**: a transformed box does not depend on the signs of zeros where the weight of the box's lower corner is not zero. -/
theorem C116_box2 {s t : Transform2 S} {b c : BoundingBox2 S} (h : T2 Z s t) (hb : B2 Z b c)
    (hw : ¬ IsNaN (s.forward.m[6] * b.min.x + s.forward.m[7] * b.min.y + s.forward.m[8]) →
      val (s.forward.m[6] * b.min.x + s.forward.m[7] * b.min.y + s.forward.m[8]) ≠ 0) :
    B2 Z (Transform.transform s b) (Transform.transform t c) := by
  have ho : P2 Z (Transform.transform s b.min) (Transform.transform t c.min) := C116_point2 h.1 hb.1 hw
  have hd : V2 Z (Transform.transform s b.diagonal) (Transform.transform t c.diagonal) :=
    Transform2.rel_transform_vector h (BoundingBox2.rel_diagonal hb)
  have hl : ∀ (l : List Nat) (a a' : Point2 S × Point2 S), Both (P2 Z) (P2 Z) a a' →
      Both (P2 Z) (P2 Z) (l.foldl (Transform2.boxStep (Transform.transform s b.min) (Transform.transform s b.diagonal)) a)
        (l.foldl (Transform2.boxStep (Transform.transform t c.min) (Transform.transform t c.diagonal)) a') := by
    intro l
    induction l with
    | nil => exact fun _ _ h => h
    | cons i l ih => exact fun a a' h => ih _ _ (Transform2.rel_boxStep ho hd h i)
  have := hl [1, 2, 3] (_, _) (_, _) ⟨ho, ho⟩
  exact BoundingBox2.rel_new this.1 this.2
theorem C116_box3 {s t : Transform3 S} {b c : BoundingBox3 S} (h : T3 Z s t) (hb : B3 Z b c)
    (hw : ¬ IsNaN (s.forward.m[12] * b.min.x + s.forward.m[13] * b.min.y + s.forward.m[14] * b.min.z + s.forward.m[15]) →
      val (s.forward.m[12] * b.min.x + s.forward.m[13] * b.min.y + s.forward.m[14] * b.min.z + s.forward.m[15]) ≠ 0) :
    B3 Z (Transform.transform s b) (Transform.transform t c) := by
  have ho : P3 Z (Transform.transform s b.min) (Transform.transform t c.min) := C116_point3 h.1 hb.1 hw
  have hd : V3 Z (Transform.transform s b.diagonal) (Transform.transform t c.diagonal) :=
    Transform3.rel_transform_vector h (BoundingBox3.rel_diagonal hb)
  have hl : ∀ (l : List Nat) (a a' : Point3 S × Point3 S), Both (P3 Z) (P3 Z) a a' →
      Both (P3 Z) (P3 Z) (l.foldl (Transform3.boxStep (Transform.transform s b.min) (Transform.transform s b.diagonal)) a)
        (l.foldl (Transform3.boxStep (Transform.transform t c.min) (Transform.transform t c.diagonal)) a') := by
    intro l
    induction l with
    | nil => exact fun _ _ h => h
    | cons i l ih => exact fun a a' h => ih _ _ (Transform3.rel_boxStep ho hd h i)
  have := hl [1, 2, 3, 4, 5, 6, 7] (_, _) (_, _) ⟨ho, ho⟩
  exact BoundingBox3.rel_new this.1 this.2

/-! Rays. -/

/-- Changing the signs of zeros in a quotient by zero: nothing changes, or the sign of the result does. -/
theorem quot_zero_flip {n n' d d' : S} (hn : num n = num n') (hd : num d = num d') (h : den d ≠ den d') :
    num (n' / d') = (num (n / d)).neg ∧ ∃ s, (IsNaN (n / d) ∨ den (n / d) = .inf s) := by
  have hz : (den d = .nzero ∧ den d' = .fin 0) ∨ (den d = .fin 0 ∧ den d' = .nzero) := by
    unfold num at hd
    revert hd h
    generalize den d = y
    generalize den d' = y'
    rcases y with _ | t | _ | y <;> rcases y' with _ | t' | _ | y' <;> simp_all [Val.canon]
  unfold IsNaN
  unfold num at *
  rw [den_div, den_div]
  revert hn
  generalize den n = x
  generalize den n' = x'
  intro hn
  have hx : x = x' ∨ (x = .nzero ∧ x' = .fin 0) ∨ (x = .fin 0 ∧ x' = .nzero) := by
    rcases x with _ | t | _ | x <;> rcases x' with _ | t' | _ | x' <;> simp_all [Val.canon]
  rcases hz with ⟨e, e'⟩ | ⟨e, e'⟩ <;> rw [e, e'] <;> rcases hx with rfl | ⟨f, f'⟩ | ⟨f, f'⟩
  all_goals first
    | (subst f; subst f'; simp [Rounding.div, Val.neg?, Val.real, Val.neg, Val.canon])
    | skip
  all_goals
    rcases x with _ | t | _ | x
    · simp [Rounding.div, Val.neg, Val.canon]
    · simp [Rounding.div, Val.neg, Val.canon, Val.neg?]
    · simp [Rounding.div, Val.neg, Val.canon, Val.neg?, Val.real]
    · by_cases hx : x = 0
      · simp [Rounding.div, Val.neg, Val.canon, Val.neg?, Val.real, hx]
      · simp [Rounding.div, Val.neg, Val.canon, Val.neg?, Val.real, hx] <;> exact lt_or_ge _ _

/-- Of one pair of planes: either the crossings are the same numbers, or they are such that the ray reaches the box at no finite distance. -/
theorem slab_flip {l h o d l' h' o' d' : S} (hl : SameNumber l l') (hh : SameNumber h h') (ho : SameNumber o o') (hd : SameNumber d d') :
    (num (near l h o d) = num (near l' h' o' d') ∧ num (far l h o d) = num (far l' h' o' d')) ∨
    loVal (near l h o d) = ⊤ ∨ hiVal (far l h o d) = ⊥ := by
  have n1 : num (l - o) = num (l' - o') := sameNumber_iff.1 (Kept.sub hl ho)
  have n2 : num (h - o) = num (h' - o') := sameNumber_iff.1 (Kept.sub hh ho)
  rw [sameNumber_iff] at hd
  unfold near far
  by_cases e : den d = den d'
  · exact .inl ⟨num_min_congr (num_quot_left n1 e) (num_quot_left n2 e), num_max_congr (num_quot_left n1 e) (num_quot_left n2 e)⟩
  · obtain ⟨f1, s1, c1⟩ := quot_zero_flip n1 hd e
    obtain ⟨f2, s2, c2⟩ := quot_zero_flip n2 hd e
    revert f1 c1 f2 c2
    generalize (l - o) / d = p
    generalize (h - o) / d = q
    generalize (l' - o') / d' = p'
    generalize (h' - o') / d' = q'
    intro f1 c1 f2 c2
    have hmin : ∀ a : S, IsNaN a → num a = .nan := fun a => isNaN_iff_num.1
    have key : ∀ {a b : S} {t : Bool}, num a = num b → IsNaN b ∨ den b = .inf t → IsNaN a ∨ den a = .inf t := by
      intro a b t h hb
      rcases hb with hb | hb
      · exact .inl ((num_nan h).2 hb)
      · right
        unfold num at h
        rw [hb] at h
        revert h
        rcases den a with _ | t | _ | x <;> simp [Val.canon]
    rcases c1 with c1 | c1
    · have p1 : IsNaN p' := isNaN_iff_num.2 (by rw [f1, hmin p c1]; rfl)
      rcases c2 with c2 | c2
      · have p2 : IsNaN q' := isNaN_iff_num.2 (by rw [f2, hmin q c2]; rfl)
        left
        rw [(min_nan_left c1).num, (min_nan_left p1).num, (max_nan_left c1).num, (max_nan_left p1).num, hmin _ c2, hmin _ p2]
        exact ⟨rfl, rfl⟩
      · right
        have hv := val_inf c2
        cases s2
        · left; rw [loVal_congr (min_nan_left c1).num]; unfold loVal; rw [if_neg hv.1, hv.2]; rfl
        · right; rw [hiVal_congr (max_nan_left c1).num]; unfold hiVal; rw [if_neg hv.1, hv.2]; rfl
    · have hp := val_inf c1
      rcases c2 with c2 | c2
      · right
        cases s1
        · left; rw [loVal_congr (min_nan_right c2).num]; unfold loVal; rw [if_neg hp.1, hp.2]; rfl
        · right; rw [hiVal_congr (max_nan_right c2).num]; unfold hiVal; rw [if_neg hp.1, hp.2]; rfl
      · have hq := val_inf c2
        have g1 : num p = .inf s1 := by unfold num; rw [c1]; rfl
        have g2 : num q = .inf s2 := by unfold num; rw [c2]; rfl
        by_cases hs : s1 = s2
        · subst hs
          right
          have m := val_min hp.1 hq.1
          have M := val_max hp.1 hq.1
          have nm : ¬ IsNaN (fmin p q) := fun h => hp.1 (isNaN_min.1 h).1
          have nM : ¬ IsNaN (fmax p q) := fun h => hp.1 (isNaN_max.1 h).1
          unfold loVal hiVal
          rw [if_neg nm, if_neg nM, m, M, hp.2, hq.2]
          cases s1 <;> simp
        · left
          have hs' : s2 = !s1 := by cases s1 <;> cases s2 <;> simp_all
          subst hs'
          have e1 : num p' = num q := by rw [f1, g1, g2]; rfl
          have e2 : num q' = num p := by rw [f2, g1, g2]; simp [Val.neg]
          rw [num_min_congr e1 e2, num_max_congr e1 e2]
          exact ⟨num_min_comm _ _, num_max_comm _ _⟩

/-- **C116** (2D): a hit at a finite distance does not depend on the signs of zeros: not of the ray's direction, though the ray is divided by
it, nor of anything else. -/
theorem C116_ray2 {b c : BoundingBox2 S} {r q : Ray2 S} (hb : B2 Z b c) (hr : R2 Z r q) {i : Range S} (h : Api.intersect b r = some i)
    (hi : val i.start ≠ ⊤) : ∃ j, Api.intersect c q = some j ∧ Rg Z i j := by
  have h : b.intersectRay r = some i := h
  rw [intersectRay_slabs2] at h
  obtain ⟨h1, h2⟩ := slabs2_iff (near b.min.x b.max.x r.origin.x r.direction.x) (far b.min.x b.max.x r.origin.x r.direction.x)
    (near b.min.y b.max.y r.origin.y r.direction.y) (far b.min.y b.max.y r.origin.y r.direction.y)
  have hx := slab_flip hb.1.1 hb.2.1 hr.1.1 hr.2.1
  have hy := slab_flip hb.1.2 hb.2.2 hr.1.2 hr.2.2
  by_cases hc : max (max 0 (loVal (near b.min.x b.max.x r.origin.x r.direction.x))) (loVal (near b.min.y b.max.y r.origin.y r.direction.y)) ≤
      min (min ⊤ (hiVal (far b.min.x b.max.x r.origin.x r.direction.x))) (hiVal (far b.min.y b.max.y r.origin.y r.direction.y))
  · obtain ⟨i', e, n1, n2, v1, v2⟩ := h1 hc
    rw [h] at e; cases e
    have hlo : ∀ {x y : EReal}, max (max 0 x) y ≠ ⊤ → x ≠ ⊤ ∧ y ≠ ⊤ := by
      intro x y h; constructor <;> rintro rfl <;> simp at h
    have hhi : ∀ {x y w z : EReal}, max (max 0 x) y ≤ min (min ⊤ w) z → w ≠ ⊥ ∧ z ≠ ⊥ := by
      intro x y w z h
      have h0 : (0 : EReal) ≤ min (min ⊤ w) z := le_trans (le_trans (le_max_left _ _) (le_max_left _ _)) h
      constructor <;> rintro rfl <;> simp at h0
    have l := hlo (v1 ▸ hi)
    have u := hhi hc
    have hx := hx.resolve_right (not_or.2 ⟨l.1, u.1⟩)
    have hy := hy.resolve_right (not_or.2 ⟨l.2, u.2⟩)
    obtain ⟨g1, -⟩ := slabs2_iff (near c.min.x c.max.x q.origin.x q.direction.x) (far c.min.x c.max.x q.origin.x q.direction.x)
      (near c.min.y c.max.y q.origin.y q.direction.y) (far c.min.y c.max.y q.origin.y q.direction.y)
    rw [← loVal_congr hx.1, ← loVal_congr hy.1, ← hiVal_congr hx.2, ← hiVal_congr hy.2] at g1
    obtain ⟨j, e, m1, m2, w1, w2⟩ := g1 hc
    exact ⟨j, e, .inr ⟨n1, m1, v1.trans w1.symm⟩, .inr ⟨n2, m2, v2.trans w2.symm⟩⟩
  · rw [h2 hc] at h; cases h
/-- **C116** (3D). -/
theorem C116_ray3 {b c : BoundingBox3 S} {r q : Ray3 S} (hb : B3 Z b c) (hr : R3 Z r q) {i : Range S} (h : Api.intersect b r = some i)
    (hi : val i.start ≠ ⊤) : ∃ j, Api.intersect c q = some j ∧ Rg Z i j := by
  have h : b.intersectRay r = some i := h
  rw [intersectRay_slabs3] at h
  obtain ⟨h1, h2⟩ := slabs3_iff (near b.min.x b.max.x r.origin.x r.direction.x) (far b.min.x b.max.x r.origin.x r.direction.x)
    (near b.min.y b.max.y r.origin.y r.direction.y) (far b.min.y b.max.y r.origin.y r.direction.y)
    (near b.min.z b.max.z r.origin.z r.direction.z) (far b.min.z b.max.z r.origin.z r.direction.z)
  have hx := slab_flip hb.1.1 hb.2.1 hr.1.1 hr.2.1
  have hy := slab_flip hb.1.2.1 hb.2.2.1 hr.1.2.1 hr.2.2.1
  have hz := slab_flip hb.1.2.2 hb.2.2.2 hr.1.2.2 hr.2.2.2
  by_cases hc : max (max (max 0 (loVal (near b.min.x b.max.x r.origin.x r.direction.x))) (loVal (near b.min.y b.max.y r.origin.y r.direction.y)))
        (loVal (near b.min.z b.max.z r.origin.z r.direction.z)) ≤
      min (min (min ⊤ (hiVal (far b.min.x b.max.x r.origin.x r.direction.x))) (hiVal (far b.min.y b.max.y r.origin.y r.direction.y)))
        (hiVal (far b.min.z b.max.z r.origin.z r.direction.z))
  · obtain ⟨i', e, n1, n2, v1, v2⟩ := h1 hc
    rw [h] at e; cases e
    have hlo : ∀ {x y z : EReal}, max (max (max 0 x) y) z ≠ ⊤ → x ≠ ⊤ ∧ y ≠ ⊤ ∧ z ≠ ⊤ := by
      intro x y z h; refine ⟨?_, ?_, ?_⟩ <;> rintro rfl <;> simp at h
    have hhi : ∀ {x y z u v w : EReal}, max (max (max 0 x) y) z ≤ min (min (min ⊤ u) v) w → u ≠ ⊥ ∧ v ≠ ⊥ ∧ w ≠ ⊥ := by
      intro x y z u v w h
      have h0 : (0 : EReal) ≤ min (min (min ⊤ u) v) w :=
        le_trans (le_trans (le_trans (le_max_left _ _) (le_max_left _ _)) (le_max_left _ _)) h
      refine ⟨?_, ?_, ?_⟩ <;> rintro rfl <;> simp at h0
    have l := hlo (v1 ▸ hi)
    have u := hhi hc
    have hx := hx.resolve_right (not_or.2 ⟨l.1, u.1⟩)
    have hy := hy.resolve_right (not_or.2 ⟨l.2.1, u.2.1⟩)
    have hz := hz.resolve_right (not_or.2 ⟨l.2.2, u.2.2⟩)
    obtain ⟨g1, -⟩ := slabs3_iff (near c.min.x c.max.x q.origin.x q.direction.x) (far c.min.x c.max.x q.origin.x q.direction.x)
      (near c.min.y c.max.y q.origin.y q.direction.y) (far c.min.y c.max.y q.origin.y q.direction.y)
      (near c.min.z c.max.z q.origin.z q.direction.z) (far c.min.z c.max.z q.origin.z q.direction.z)
    rw [← loVal_congr hx.1, ← loVal_congr hy.1, ← loVal_congr hz.1, ← hiVal_congr hx.2, ← hiVal_congr hy.2, ← hiVal_congr hz.2] at g1
    obtain ⟨j, e, m1, m2, w1, w2⟩ := g1 hc
    exact ⟨j, e, .inr ⟨n1, m1, v1.trans w1.symm⟩, .inr ⟨n2, m2, v2.trans w2.symm⟩⟩
  · rw [h2 hc] at h; cases h

end VecMath

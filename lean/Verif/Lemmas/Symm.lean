import Verif.Spec.Symmetry
import Verif.Lemmas.Num
/-! # Lemmas for C73 -/

open Classical

namespace VecMath
open Scalar IEEE

variable {S : Type} [Scalar S] [IEEE S]

theorem agree_iff {a b : S} : Agree a b ↔ num a = num b := num_eq_iff.symm
theorem num_ext {a b : S} (h : IsNaN a ↔ IsNaN b) (hv : ¬ IsNaN a → val a = val b) : num a = num b := by
  rw [num_eq_iff]
  by_cases ha : IsNaN a
  · exact .inl ⟨ha, h.1 ha⟩
  · right; rw [beq_iff]; exact ⟨ha, fun hb => ha (h.2 hb), hv ha⟩
theorem num_nan {a b : S} (h : num a = num b) : IsNaN a ↔ IsNaN b := by rw [isNaN_iff_num, isNaN_iff_num, h]
theorem num_val {a b : S} (h : num a = num b) : val a = val b := by rw [val_num, val_num, h]

theorem num_min_congr {a b a' b' : S} (h : num a = num a') (h' : num b = num b') : num (fmin a b) = num (fmin a' b') := by
  have n1 := num_nan h; have n2 := num_nan h'
  by_cases ha : IsNaN a
  · rw [(min_nan_left ha).num, (min_nan_left (n1.1 ha)).num, h']
  · by_cases hb : IsNaN b
    · rw [(min_nan_right hb).num, (min_nan_right (n2.1 hb)).num, h]
    · refine num_ext (by rw [isNaN_min, isNaN_min, n1, n2]) fun _ => ?_
      rw [val_min ha hb, val_min (fun x => ha (n1.2 x)) (fun x => hb (n2.2 x)), num_val h, num_val h']
theorem num_max_congr {a b a' b' : S} (h : num a = num a') (h' : num b = num b') : num (fmax a b) = num (fmax a' b') := by
  have n1 := num_nan h; have n2 := num_nan h'
  by_cases ha : IsNaN a
  · rw [(max_nan_left ha).num, (max_nan_left (n1.1 ha)).num, h']
  · by_cases hb : IsNaN b
    · rw [(max_nan_right hb).num, (max_nan_right (n2.1 hb)).num, h]
    · refine num_ext (by rw [isNaN_max, isNaN_max, n1, n2]) fun _ => ?_
      rw [val_max ha hb, val_max (fun x => ha (n1.2 x)) (fun x => hb (n2.2 x)), num_val h, num_val h']
theorem num_min_comm (a b : S) : num (fmin a b) = num (fmin b a) := by
  refine num_ext (by rw [isNaN_min, isNaN_min, and_comm]) fun h => ?_
  by_cases ha : IsNaN a
  · rw [(min_nan_left ha).val, (min_nan_right ha).val]
  · by_cases hb : IsNaN b
    · rw [(min_nan_right hb).val, (min_nan_left hb).val]
    · rw [val_min ha hb, val_min hb ha, min_comm]
theorem num_max_comm (a b : S) : num (fmax a b) = num (fmax b a) := by
  refine num_ext (by rw [isNaN_max, isNaN_max, and_comm]) fun h => ?_
  by_cases ha : IsNaN a
  · rw [(max_nan_left ha).val, (max_nan_right ha).val]
  · by_cases hb : IsNaN b
    · rw [(max_nan_right hb).val, (max_nan_left hb).val]
    · rw [val_max ha hb, val_max hb ha, max_comm]
theorem isNaN_neg' {a : S} : IsNaN (-a) ↔ IsNaN a := by
  unfold IsNaN; rw [den_neg]; rcases den a with _ | s | _ | x <;> simp [Val.neg]
  split_ifs <;> simp
theorem val_neg' {a : S} : val (-a) = -val a := by
  unfold val; rw [den_neg]; rcases den a with _ | (_ | _) | _ | x <;> simp [Val.neg, Val.ereal]
  split_ifs with h <;> simp [h]
theorem num_neg_min (a b : S) : num (fmin (-a) (-b)) = num (-fmax a b) := by
  refine num_ext (by rw [isNaN_min, isNaN_neg', isNaN_neg', isNaN_neg', isNaN_max]) fun h => ?_
  rw [val_neg']
  by_cases ha : IsNaN a
  · rw [(min_nan_left (isNaN_neg'.2 ha)).val, (max_nan_left ha).val, val_neg']
  · by_cases hb : IsNaN b
    · rw [(min_nan_right (isNaN_neg'.2 hb)).val, (max_nan_right hb).val, val_neg']
    · rw [val_min (fun h => ha (isNaN_neg'.1 h)) (fun h => hb (isNaN_neg'.1 h)), val_max ha hb, val_neg', val_neg']
      rcases le_total (val a) (val b) with h | h
      · rw [max_eq_right h, min_eq_right (EReal.neg_le_neg_iff.2 h)]
      · rw [max_eq_left h, min_eq_left (EReal.neg_le_neg_iff.2 h)]
theorem num_neg_max (a b : S) : num (fmax (-a) (-b)) = num (-fmin a b) := by
  refine num_ext (by rw [isNaN_max, isNaN_neg', isNaN_neg', isNaN_neg', isNaN_min]) fun h => ?_
  rw [val_neg']
  by_cases ha : IsNaN a
  · rw [(max_nan_left (isNaN_neg'.2 ha)).val, (min_nan_left ha).val, val_neg']
  · by_cases hb : IsNaN b
    · rw [(max_nan_right (isNaN_neg'.2 hb)).val, (min_nan_right hb).val, val_neg']
    · rw [val_max (fun h => ha (isNaN_neg'.1 h)) (fun h => hb (isNaN_neg'.1 h)), val_min ha hb, val_neg', val_neg']
      rcases le_total (val a) (val b) with h | h
      · rw [min_eq_left h, max_eq_left (EReal.neg_le_neg_iff.2 h)]
      · rw [min_eq_right h, max_eq_right (EReal.neg_le_neg_iff.2 h)]
theorem le_neg_neg (a b : S) : (-a ≤? -b) = (b ≤? a) := by
  rw [Bool.eq_iff_iff, le_iff, le_iff, isNaN_neg', isNaN_neg', val_neg', val_neg', EReal.neg_le_neg_iff]; tauto
theorem num_neg_add (a b : S) : num (-a + -b) = num (-(a + b)) := by
  unfold num; rw [den_add, den_neg, den_neg, den_neg, den_add]
  by_cases h : (den a).IsFin ∧ (den b).IsFin ∧ (den a).real + (den b).real = 0
  · obtain ⟨ha, hb, h0⟩ := h
    rw [Rounding.add_fin _ ha hb, Rounding.add_fin _ (Val.neg_isFin.2 ha) (Val.neg_isFin.2 hb)]
    have e : (den a).neg.real + (den b).neg.real = 0 := by simp only [Val.neg_real]; linarith
    rw [h0, e]
    simp [Val.mkZero]
    split_ifs <;> simp [Val.neg]
  · congr 1
    exact (Rounding.neg_add _ _ _ (fun ha hb h0 => h ⟨ha, hb, h0⟩)).symm
theorem num_neg_sub (a b : S) : num (-a - -b) = num (-(a - b)) := by
  have h : ∀ x y : S, Same (x - y) (x + -y) := fun x y => by
    unfold Same; rw [den_sub, den_add, den_neg]; rfl
  rw [(h _ _).num, num_neg_add]
  exact num_neg_congr (h _ _).num.symm
theorem num_div_left {a a' : S} (b : S) (h : num a = num a') : num (a / b) = num (a' / b) := by
  have key : ∀ a b : Val, ((IEEE.A S).div a b).canon = ((IEEE.A S).div a.canon b).canon := by
    intro a b
    rcases a with _ | s | _ | x <;> rcases b with _ | t | _ | y <;> simp [Rounding.div]
    split_ifs <;> simp
  unfold num at *
  rw [den_div, den_div, key, h, ← key]
theorem num_div_neg {a a' b : S} (h : num a' = num (-a)) : num (a' / -b) = num (a / b) := by
  rw [num_div_left _ h]
  unfold num; congr 1
  rw [den_div, den_div, den_neg, den_neg, Rounding.div_neg, Rounding.neg_div, Val.neg_neg]

/-! ## The ray/box test as one comparison -/

/-- The value for a running maximum: NaN is ignored. -/
noncomputable def loVal (a : S) : EReal := if IsNaN a then ⊥ else val a
/-- The value for a running minimum: NaN is ignored. -/
noncomputable def hiVal (a : S) : EReal := if IsNaN a then ⊤ else val a
theorem loVal_congr {a b : S} (h : num a = num b) : loVal a = loVal b := by
  unfold loVal; simp only [num_nan h, num_val h]
theorem hiVal_congr {a b : S} (h : num a = num b) : hiVal a = hiVal b := by
  unfold hiVal; simp only [num_nan h, num_val h]
theorem val_fmax {s n : S} (hs : ¬ IsNaN s) : ¬ IsNaN (fmax s n) ∧ val (fmax s n) = max (val s) (loVal n) := by
  refine ⟨fun h => hs (isNaN_max.1 h).1, ?_⟩
  unfold loVal
  split_ifs with hn
  · rw [(max_nan_right hn).val]; simp
  · exact val_max hs hn
theorem val_fmin {s n : S} (hs : ¬ IsNaN s) : ¬ IsNaN (fmin s n) ∧ val (fmin s n) = min (val s) (hiVal n) := by
  refine ⟨fun h => hs (isNaN_min.1 h).1, ?_⟩
  unfold hiVal
  split_ifs with hn
  · rw [(min_nan_right hn).val]; simp
  · exact val_min hs hn

/-- The near crossing of a slab. -/
def near (lo hi o d : S) : S := fmin ((lo - o) / d) ((hi - o) / d)
/-- The far crossing of a slab. -/
def far (lo hi o d : S) : S := fmax ((lo - o) / d) ((hi - o) / d)
theorem num_near_mirror (f : Bool) (lo hi o d : S) :
    num (near (flipLo f lo hi) (flipHi f lo hi) (flip f o) (flip f d)) = num (near lo hi o d) := by
  cases f
  · rfl
  · show num (fmin ((-hi - -o) / -d) ((-lo - -o) / -d)) = _
    rw [num_min_congr (num_div_neg (num_neg_sub hi o)) (num_div_neg (num_neg_sub lo o)), num_min_comm]; rfl
theorem num_far_mirror (f : Bool) (lo hi o d : S) :
    num (far (flipLo f lo hi) (flipHi f lo hi) (flip f o) (flip f d)) = num (far lo hi o d) := by
  cases f
  · rfl
  · show num (fmax ((-hi - -o) / -d) ((-lo - -o) / -d)) = _
    rw [num_max_congr (num_div_neg (num_neg_sub hi o)) (num_div_neg (num_neg_sub lo o)), num_max_comm]; rfl

/-- The start and the end of the range, as extended reals. -/
noncomputable def startVal2 (b : BoundingBox2 S) (r : Ray2 S) : EReal :=
  max (max 0 (loVal (near b.min.x b.max.x r.origin.x r.direction.x))) (loVal (near b.min.y b.max.y r.origin.y r.direction.y))
noncomputable def stopVal2 (b : BoundingBox2 S) (r : Ray2 S) : EReal :=
  min (min ⊤ (hiVal (far b.min.x b.max.x r.origin.x r.direction.x))) (hiVal (far b.min.y b.max.y r.origin.y r.direction.y))
noncomputable def startVal3 (b : BoundingBox3 S) (r : Ray3 S) : EReal :=
  max (max (max 0 (loVal (near b.min.x b.max.x r.origin.x r.direction.x)))
    (loVal (near b.min.y b.max.y r.origin.y r.direction.y))) (loVal (near b.min.z b.max.z r.origin.z r.direction.z))
noncomputable def stopVal3 (b : BoundingBox3 S) (r : Ray3 S) : EReal :=
  min (min (min ⊤ (hiVal (far b.min.x b.max.x r.origin.x r.direction.x)))
    (hiVal (far b.min.y b.max.y r.origin.y r.direction.y))) (hiVal (far b.min.z b.max.z r.origin.z r.direction.z))

/-- The body of the ray/box test as a function of the crossings. -/
def slabs2 (n1 f1 n2 f2 : S) : Option (Range S) :=
  if fmax zero n1 >? fmin infinity f1 then none else
    if fmax (fmax zero n1) n2 ≤? fmin (fmin infinity f1) f2 then some ⟨fmax (fmax zero n1) n2, fmin (fmin infinity f1) f2⟩ else none
theorem intersectRay_slabs2 (b : BoundingBox2 S) (r : Ray2 S) : b.intersectRay r = slabs2
    (near b.min.x b.max.x r.origin.x r.direction.x) (far b.min.x b.max.x r.origin.x r.direction.x) (near b.min.y b.max.y r.origin.y r.direction.y) (far b.min.y b.max.y r.origin.y r.direction.y) := rfl
theorem slabs2_iff (n1 f1 n2 f2 : S) :
    (max (max 0 (loVal n1)) (loVal n2) ≤ min (min ⊤ (hiVal f1)) (hiVal f2) → ∃ i, slabs2 n1 f1 n2 f2 = some i ∧ ¬ IsNaN i.start ∧ ¬ IsNaN i.stop ∧
      val i.start = max (max 0 (loVal n1)) (loVal n2) ∧ val i.stop = min (min ⊤ (hiVal f1)) (hiVal f2)) ∧
    (¬ max (max 0 (loVal n1)) (loVal n2) ≤ min (min ⊤ (hiVal f1)) (hiVal f2) → slabs2 n1 f1 n2 f2 = none) := by
  unfold slabs2
  obtain ⟨s1, v1⟩ := val_fmax (n := n1) (finite_zero (S := S)).not_nan
  obtain ⟨t1, w1⟩ := val_fmin (n := f1) (not_nan_infinity (S := S))
  rw [val_zero] at v1
  rw [val_infinity] at w1
  obtain ⟨s2, v2⟩ := val_fmax (n := n2) s1
  obtain ⟨t2, w2⟩ := val_fmin (n := f2) t1
  rw [v1] at v2
  rw [w1] at w2
  constructor
  · intro h
    rw [if_neg, if_pos]
    · exact ⟨_, rfl, s2, t2, v2, w2⟩
    · exact le_iff.2 ⟨s2, t2, by rw [v2, w2]; exact h⟩
    · intro hc
      have := (lt_iff.1 hc).2.2
      rw [v1, w1] at this
      exact absurd ((le_max_left _ _).trans (h.trans (min_le_left _ _))) (not_le.2 this)
  · intro h
    split_ifs with h1 h2
    · rfl
    · exact absurd (by have := (le_iff.1 h2).2.2; rwa [v2, w2] at this) h
    · rfl
theorem hit_iff2 (b : BoundingBox2 S) (r : Ray2 S) :
    (startVal2 b r ≤ stopVal2 b r → ∃ i, b.intersectRay r = some i ∧ ¬ IsNaN i.start ∧ ¬ IsNaN i.stop ∧
      val i.start = startVal2 b r ∧ val i.stop = stopVal2 b r) ∧
    (¬ startVal2 b r ≤ stopVal2 b r → b.intersectRay r = none) := by
  rw [intersectRay_slabs2]; exact slabs2_iff _ _ _ _
theorem sameHit_of2 {b b' : BoundingBox2 S} {r r' : Ray2 S} (h1 : startVal2 b r = startVal2 b' r')
    (h2 : stopVal2 b r = stopVal2 b' r') : SameHit (Api.intersect b r) (Api.intersect b' r') := by
  have p := hit_iff2 b r
  have q := hit_iff2 b' r'
  show SameHit (b.intersectRay r) (b'.intersectRay r')
  by_cases h : startVal2 b r ≤ stopVal2 b r
  · obtain ⟨i, e, a1, a2, a3, a4⟩ := p.1 h
    obtain ⟨j, e', b1, b2, b3, b4⟩ := q.1 (by rwa [← h1, ← h2])
    rw [e, e']
    exact ⟨beq_iff.2 ⟨a1, b1, by rw [a3, b3, h1]⟩, beq_iff.2 ⟨a2, b2, by rw [a4, b4, h2]⟩⟩
  · rw [p.2 h, q.2 (by rwa [← h1, ← h2])]; trivial

/-- The body of the ray/box test as a function of the crossings. -/
def slabs3 (n1 f1 n2 f2 n3 f3 : S) : Option (Range S) :=
  if fmax zero n1 >? fmin infinity f1 then none else
    if fmax (fmax zero n1) n2 >? fmin (fmin infinity f1) f2 then none else
    if fmax (fmax (fmax zero n1) n2) n3 ≤? fmin (fmin (fmin infinity f1) f2) f3 then some ⟨fmax (fmax (fmax zero n1) n2) n3, fmin (fmin (fmin infinity f1) f2) f3⟩ else none
theorem intersectRay_slabs3 (b : BoundingBox3 S) (r : Ray3 S) : b.intersectRay r = slabs3
    (near b.min.x b.max.x r.origin.x r.direction.x) (far b.min.x b.max.x r.origin.x r.direction.x) (near b.min.y b.max.y r.origin.y r.direction.y) (far b.min.y b.max.y r.origin.y r.direction.y) (near b.min.z b.max.z r.origin.z r.direction.z) (far b.min.z b.max.z r.origin.z r.direction.z) := rfl
theorem slabs3_iff (n1 f1 n2 f2 n3 f3 : S) :
    (max (max (max 0 (loVal n1)) (loVal n2)) (loVal n3) ≤ min (min (min ⊤ (hiVal f1)) (hiVal f2)) (hiVal f3) → ∃ i, slabs3 n1 f1 n2 f2 n3 f3 = some i ∧ ¬ IsNaN i.start ∧ ¬ IsNaN i.stop ∧
      val i.start = max (max (max 0 (loVal n1)) (loVal n2)) (loVal n3) ∧ val i.stop = min (min (min ⊤ (hiVal f1)) (hiVal f2)) (hiVal f3)) ∧
    (¬ max (max (max 0 (loVal n1)) (loVal n2)) (loVal n3) ≤ min (min (min ⊤ (hiVal f1)) (hiVal f2)) (hiVal f3) → slabs3 n1 f1 n2 f2 n3 f3 = none) := by
  unfold slabs3
  obtain ⟨s1, v1⟩ := val_fmax (n := n1) (finite_zero (S := S)).not_nan
  obtain ⟨t1, w1⟩ := val_fmin (n := f1) (not_nan_infinity (S := S))
  rw [val_zero] at v1
  rw [val_infinity] at w1
  obtain ⟨s2, v2⟩ := val_fmax (n := n2) s1
  obtain ⟨t2, w2⟩ := val_fmin (n := f2) t1
  rw [v1] at v2
  rw [w1] at w2
  obtain ⟨s3, v3⟩ := val_fmax (n := n3) s2
  obtain ⟨t3, w3⟩ := val_fmin (n := f3) t2
  rw [v2] at v3
  rw [w2] at w3
  constructor
  · intro h
    rw [if_neg, if_neg, if_pos]
    · exact ⟨_, rfl, s3, t3, v3, w3⟩
    · exact le_iff.2 ⟨s3, t3, by rw [v3, w3]; exact h⟩
    · intro hc
      have := (lt_iff.1 hc).2.2
      rw [v2, w2] at this
      exact absurd ((le_max_left _ _).trans (h.trans (min_le_left _ _))) (not_le.2 this)
    · intro hc
      have := (lt_iff.1 hc).2.2
      rw [v1, w1] at this
      exact absurd (((le_max_left _ _).trans (le_max_left _ _)).trans (h.trans ((min_le_left _ _).trans (min_le_left _ _)))) (not_le.2 this)
  · intro h
    split_ifs with h1 h2 h3
    · rfl
    · rfl
    · exact absurd (by have := (le_iff.1 h3).2.2; rwa [v3, w3] at this) h
    · rfl
theorem hit_iff3 (b : BoundingBox3 S) (r : Ray3 S) :
    (startVal3 b r ≤ stopVal3 b r → ∃ i, b.intersectRay r = some i ∧ ¬ IsNaN i.start ∧ ¬ IsNaN i.stop ∧
      val i.start = startVal3 b r ∧ val i.stop = stopVal3 b r) ∧
    (¬ startVal3 b r ≤ stopVal3 b r → b.intersectRay r = none) := by
  rw [intersectRay_slabs3]; exact slabs3_iff _ _ _ _ _ _
theorem sameHit_of3 {b b' : BoundingBox3 S} {r r' : Ray3 S} (h1 : startVal3 b r = startVal3 b' r')
    (h2 : stopVal3 b r = stopVal3 b' r') : SameHit (Api.intersect b r) (Api.intersect b' r') := by
  have p := hit_iff3 b r
  have q := hit_iff3 b' r'
  show SameHit (b.intersectRay r) (b'.intersectRay r')
  by_cases h : startVal3 b r ≤ stopVal3 b r
  · obtain ⟨i, e, a1, a2, a3, a4⟩ := p.1 h
    obtain ⟨j, e', b1, b2, b3, b4⟩ := q.1 (by rwa [← h1, ← h2])
    rw [e, e']
    exact ⟨beq_iff.2 ⟨a1, b1, by rw [a3, b3, h1]⟩, beq_iff.2 ⟨a2, b2, by rw [a4, b4, h2]⟩⟩
  · rw [p.2 h, q.2 (by rwa [← h1, ← h2])]; trivial

end VecMath

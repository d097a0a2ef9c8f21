import Verif.Props.FloatRay
import Verif.Props.FloatMatrix
import Verif.Lemmas.FloatSlab
/-!
# Layer F: transformed bounding boxes in floating point
-/

namespace VecMath
open Scalar IEEE Fl

section
variable {S : Type} [Scalar S] [IEEE S]

/-- Running minimum over corners that take the coordinate `e` (true) or `o` (false). -/
def fchainMin (o e : S) (l : List Bool) : S := l.foldl (fun a b => fmin a (if b then e else o)) o
/-- see `fchainMin` -/
def fchainMax (o e : S) (l : List Bool) : S := l.foldl (fun a b => fmax a (if b then e else o)) o

theorem fold_min {o e : S} (ho : ¬ IsNaN o) (l : List Bool) (a : S) (ha : ¬ IsNaN a) :
    let r := l.foldl (fun a b => fmin a (if b then e else o)) a
    ¬ IsNaN r ∧ val r ≤ val a ∧ (¬ IsNaN e → (true ∈ l → val r ≤ val e) ∧ min (val a) (min (val o) (val e)) ≤ val r) := by
  induction l generalizing a with
  | nil => exact ⟨ha, le_rfl, fun _ => ⟨by simp, min_le_left _ _⟩⟩
  | cons b l ih =>
    obtain ⟨a1, a2, a3, a4⟩ := fmin_step (s := a) (n := if b then e else o) ha
    obtain ⟨h1, h2, h3⟩ := ih (fmin a (if b then e else o)) a1
    refine ⟨h1, h2.trans a2, fun he => ?_⟩
    obtain ⟨h4, h5⟩ := h3 he
    have hn : ¬ IsNaN (if b then e else o) := by cases b <;> assumption
    constructor
    · intro hm
      rcases List.mem_cons.1 hm with h | h
      · subst h; exact h2.trans (a3 hn)
      · exact h4 h
    · refine le_trans (le_min (a4 _ (min_le_left _ _) fun _ => ?_) (min_le_right _ _)) h5
      refine (min_le_right _ _).trans ?_
      cases b
      · exact min_le_left _ _
      · exact min_le_right _ _
theorem fold_max {o e : S} (ho : ¬ IsNaN o) (l : List Bool) (a : S) (ha : ¬ IsNaN a) :
    let r := l.foldl (fun a b => fmax a (if b then e else o)) a
    ¬ IsNaN r ∧ val a ≤ val r ∧ (¬ IsNaN e → (true ∈ l → val e ≤ val r) ∧ val r ≤ max (val a) (max (val o) (val e))) := by
  induction l generalizing a with
  | nil => exact ⟨ha, le_rfl, fun _ => ⟨by simp, le_max_left _ _⟩⟩
  | cons b l ih =>
    obtain ⟨a1, a2, a3, a4⟩ := fmax_step (s := a) (n := if b then e else o) ha
    obtain ⟨h1, h2, h3⟩ := ih (fmax a (if b then e else o)) a1
    refine ⟨h1, a2.trans h2, fun he => ?_⟩
    obtain ⟨h4, h5⟩ := h3 he
    have hn : ¬ IsNaN (if b then e else o) := by cases b <;> assumption
    constructor
    · intro hm
      rcases List.mem_cons.1 hm with h | h
      · subst h; exact (a3 hn).trans h2
      · exact h4 h
    · refine h5.trans (max_le (a4 _ (le_max_left _ _) fun _ => ?_) (le_max_right _ _))
      refine le_trans ?_ (le_max_right _ _)
      cases b
      · exact le_max_left _ _
      · exact le_max_right _ _
theorem fchain_val {o e : S} (ho : ¬ IsNaN o) (he : ¬ IsNaN e) {l : List Bool} (hl : true ∈ l) :
    ¬ IsNaN (fchainMin o e l) ∧ ¬ IsNaN (fchainMax o e l) ∧
    val (fchainMin o e l) = min (val o) (val e) ∧ val (fchainMax o e l) = max (val o) (val e) := by
  obtain ⟨h1, h2, h3⟩ := fold_min (e := e) ho l o ho
  obtain ⟨k1, k2, k3⟩ := fold_max (e := e) ho l o ho
  refine ⟨h1, k1, le_antisymm (le_min h2 ((h3 he).1 hl)) ?_, le_antisymm ?_ (max_le k2 ((k3 he).1 hl))⟩
  · refine le_trans ?_ (h3 he).2
    exact le_min (min_le_left _ _) le_rfl
  · exact (k3 he).2.trans (max_le (le_max_left _ _) le_rfl)
theorem fchain_beq {o e : S} (ho : ¬ IsNaN o) (he : ¬ IsNaN e) {l : List Bool} (hl : true ∈ l) :
    (fmin (fchainMin o e l) (fchainMax o e l) == fmin o e) = true ∧
    (fmax (fchainMin o e l) (fchainMax o e l) == fmax o e) = true := by
  obtain ⟨h1, h2, h3, h4⟩ := fchain_val ho he hl
  rw [beq_iff, beq_iff, val_min h1 h2, val_max h1 h2, h3, h4, val_min ho he, val_max ho he]
  refine ⟨⟨min_nn h1, min_nn ho, ?_⟩, ⟨max_nn h1, max_nn ho, ?_⟩⟩
  · exact min_eq_left (min_le_max)
  · exact max_eq_right (min_le_max)
theorem fchain_mem {o e : S} (ho : ¬ IsNaN o) (l : List Bool) :
    ((fmin (fchainMin o e l) (fchainMax o e l)) ≤? (fmax (fchainMin o e l) (fchainMax o e l))) = true ∧
    In1 (fmin (fchainMin o e l) (fchainMax o e l)) (fmax (fchainMin o e l) (fchainMax o e l)) o := by
  obtain ⟨h1, h2, -⟩ := fold_min (e := e) ho l o ho
  obtain ⟨k1, k2, -⟩ := fold_max (e := e) ho l o ho
  change ¬ IsNaN (fchainMin o e l) at h1
  change ¬ IsNaN (fchainMax o e l) at k1
  change val (fchainMin o e l) ≤ _ at h2
  change _ ≤ val (fchainMax o e l) at k2
  have m := val_min h1 k1
  have M := val_max h1 k1
  refine ⟨le_iff.2 ⟨min_nn h1, max_nn h1, ?_⟩, le_iff.2 ⟨min_nn h1, ho, ?_⟩, le_iff.2 ⟨ho, max_nn h1, ?_⟩⟩
  · rw [m, M]; exact min_le_max
  · rw [m]; exact (min_le_left _ _).trans h2
  · rw [M]; exact k2.trans (le_max_right _ _)
end

section
variable {F : Fmt}

theorem neg_one_le_small : (-Scalar.one ≤? small F) = true := by
  rw [le_real (finite_neg.2 finite_one) finite_small, real_neg, real_one]
  have := real_small_pos (F := F); linarith
/-- `1 + 2^-p` is half way to the next float and rounds to one, the even one. -/
theorem rnd_one_eps : F.rnd (1 + 2 ^ (-(F.p : ℤ))) ≤ 1 := by
  have hp := F.hp
  have hmin := F.hmin
  have pos : (0 : ℝ) < 2 ^ (-(F.p : ℤ)) := Fmt.z_pos _
  have lt1 : (2 : ℝ) ^ (-(F.p : ℤ)) < 1 := by
    rw [show (1 : ℝ) = 2 ^ (0 : ℤ) by simp]
    exact zpow_lt_zpow_right₀ (by norm_num) (by omega)
  have hl : Int.log 2 |1 + (2 : ℝ) ^ (-(F.p : ℤ))| = 0 := by
    rw [abs_of_pos (by linarith)]
    refine le_antisymm ?_ ?_
    · have := Fmt.log_lt (x := 1 + (2 : ℝ) ^ (-(F.p : ℤ))) (k := 1) (by linarith) (by
        rw [abs_of_pos (by linarith), zpow_one]; linarith)
      rw [abs_of_pos (by linarith)] at this; omega
    · have := Fmt.log_ge (x := 1 + (2 : ℝ) ^ (-(F.p : ℤ))) (k := 0) (by
        rw [abs_of_pos (by linarith)]; norm_num)
      rwa [abs_of_pos (by linarith)] at this
  have he : F.ex (1 + 2 ^ (-(F.p : ℤ))) = -((F.p : ℤ) - 1) := by
    unfold Fmt.ex; rw [hl]; omega
  unfold Fmt.rnd
  rw [he]
  have hd : (1 + (2 : ℝ) ^ (-(F.p : ℤ))) / 2 ^ (-((F.p : ℤ) - 1)) = ((2 ^ (F.p - 1) : ℤ) : ℝ) + 1 / 2 := by
    have e1 : (2 : ℝ) ^ (-((F.p : ℤ) - 1)) = 2 * 2 ^ (-(F.p : ℤ)) := by
      rw [← zpow_one_add₀ (by norm_num)]; congr 1; ring
    have e2 : ((2 ^ (F.p - 1) : ℤ) : ℝ) * 2 ^ (-((F.p : ℤ) - 1)) = 1 := by
      push_cast
      rw [← zpow_natCast, ← zpow_add₀ (by norm_num), show ((F.p - 1 : ℕ) : ℤ) + -((F.p : ℤ) - 1) = 0 by omega, zpow_zero]
    rw [div_eq_iff (Fmt.z_pos _).ne', add_mul, e2, e1]; ring
  rw [hd]
  have hr : rne (((2 ^ (F.p - 1) : ℤ) : ℝ) + 1 / 2) = 2 ^ (F.p - 1) := by
    have hfl : ⌊((2 ^ (F.p - 1) : ℤ) : ℝ) + 1 / 2⌋ = 2 ^ (F.p - 1) := by
      rw [Int.floor_intCast_add]; norm_num
    have hfr : Int.fract (((2 ^ (F.p - 1) : ℤ) : ℝ) + 1 / 2) = 1 / 2 := by
      rw [Int.fract_intCast_add]; norm_num
    have hev : Even (2 ^ (F.p - 1) : ℤ) := by
      obtain ⟨k, hk⟩ : ∃ k, F.p - 1 = k + 1 := ⟨F.p - 2, by omega⟩
      rw [hk, pow_succ]; exact even_two.mul_left _
    unfold rne
    rw [hfl, hfr]; simp [hev]
  rw [hr]
  have e2 : ((2 ^ (F.p - 1) : ℤ) : ℝ) * 2 ^ (-((F.p : ℤ) - 1)) = 1 := by
    push_cast
    rw [← zpow_natCast, ← zpow_add₀ (by norm_num), show ((F.p - 1 : ℕ) : ℤ) + -((F.p : ℤ) - 1) = 0 by omega, zpow_zero]
  exact e2.le
/-- `1 + 2^emin` rounds to one (at worst a tie, to even). -/
theorem rnd_one_small : F.rnd (real (small F) + 1) = 1 := by
  have hp := F.hp
  have hmin := F.hmin
  refine le_antisymm ?_ ?_
  · have hle : real (small F) + 1 ≤ 1 + 2 ^ (-(F.p : ℤ)) := by
      have : real (small F) ≤ 2 ^ (-(F.p : ℤ)) := by rw [real_small]; exact Fmt.z_le (by omega)
      linarith
    exact (F.rnd_mono hle).trans rnd_one_eps
  · have := F.rounding.rnd_one
    change F.rnd 1 = 1 at this
    conv_lhs => rw [← this]
    exact F.rnd_mono (by have := real_small_pos (F := F); linarith)
theorem small_sub_neg_one : IsFinite (small F - -Scalar.one) ∧ real (small F - -Scalar.one) = 1 := by
  have fn : IsFinite (-Scalar.one : Fl F) := finite_neg.2 finite_one
  have hs : real (small F) ≤ 1 := by
    rw [real_small, show (1 : ℝ) = 2 ^ (0 : ℤ) by simp]
    exact Fmt.z_le (by have := bound F; omega)
  have hf : IsFinite (small F - -Scalar.one) := by
    rw [(correct_sub finite_small fn).1, real_neg, real_one]
    have := three_le_overflow (S := Fl F)
    have := real_small_pos (F := F)
    rw [abs_of_pos (by linarith)]; linarith
  refine ⟨hf, ?_⟩
  rw [real_sub hf, rnd_eq, real_neg, real_one, sub_neg_eq_add]
  exact rnd_one_small
theorem identity_loses {o d q : Fl F} (ho : (o == -Scalar.one) = true) (hd : (d == small F - -Scalar.one) = true)
    (hq : (q == small F) = true) (l : List Bool) (h : (q ≤? fmax (fchainMin o (o + d) l) (fchainMax o (o + d) l)) = true) : False := by
  have fn : IsFinite (-Scalar.one : Fl F) := finite_neg.2 finite_one
  obtain ⟨no, -, vo⟩ := beq_iff.1 ho
  obtain ⟨nd, -, vd⟩ := beq_iff.1 hd
  obtain ⟨nq, -, vq⟩ := beq_iff.1 hq
  rw [fn.val, real_neg, real_one] at vo
  rw [small_sub_neg_one.1.val, small_sub_neg_one.2] at vd
  rw [finite_small.val] at vq
  have fo : IsFinite o := finite_iff.2 ⟨no, by rw [vo]; exact EReal.coe_ne_top _, by rw [vo]; exact EReal.coe_ne_bot _⟩
  have fd : IsFinite d := finite_iff.2 ⟨nd, by rw [vd]; exact EReal.coe_ne_top _, by rw [vd]; exact EReal.coe_ne_bot _⟩
  rw [fo.val, EReal.coe_eq_coe_iff] at vo
  rw [fd.val, EReal.coe_eq_coe_iff] at vd
  have fe : IsFinite (o + d) := by
    rw [(correct_add fo fd).1, vo, vd]
    have := three_le_overflow (S := Fl F)
    norm_num; linarith
  have re : real (o + d) = 0 := by
    rw [real_add fe, rnd_eq, vo, vd]; norm_num; exact Fmt.rnd_zero _
  obtain ⟨h1, -, h3⟩ := fold_min (e := o + d) no l o no
  obtain ⟨k1, k2, k3⟩ := fold_max (e := o + d) no l o no
  have hv := (le_iff.1 h).2.2
  have e1 : val (fchainMin o (o + d) l) ≤ 0 := by
    refine le_trans (show _ ≤ val o from (fold_min (e := o + d) no l o no).2.1) ?_
    rw [fo.val, vo]; norm_num
  have e2 : val (fchainMax o (o + d) l) ≤ 0 := by
    refine (k3 fe.not_nan).2.trans ?_
    rw [fo.val, fe.val, vo, re]; norm_num
  rw [val_max (show ¬ IsNaN (fchainMin o (o + d) l) from h1) (show ¬ IsNaN (fchainMax o (o + d) l) from k1), vq] at hv
  have := hv.trans (max_le e1 e2)
  have hp := real_small_pos (F := F)
  exact absurd (by exact_mod_cast this) (not_le.2 hp)
end

section
variable {S : Type} [Scalar S] [IEEE S] {F : Fmt}

/-! ### 2D -/

theorem box_eq2 (t : Transform2 S) (b : BoundingBox2 S) :
    let o : Point2 S := Transform.transform t b.min
    let d : Vector2 S := Transform.transform t b.diagonal
    (Transform.transform t b : BoundingBox2 S) =
      ⟨⟨fmin (fchainMin o.x (o.x + d.x) [true, false, true]) (fchainMax o.x (o.x + d.x) [true, false, true]), fmin (fchainMin o.y (o.y + d.y) [false, true, true]) (fchainMax o.y (o.y + d.y) [false, true, true])⟩,
       ⟨fmax (fchainMin o.x (o.x + d.x) [true, false, true]) (fchainMax o.x (o.x + d.x) [true, false, true]), fmax (fchainMin o.y (o.y + d.y) [false, true, true]) (fchainMax o.y (o.y + d.y) [false, true, true])⟩⟩ := rfl

/-- **C56** in floats (2D): the transformed box is, bit for bit up to the sign of zeros, the box spanned by the computed
image `o` of the min corner and by `o + d`, where `d` is the computed image of the diagonal — whenever neither is NaN. -/
theorem C56_float_span2 (t : Transform2 S) (b : BoundingBox2 S) (ho : NoNaN (Transform.transform t b.min : Point2 S))
    (hd : NoNaN ((Transform.transform t b.min : Point2 S) + (Transform.transform t b.diagonal : Vector2 S))) :
    ((Transform.transform t b : BoundingBox2 S) ==
      BoundingBox2.new (Transform.transform t b.min)
        ((Transform.transform t b.min : Point2 S) + (Transform.transform t b.diagonal : Vector2 S))) = true := by
  rw [box_eq2 t b]
  generalize (Transform.transform t b.min : Point2 S) = o at *
  generalize (Transform.transform t b.diagonal : Vector2 S) = d at *
  rw [Point2.noNaN] at ho hd
  rw [BoundingBox2.beq_iff, Point2.beq_iff, Point2.beq_iff]
  have c0 := fchain_beq ho.1 hd.1 (l := [true, false, true]) (by simp)
  have c1 := fchain_beq ho.2 hd.2 (l := [false, true, true]) (by simp)
  exact ⟨⟨c0.1, c1.1⟩, ⟨c0.2, c1.2⟩⟩

/-- **C56** in floats (2D): unless the computed image of the min corner has a NaN coordinate, the transformed box is
well-formed and contains that image, whatever the transform and the box. -/
theorem C56_float_min_corner2 (t : Transform2 S) (b : BoundingBox2 S) (ho : NoNaN (Transform.transform t b.min : Point2 S)) :
    LeAll (Transform.transform t b : BoundingBox2 S).min (Transform.transform t b : BoundingBox2 S).max ∧
    (Transform.transform t b : BoundingBox2 S).isInside (Transform.transform t b.min) = true := by
  rw [box_eq2 t b]
  generalize (Transform.transform t b.min : Point2 S) = o at *
  generalize (Transform.transform t b.diagonal : Vector2 S) = d at *
  rw [Point2.noNaN] at ho
  rw [Point2.leAll, isInside2_iff]
  have c0 := fchain_mem (e := o.x + d.x) ho.1 [true, false, true]
  have c1 := fchain_mem (e := o.y + d.y) ho.2 [false, true, true]
  exact ⟨⟨c0.1, c1.1⟩, c0.2, c1.2⟩

/-- **C56** is false in floats even for the identity (2D): in every binary format the transformed box can lose the
max corner of the box. -/
theorem C56_float_identity_loses2 : ∃ b : BoundingBox2 (Fl F), AllFinite b ∧ LeAll b.min b.max ∧
    b.isInside b.max = true ∧
    (Transform.transform (Transform2.identity : Transform2 (Fl F)) b : BoundingBox2 (Fl F)).isInside
      (Transform.transform (Transform2.identity : Transform2 (Fl F)) b.max) = false := by
  let b : BoundingBox2 (Fl F) := ⟨⟨-Scalar.one, -Scalar.one⟩, ⟨small F, small F⟩⟩
  have fmin : AllFinite b.min := Point2.allFinite.2 ⟨finite_neg.2 finite_one, finite_neg.2 finite_one⟩
  have fmax : AllFinite b.max := Point2.allFinite.2 ⟨finite_small, finite_small⟩
  have hle : LeAll b.min b.max := Point2.leAll.2 ⟨neg_one_le_small, neg_one_le_small⟩
  have fdiag : AllFinite b.diagonal := Vector2.allFinite.2 ⟨small_sub_neg_one.1, small_sub_neg_one.1⟩
  obtain ⟨i1, i2⟩ := C46_float_identity2 b.diagonal b.min fmin fdiag
  obtain ⟨i3, -⟩ := C46_float_identity2 b.diagonal b.max fmax fdiag
  refine ⟨b, BoundingBox2.allFinite.2 ⟨fmin, fmax⟩, hle, ?_, ?_⟩
  · rw [isInside2_iff]
    rw [Point2.leAll] at hle
    exact ⟨⟨hle.1, le_self finite_small.not_nan⟩, ⟨hle.2, le_self finite_small.not_nan⟩⟩
  rw [box_eq2, Bool.eq_false_iff, ne_eq, isInside2_iff]
  generalize (Transform.transform (Transform2.identity : Transform2 (Fl F)) b.min : Point2 (Fl F)) = o at *
  generalize (Transform.transform (Transform2.identity : Transform2 (Fl F)) b.diagonal : Vector2 (Fl F)) = d at *
  generalize (Transform.transform (Transform2.identity : Transform2 (Fl F)) b.max : Point2 (Fl F)) = q at *
  rw [Point2.beq_iff] at i1 i3
  rw [Vector2.beq_iff] at i2
  rintro ⟨⟨-, h⟩, -⟩
  exact identity_loses i1.1 i2.1 i3.1 [true, false, true] h

/-! ### 3D -/

theorem box_eq3 (t : Transform3 S) (b : BoundingBox3 S) :
    let o : Point3 S := Transform.transform t b.min
    let d : Vector3 S := Transform.transform t b.diagonal
    (Transform.transform t b : BoundingBox3 S) =
      ⟨⟨fmin (fchainMin o.x (o.x + d.x) [true, false, true, false, true, false, true]) (fchainMax o.x (o.x + d.x) [true, false, true, false, true, false, true]), fmin (fchainMin o.y (o.y + d.y) [false, true, true, false, false, true, true]) (fchainMax o.y (o.y + d.y) [false, true, true, false, false, true, true]), fmin (fchainMin o.z (o.z + d.z) [false, false, false, true, true, true, true]) (fchainMax o.z (o.z + d.z) [false, false, false, true, true, true, true])⟩,
       ⟨fmax (fchainMin o.x (o.x + d.x) [true, false, true, false, true, false, true]) (fchainMax o.x (o.x + d.x) [true, false, true, false, true, false, true]), fmax (fchainMin o.y (o.y + d.y) [false, true, true, false, false, true, true]) (fchainMax o.y (o.y + d.y) [false, true, true, false, false, true, true]), fmax (fchainMin o.z (o.z + d.z) [false, false, false, true, true, true, true]) (fchainMax o.z (o.z + d.z) [false, false, false, true, true, true, true])⟩⟩ := rfl

/-- **C56** in floats (3D): the transformed box is, bit for bit up to the sign of zeros, the box spanned by the computed
image `o` of the min corner and by `o + d`, where `d` is the computed image of the diagonal — whenever neither is NaN. -/
theorem C56_float_span3 (t : Transform3 S) (b : BoundingBox3 S) (ho : NoNaN (Transform.transform t b.min : Point3 S))
    (hd : NoNaN ((Transform.transform t b.min : Point3 S) + (Transform.transform t b.diagonal : Vector3 S))) :
    ((Transform.transform t b : BoundingBox3 S) ==
      BoundingBox3.new (Transform.transform t b.min)
        ((Transform.transform t b.min : Point3 S) + (Transform.transform t b.diagonal : Vector3 S))) = true := by
  rw [box_eq3 t b]
  generalize (Transform.transform t b.min : Point3 S) = o at *
  generalize (Transform.transform t b.diagonal : Vector3 S) = d at *
  rw [Point3.noNaN] at ho hd
  rw [BoundingBox3.beq_iff, Point3.beq_iff, Point3.beq_iff]
  have c0 := fchain_beq ho.1 hd.1 (l := [true, false, true, false, true, false, true]) (by simp)
  have c1 := fchain_beq ho.2.1 hd.2.1 (l := [false, true, true, false, false, true, true]) (by simp)
  have c2 := fchain_beq ho.2.2 hd.2.2 (l := [false, false, false, true, true, true, true]) (by simp)
  exact ⟨⟨c0.1, c1.1, c2.1⟩, ⟨c0.2, c1.2, c2.2⟩⟩

/-- **C56** in floats (3D): unless the computed image of the min corner has a NaN coordinate, the transformed box is
well-formed and contains that image, whatever the transform and the box. -/
theorem C56_float_min_corner3 (t : Transform3 S) (b : BoundingBox3 S) (ho : NoNaN (Transform.transform t b.min : Point3 S)) :
    LeAll (Transform.transform t b : BoundingBox3 S).min (Transform.transform t b : BoundingBox3 S).max ∧
    (Transform.transform t b : BoundingBox3 S).isInside (Transform.transform t b.min) = true := by
  rw [box_eq3 t b]
  generalize (Transform.transform t b.min : Point3 S) = o at *
  generalize (Transform.transform t b.diagonal : Vector3 S) = d at *
  rw [Point3.noNaN] at ho
  rw [Point3.leAll, isInside3_iff]
  have c0 := fchain_mem (e := o.x + d.x) ho.1 [true, false, true, false, true, false, true]
  have c1 := fchain_mem (e := o.y + d.y) ho.2.1 [false, true, true, false, false, true, true]
  have c2 := fchain_mem (e := o.z + d.z) ho.2.2 [false, false, false, true, true, true, true]
  exact ⟨⟨c0.1, c1.1, c2.1⟩, c0.2, c1.2, c2.2⟩

/-- **C56** is false in floats even for the identity (3D): in every binary format the transformed box can lose the
max corner of the box. -/
theorem C56_float_identity_loses3 : ∃ b : BoundingBox3 (Fl F), AllFinite b ∧ LeAll b.min b.max ∧
    b.isInside b.max = true ∧
    (Transform.transform (Transform3.identity : Transform3 (Fl F)) b : BoundingBox3 (Fl F)).isInside
      (Transform.transform (Transform3.identity : Transform3 (Fl F)) b.max) = false := by
  let b : BoundingBox3 (Fl F) := ⟨⟨-Scalar.one, -Scalar.one, -Scalar.one⟩, ⟨small F, small F, small F⟩⟩
  have fmin : AllFinite b.min := Point3.allFinite.2 ⟨finite_neg.2 finite_one, finite_neg.2 finite_one, finite_neg.2 finite_one⟩
  have fmax : AllFinite b.max := Point3.allFinite.2 ⟨finite_small, finite_small, finite_small⟩
  have hle : LeAll b.min b.max := Point3.leAll.2 ⟨neg_one_le_small, neg_one_le_small, neg_one_le_small⟩
  have fdiag : AllFinite b.diagonal := Vector3.allFinite.2 ⟨small_sub_neg_one.1, small_sub_neg_one.1, small_sub_neg_one.1⟩
  obtain ⟨i1, i2⟩ := C46_float_identity3 b.diagonal b.min fmin fdiag
  obtain ⟨i3, -⟩ := C46_float_identity3 b.diagonal b.max fmax fdiag
  refine ⟨b, BoundingBox3.allFinite.2 ⟨fmin, fmax⟩, hle, ?_, ?_⟩
  · rw [isInside3_iff]
    rw [Point3.leAll] at hle
    exact ⟨⟨hle.1, le_self finite_small.not_nan⟩, ⟨hle.2.1, le_self finite_small.not_nan⟩, ⟨hle.2.2, le_self finite_small.not_nan⟩⟩
  rw [box_eq3, Bool.eq_false_iff, ne_eq, isInside3_iff]
  generalize (Transform.transform (Transform3.identity : Transform3 (Fl F)) b.min : Point3 (Fl F)) = o at *
  generalize (Transform.transform (Transform3.identity : Transform3 (Fl F)) b.diagonal : Vector3 (Fl F)) = d at *
  generalize (Transform.transform (Transform3.identity : Transform3 (Fl F)) b.max : Point3 (Fl F)) = q at *
  rw [Point3.beq_iff] at i1 i3
  rw [Vector3.beq_iff] at i2
  rintro ⟨⟨-, h⟩, -⟩
  exact identity_loses i1.1 i2.1 i3.1 [true, false, true, false, true, false, true] h

end
end VecMath

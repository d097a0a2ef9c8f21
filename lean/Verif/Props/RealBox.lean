import Verif.Lemmas.Slab
import Verif.Props.FloatBoxMeasure
import Verif.Props.RealTransform
/-!
# Bounding boxes in exact real arithmetic (layer R): C31, C32, C35, C37, C56

(Generated by tools/gen/genrb.py.)
-/

set_option linter.unusedSimpArgs false
set_option linter.unusedVariables false

namespace VecMath
open Scalar IEEE
open scoped Matrix

/-- `min` of `o` and then, for each flag, of `e` or `o`. -/
noncomputable def chainMin (o e : Ideal) (l : List Bool) : Ideal := l.foldl (fun a b => fmin a (if b then e else o)) o
/-- see `chainMin` -/
noncomputable def chainMax (o e : Ideal) (l : List Bool) : Ideal := l.foldl (fun a b => fmax a (if b then e else o)) o
theorem chain_spec {o e : Ideal} (ho : IsFinite o) (he : IsFinite e) {l : List Bool} (hl : true ∈ l) :
    IsFinite (fmin (chainMin o e l) (chainMax o e l)) ∧ IsFinite (fmax (chainMin o e l) (chainMax o e l)) ∧
    real (fmin (chainMin o e l) (chainMax o e l)) = min (real o) (real e) ∧
    real (fmax (chainMin o e l) (chainMax o e l)) = max (real o) (real e) := by
  have k1 : ∀ (l : List Bool) (a : Ideal), IsFinite a → min (real o) (real e) ≤ real a → real a ≤ real o →
      IsFinite (l.foldl (fun a b => fmin a (if b then e else o)) a) ∧
      min (real o) (real e) ≤ real (l.foldl (fun a b => fmin a (if b then e else o)) a) ∧
      real (l.foldl (fun a b => fmin a (if b then e else o)) a) ≤ real a ∧
      (true ∈ l → real (l.foldl (fun a b => fmin a (if b then e else o)) a) ≤ real e) := by
    intro l
    induction l with
    | nil => intro a ha h1 h2; simp [ha, h1]
    | cons b l ih =>
      intro a ha h1 h2
      have fx : IsFinite (if b then e else o) := by split_ifs <;> assumption
      have rx : real (fmin a (if b then e else o)) = min (real a) (real (if b then e else o)) := Ideal.real_min ha fx
      have := ih (fmin a (if b then e else o)) (Ideal.finite_min ha fx)
        (by rw [rx]; exact le_min h1 (by split_ifs <;> simp)) (by rw [rx]; exact (min_le_left _ _).trans h2)
      rw [List.foldl_cons]
      refine ⟨this.1, this.2.1, this.2.2.1.trans (by rw [rx]; exact min_le_left _ _), fun hm => ?_⟩
      rcases List.mem_cons.1 hm with h | h
      · subst h; exact this.2.2.1.trans (by rw [rx]; exact min_le_right _ _)
      · exact this.2.2.2 h
  have k2 : ∀ (l : List Bool) (a : Ideal), IsFinite a → real a ≤ max (real o) (real e) → real o ≤ real a →
      IsFinite (l.foldl (fun a b => fmax a (if b then e else o)) a) ∧
      real (l.foldl (fun a b => fmax a (if b then e else o)) a) ≤ max (real o) (real e) ∧
      real a ≤ real (l.foldl (fun a b => fmax a (if b then e else o)) a) ∧
      (true ∈ l → real e ≤ real (l.foldl (fun a b => fmax a (if b then e else o)) a)) := by
    intro l
    induction l with
    | nil => intro a ha h1 h2; simpa [ha] using h1
    | cons b l ih =>
      intro a ha h1 h2
      have fx : IsFinite (if b then e else o) := by split_ifs <;> assumption
      have rx : real (fmax a (if b then e else o)) = max (real a) (real (if b then e else o)) := Ideal.real_max ha fx
      have := ih (fmax a (if b then e else o)) (Ideal.finite_max ha fx)
        (by rw [rx]; exact max_le h1 (by split_ifs <;> simp)) (by rw [rx]; exact h2.trans (le_max_left _ _))
      rw [List.foldl_cons]
      refine ⟨this.1, this.2.1, le_trans (by rw [rx]; exact le_max_left _ _) this.2.2.1, fun hm => ?_⟩
      rcases List.mem_cons.1 hm with h | h
      · subst h; exact le_trans (by rw [rx]; exact le_max_right _ _) this.2.2.1
      · exact this.2.2.2 h
  have ⟨f1, l1, u1, m1⟩ := k1 l o ho (min_le_left _ _) le_rfl
  obtain ⟨f2, l2, u2, m2⟩ := k2 l o ho (le_max_left _ _) le_rfl
  have e1 : real (chainMin o e l) = min (real o) (real e) := le_antisymm (le_min u1 (m1 hl)) l1
  have e2 : real (chainMax o e l) = max (real o) (real e) := le_antisymm l2 (max_le u2 (m2 hl))
  change IsFinite (chainMin o e l) at f1
  change IsFinite (chainMax o e l) at f2
  have hle : min (real o) (real e) ≤ max (real o) (real e) := min_le_max
  refine ⟨Ideal.finite_min f1 f2, Ideal.finite_max f1 f2, ?_, ?_⟩
  · rw [Ideal.real_min f1 f2]
    show min (real (chainMin o e l)) (real (chainMax o e l)) = _
    rw [e1, e2, min_eq_left hle]
  · rw [Ideal.real_max f1 f2]
    show max (real (chainMin o e l)) (real (chainMax o e l)) = _
    rw [e1, e2, max_eq_right hle]

/-! ## BoundingBox2 -/
section
variable {b a : BoundingBox2 Ideal} {p q : Point2 Ideal} {t : Transform2 Ideal}

theorem BoundingBox2.inside_real (hb : AllFinite b) (hp : AllFinite p) :
    b.isInside p = true ↔ ∀ i, b.min.toReal i ≤ p.toReal i ∧ p.toReal i ≤ b.max.toReal i := by
  rw [BoundingBox2.allFinite, Point2.allFinite, Point2.allFinite] at hb
  rw [Point2.allFinite] at hp
  rw [isInside2_iff]
  simp only [In1, Ideal.le_real, hb, hp, Point2.toReal]
  simp [Fin.forall_fin_succ]
theorem BoundingBox2.wf_real (hb : AllFinite b) : LeAll b.min b.max ↔ ∀ i, b.min.toReal i ≤ b.max.toReal i := by
  rw [BoundingBox2.allFinite, Point2.allFinite, Point2.allFinite] at hb
  rw [wf2_iff]
  simp only [Ideal.le_real, hb, Point2.toReal]
  simp [Fin.forall_fin_succ]
theorem BoundingBox2.fin_diagonal (hb : AllFinite b) : AllFinite b.diagonal := by
  rw [BoundingBox2.allFinite] at hb; exact Vector2.fin_subp hb.2 hb.1
theorem BoundingBox2.toReal_diagonal (hb : AllFinite b) : b.diagonal.toReal = b.max.toReal - b.min.toReal := by
  rw [BoundingBox2.allFinite] at hb; exact Vector2.toReal_subp hb.2 hb.1

/-- The box of given real corners. -/
noncomputable def Point2.ofReal (f : Fin 2 → ℝ) : Point2 Ideal := ⟨.of (f 0), .of (f 1)⟩
theorem Point2.fin_ofReal (f : Fin 2 → ℝ) : AllFinite (Point2.ofReal f) := by rw [Point2.allFinite]; exact ⟨trivial, trivial⟩
theorem Point2.toReal_ofReal (f : Fin 2 → ℝ) : (Point2.ofReal f).toReal = f := by
  ext i; fin_cases i <;> rfl

/-! ### C31, C32 -/

/-- **C31**: the extents and measures are the geometric ones. -/
theorem C31_real2 (b : BoundingBox2 Ideal) (hb : AllFinite b) :
    real b.width = b.max.toReal 0 - b.min.toReal 0 ∧ real b.height = b.max.toReal 1 - b.min.toReal 1 ∧ real b.area = (b.max.toReal 0 - b.min.toReal 0) * (b.max.toReal 1 - b.min.toReal 1) := by
  rw [BoundingBox2.allFinite, Point2.allFinite, Point2.allFinite] at hb
  simp (maxDischargeDepth := 20) only [BoundingBox2.area, BoundingBox2.width, BoundingBox2.height, BoundingBox2.size, BoundingBox2.diagonal_x, BoundingBox2.diagonal_y,
    Ideal.real_sub, Ideal.real_mul, Ideal.real_add, Ideal.finite_sub, Ideal.finite_mul, Ideal.finite_add, finite_two, real_two, hb, Point2.toReal]
  simp
/-- **C31**: a box inside another one is smaller in every extent and measure. -/
theorem C31_real_monotone2 (a b : BoundingBox2 Ideal) (ha : AllFinite a) (hb : AllFinite b) (wa : LeAll a.min a.max)
    (h : ∀ p, a.isInside p = true → b.isInside p = true) :
    (∀ d, (a.extent d ≤? b.extent d) = true) ∧ (a.area ≤? b.area) = true := by
  have h1 := h _ (wf2_min wa)
  have h2 := h _ (wf2_max wa)
  rw [BoundingBox2.wf_real ha] at wa
  have ha' := ha
  have hb' := hb
  rw [BoundingBox2.allFinite] at ha' hb'
  rw [BoundingBox2.inside_real hb ha'.1] at h1
  rw [BoundingBox2.inside_real hb ha'.2] at h2
  have key : ∀ i, 0 ≤ a.max.toReal i - a.min.toReal i ∧
      a.max.toReal i - a.min.toReal i ≤ b.max.toReal i - b.min.toReal i :=
    fun i => ⟨by linarith [wa i], by linarith [(h1 i).1, (h2 i).2]⟩
  obtain ⟨ea0, ea1, ma0⟩ := C31_real2 a ha
  obtain ⟨eb0, eb1, mb0⟩ := C31_real2 b hb
  have fin : ∀ b : BoundingBox2 Ideal, AllFinite b → (∀ d, IsFinite (b.extent d)) ∧ IsFinite b.area := by
    intro b hb
    rw [BoundingBox2.allFinite, Point2.allFinite, Point2.allFinite] at hb
    refine ⟨fun d => ?_, ?_⟩
    · cases d <;> simp only [BoundingBox2.extent, BoundingBox2.area, BoundingBox2.width, BoundingBox2.height, BoundingBox2.size, BoundingBox2.diagonal_x, BoundingBox2.diagonal_y, Ideal.finite_sub, hb]
    all_goals simp (maxDischargeDepth := 20) only [BoundingBox2.area, BoundingBox2.width, BoundingBox2.height, BoundingBox2.size, BoundingBox2.diagonal_x, BoundingBox2.diagonal_y, Ideal.finite_sub, Ideal.finite_mul, Ideal.finite_add, finite_two, hb]
  have fa := fin a ha
  have fb := fin b hb
  obtain ⟨k0, l0⟩ := key 0
  obtain ⟨k1, l1⟩ := key 1
  refine ⟨fun d => ?_, ?_⟩
  · rw [Ideal.le_real (fa.1 d) (fb.1 d)]
    cases d
    · show real a.width ≤ real b.width; rw [ea0, eb0]; exact l0
    · show real a.height ≤ real b.height; rw [ea1, eb1]; exact l1
  · rw [Ideal.le_real fa.2 fb.2, ma0, mb0]; exact mul_le_mul l0 l1 k1 (k0.trans l0)


/-- **C32**: the center is the midpoint of the two corners, inside the box, and at half the diagonal's length from
every corner. -/
theorem C32_real2 (b : BoundingBox2 Ideal) (hb : AllFinite b) (wb : LeAll b.min b.max) :
    AllFinite b.center ∧ (∀ i, b.center.toReal i = (b.min.toReal i + b.max.toReal i) / 2) ∧ b.isInside b.center = true ∧
    ∀ (build : Build) (index : UInt32) (p : Point2 Ideal), b.corner build index = .ok p →
      (Api.distance b.center p == Api.length b.diagonal * half) = true := by
  have hb' := hb
  rw [BoundingBox2.allFinite] at hb'
  have fd := BoundingBox2.fin_diagonal hb
  have fh := Vector2.fin_mul fd finite_half
  have fc : AllFinite b.center := Point2.fin_addv hb'.1 fh
  have hc : ∀ i, b.center.toReal i = (b.min.toReal i + b.max.toReal i) / 2 := by
    intro i
    show (b.min + b.diagonal * (half : Ideal)).toReal i = _
    rw [Point2.toReal_addv hb'.1 fh, Vector2.toReal_mul fd finite_half, BoundingBox2.toReal_diagonal hb, real_half]
    simp; ring
  refine ⟨fc, hc, ?_, ?_⟩
  · rw [BoundingBox2.inside_real hb fc]
    rw [BoundingBox2.wf_real hb] at wb
    intro i; rw [hc]; constructor <;> linarith [wb i]
  · intro build index p hp
    obtain ⟨h1, h2, h3⟩ := C33_corner2 b index
    have hrel : b.corner .release index = .ok p := by
      cases build
      · by_cases hi : index < 4
        · rw [← h2 hi]; exact hp
        · rw [h3 hi] at hp; cases hp
      · exact hp
    have hpe := Except.ok.inj (hrel.symm.trans h1)
    have hb'' := hb'
    rw [Point2.allFinite, Point2.allFinite] at hb''
    have hp' : ∀ i, p.toReal i = b.min.toReal i ∨ p.toReal i = b.max.toReal i := by
      intro i
      rw [hpe]
      fin_cases i <;> simp only [Point2.toReal] <;> simp <;> split_ifs <;> simp
    have fp : AllFinite p := by
      rw [hpe, Point2.allFinite]
      refine ⟨?_, ?_⟩ <;> (dsimp only; split_ifs <;> simp only [hb''])
    have fs := Vector2.fin_subp fp fc
    have fl := Vector2.fin_length fd
    rw [Ideal.beq_real (Point2.fin_distance fc fp) (Ideal.finite_mul fl finite_half), Point2.distance_def, Vector2.real_length' fs,
      Ideal.real_mul fl finite_half, Vector2.real_length' fd, real_half]
    have e : ((p - b.center).toReal ⬝ᵥ (p - b.center).toReal) = (1 / 2) ^ 2 * (b.diagonal.toReal ⬝ᵥ b.diagonal.toReal) := by
      rw [Vector2.toReal_subp fp fc, BoundingBox2.toReal_diagonal hb]
      unfold dotProduct
      rw [Finset.mul_sum]
      refine Finset.sum_congr rfl fun i _ => ?_
      simp only [Pi.sub_apply, hc]
      rcases hp' i with h | h <;> rw [h] <;> ring
    rw [e, Real.sqrt_mul (by positivity), Real.sqrt_sq (by norm_num), mul_comm]

/-! ### C35, C37: ray against box -/

theorem BoundingBox2.ray_inside (hb : AllFinite b) {ray : Ray2 Ideal} (hr : AllFinite ray) {s : Ideal} (hs : IsFinite s) :
    b.isInside (ray.at s) = true ↔ (real b.min.x ≤ real ray.origin.x + real ray.direction.x * real s ∧ real ray.origin.x + real ray.direction.x * real s ≤ real b.max.x) ∧ (real b.min.y ≤ real ray.origin.y + real ray.direction.y * real s ∧ real ray.origin.y + real ray.direction.y * real s ≤ real b.max.y) := by
  rw [Ray2.allFinite] at hr
  have fp : AllFinite (ray.at s) := Point2.fin_addv hr.1 (Vector2.fin_mul hr.2 hs)
  rw [BoundingBox2.inside_real hb fp]
  have e : ∀ i, (ray.at s).toReal i = ray.origin.toReal i + ray.direction.toReal i * real s := by
    intro i
    show (ray.origin + ray.direction * s).toReal i = _
    rw [Point2.toReal_addv hr.1 (Vector2.fin_mul hr.2 hs), Vector2.toReal_mul hr.2 hs]
    simp [mul_comm]
  simp only [e]
  simp [Fin.forall_fin_succ, Point2.toReal, Vector2.toReal]

/-- In no dimension does the ray run inside exactly one of the two planes bounding the box. -/
def FaceFree2 (b : BoundingBox2 Ideal) (ray : Ray2 Ideal) : Prop :=
  ∀ i : Fin 2, ray.direction.toReal i = 0 → (ray.origin.toReal i = b.min.toReal i ↔ ray.origin.toReal i = b.max.toReal i)

theorem faceFree2_iff {b : BoundingBox2 Ideal} {ray : Ray2 Ideal} :
    FaceFree2 b ray ↔ Slab.Good b.min.x b.max.x ray.origin.x ray.direction.x ∧ Slab.Good b.min.y b.max.y ray.origin.y ray.direction.y := by
  unfold FaceFree2 Slab.Good
  simp only [Fin.forall_fin_succ, Point2.toReal, Vector2.toReal]
  simp only [Matrix.cons_val_zero, Matrix.cons_val_succ, IsEmpty.forall_iff, and_true]
  have key : ∀ d o lo hi : ℝ, (d = 0 → (o = lo ↔ o = hi)) ↔ (d ≠ 0 ∨ (o ≠ lo ∧ o ≠ hi) ∨ lo = hi) := by
    intro d o lo hi
    grind
  exact ⟨fun h => ⟨(key _ _ _ _).1 h.1, (key _ _ _ _).1 h.2⟩, fun h => ⟨(key _ _ _ _).2 h.1, (key _ _ _ _).2 h.2⟩⟩

theorem BoundingBox2.ray_spec (hb : AllFinite b) (wb : LeAll b.min b.max) {ray : Ray2 Ideal} (hr : AllFinite ray)
    (hd : ray.direction.toReal ≠ 0) :
    (FaceFree2 b ray → ∃ s e : Ideal, ¬ IsNaN s ∧ ¬ IsNaN e ∧ 0 ≤ val s ∧ val e < ⊤ ∧
      (Api.intersect b ray = if s ≤? e then some ⟨s, e⟩ else (none : Option (Range Ideal))) ∧
      ∀ t : ℝ, (val s ≤ t ∧ (t : EReal) ≤ val e) ↔ 0 ≤ t ∧ (real b.min.x ≤ real ray.origin.x + real ray.direction.x * t ∧ real ray.origin.x + real ray.direction.x * t ≤ real b.max.x) ∧ (real b.min.y ≤ real ray.origin.y + real ray.direction.y * t ∧ real ray.origin.y + real ray.direction.y * t ≤ real b.max.y)) ∧
    (¬ FaceFree2 b ray → Api.intersect b ray = (none : Option (Range Ideal))) := by
  rw [BoundingBox2.allFinite, Point2.allFinite, Point2.allFinite] at hb
  rw [wf2_iff] at wb
  rw [Ray2.allFinite, Point2.allFinite, Vector2.allFinite] at hr
  have z0 : ¬ IsNaN (zero : Ideal) := not_nan_zero
  have i0 : ¬ IsNaN (infinity : Ideal) := Slab.not_nan_of_inf den_infinity
  have vz : val (zero : Ideal) = 0 := by rw [finite_zero.val, real_zero]; rfl
  have vi : val (infinity : Ideal) = ⊤ := Slab.val_of_inf den_infinity
  have hd0 : real ray.direction.x ≠ 0 ∨ real ray.direction.y ≠ 0 := by
    by_contra hc
    simp only [not_or, not_not] at hc
    apply hd
    ext i; fin_cases i <;> simp [Vector2.toReal, hc]
  have w1 := (Ideal.le_real hb.1.1 hb.2.1).1 wb.1
  have w2 := (Ideal.le_real hb.1.2 hb.2.2).1 wb.2
  rw [faceFree2_iff]
  change (_ → ∃ s e : Ideal, _ ∧ _ ∧ _ ∧ _ ∧ b.intersectRay ray = _ ∧ _) ∧ (_ → b.intersectRay ray = _)
  set s1 : Ideal := fmax zero (Slab.near b.min.x b.max.x ray.origin.x ray.direction.x) with hs1
  set e1 : Ideal := fmin infinity (Slab.far b.min.x b.max.x ray.origin.x ray.direction.x) with he1
  set s2 : Ideal := fmax s1 (Slab.near b.min.y b.max.y ray.origin.y ray.direction.y) with hs2
  set e2 : Ideal := fmin e1 (Slab.far b.min.y b.max.y ray.origin.y ray.direction.y) with he2
  have hI : b.intersectRay ray = if s1 >? e1 then none else if s2 ≤? e2 then some ⟨s2, e2⟩ else none := rfl
  rw [hI]
  constructor
  · intro hg
    have g1 := Slab.step_good hb.1.1 hb.2.1 hr.1.1 hr.2.1 w1 hg.1 z0 i0
    rw [← hs1, ← he1] at g1
    have g2 := Slab.step_good hb.1.2 hb.2.2 hr.1.2 hr.2.2 w2 hg.2 g1.1.1 g1.1.2.1
    rw [← hs2, ← he2] at g2
    refine ⟨s2, e2, g2.1.1, g2.1.2.1, ?_, ?_, ?_, ?_⟩
    · rw [← vz]; exact (g1.1.2.2.1.trans g2.1.2.2.1)
    · rcases hd0 with h | h
      · exact (lt_of_le_of_lt g2.1.2.2.2 (g1.2.1 h))
      · exact (g2.2.1 h)
    · have c1 : (s1 >? e1) = true → ¬ (s2 ≤? e2) = true := by
        intro h h'
        have h := (lt_of_not_nan g1.1.2.1 g1.1.1).1 h
        have h' := (le_of_not_nan g2.1.1 g2.1.2.1).1 h'
        exact absurd (h.trans_le (g2.1.2.2.1.trans (h'.trans g2.1.2.2.2))) (lt_irrefl _)
      split_ifs with h1 h2 <;> first | rfl | (exfalso; first | exact c1 ‹_› ‹_›)
    · intro u
      rw [g2.2.2 u, g1.2.2 u, vz, vi, EReal.coe_nonneg]
      simp only [le_top, and_true]
      tauto
  · intro hg
    have f1 : ¬ IsNaN s1 ∧ ¬ IsNaN e1 ∧ val (zero : Ideal) ≤ val s1 ∧ val e1 ≤ val (infinity : Ideal) := by
      by_cases h : Slab.Good b.min.x b.max.x ray.origin.x ray.direction.x
      · exact (Slab.step_good hb.1.1 hb.2.1 hr.1.1 hr.2.1 w1 h z0 i0).1
      · exact (Slab.step_face hb.1.1 hb.2.1 hr.1.1 hr.2.1 h z0 i0).1
    have f2 : ¬ IsNaN s2 ∧ ¬ IsNaN e2 ∧ val s1 ≤ val s2 ∧ val e2 ≤ val e1 := by
      by_cases h : Slab.Good b.min.y b.max.y ray.origin.y ray.direction.y
      · exact (Slab.step_good hb.1.2 hb.2.2 hr.1.2 hr.2.2 w2 h f1.1 f1.2.1).1
      · exact (Slab.step_face hb.1.2 hb.2.2 hr.1.2 hr.2.2 h f1.1 f1.2.1).1
    have inf : val s2 = ⊤ ∨ val e2 = ⊥ := by
      rw [not_and_or] at hg
      rcases hg with h | h
      · rcases (Slab.step_face hb.1.1 hb.2.1 hr.1.1 hr.2.1 h z0 i0).2 with h | h
        · rw [← hs1] at h; left; exact top_le_iff.1 (h.symm.le.trans (f2.2.2.1))
        · rw [← he1] at h; right; exact le_bot_iff.1 (f2.2.2.2.trans (h.le))
      · rcases (Slab.step_face hb.1.2 hb.2.2 hr.1.2 hr.2.2 h f1.1 f1.2.1).2 with h | h
        · rw [← hs2] at h; left; exact top_le_iff.1 (h.symm.le)
        · rw [← he2] at h; right; exact le_bot_iff.1 (h.le)
    have htop : val e2 < ⊤ := by
      rcases hd0 with h | h
      · exact (lt_of_le_of_lt f2.2.2.2 ((Slab.step_good hb.1.1 hb.2.1 hr.1.1 hr.2.1 w1 (.inl h) z0 i0).2.1 h))
      · exact ((Slab.step_good hb.1.2 hb.2.2 hr.1.2 hr.2.2 w2 (.inl h) f1.1 f1.2.1).2.1 h)
    have h0 : 0 ≤ val s2 := by rw [← vz]; exact (f1.2.2.1.trans f2.2.2.1)
    have : ¬ (s2 ≤? e2) = true := by
      rw [le_of_not_nan f2.1 f2.2.1, not_le]
      rcases inf with h | h
      · rw [h]; exact htop
      · rw [h]; exact lt_of_lt_of_le EReal.bot_lt_zero h0
    split_ifs <;> rfl

/-- **C35**: for a finite well-formed box and a finite ray with nonzero direction that does not run inside a face
plane, `intersect` returns exactly the interval of parameters `t >= 0` at which the ray is inside the box (a finite
interval), and `None` exactly if there is none. -/
theorem C35_real2 (b : BoundingBox2 Ideal) (hb : AllFinite b) (wb : LeAll b.min b.max) (ray : Ray2 Ideal) (hr : AllFinite ray)
    (hd : ray.direction.toReal ≠ 0) (hf : FaceFree2 b ray) :
    (∀ r : Range Ideal, Api.intersect b ray = some r → IsFinite r.start ∧ IsFinite r.stop ∧
      ∀ t : Ideal, IsFinite t →
        ((zero ≤? t) = true ∧ b.isInside (ray.at t) = true ↔ (r.start ≤? t) = true ∧ (t ≤? r.stop) = true)) ∧
    (Api.intersect b ray = (none : Option (Range Ideal)) ↔
      ∀ t : Ideal, IsFinite t → (zero ≤? t) = true → b.isInside (ray.at t) = false) := by
  obtain ⟨s, e, ns, ne, hs0, het, hI, ht⟩ := (BoundingBox2.ray_spec hb wb hr hd).1 hf
  have fin : val s ≤ val e → IsFinite s ∧ IsFinite e := by
    intro h
    exact ⟨finite_iff.2 ⟨ns, (lt_of_le_of_lt h het).ne, (lt_of_lt_of_le EReal.bot_lt_zero hs0).ne'⟩,
      finite_iff.2 ⟨ne, het.ne, (lt_of_lt_of_le EReal.bot_lt_zero (hs0.trans h)).ne'⟩⟩
  have ht' : ∀ t : Ideal, IsFinite t → ((zero ≤? t) = true ∧ b.isInside (ray.at t) = true ↔
      (val s ≤ (real t : EReal) ∧ (real t : EReal) ≤ val e)) := by
    intro t h
    rw [ht, BoundingBox2.ray_inside hb hr h, Ideal.le_real finite_zero h, real_zero]
  rw [hI]
  constructor
  · intro r hr
    split_ifs at hr with hse
    obtain rfl := Option.some.inj hr
    obtain ⟨fs, fe⟩ := fin ((le_of_not_nan ns ne).1 hse)
    refine ⟨fs, fe, fun t h => ?_⟩
    rw [ht' t h, le_of_not_nan ns h.not_nan, le_of_not_nan h.not_nan ne, h.val]
  · constructor
    · intro h t hft h0
      split_ifs at h with hse
      rw [Bool.eq_false_iff]
      intro hi
      have := (ht' t hft).1 ⟨h0, hi⟩
      exact hse ((le_of_not_nan ns ne).2 (this.1.trans this.2))
    · intro h
      split_ifs with hse
      · have hle := (le_of_not_nan ns ne).1 hse
        obtain ⟨fs, fe⟩ := fin hle
        have := (ht' s fs).2 ⟨by rw [fs.val], by rw [← fs.val]; exact hle⟩
        have h2 := h s fs this.1
        rw [this.2] at h2; cases h2
      · rfl

/-- **C37** is false of the code: whenever the ray runs inside a face plane of the box (in some dimension its
direction is zero and its origin is on exactly one of the two planes), `intersect` returns `None`, whether or not the
ray passes through that face. -/
theorem C37_real2 (b : BoundingBox2 Ideal) (hb : AllFinite b) (wb : LeAll b.min b.max) (ray : Ray2 Ideal) (hr : AllFinite ray)
    (hd : ray.direction.toReal ≠ 0) (hf : ¬ FaceFree2 b ray) :
    Api.intersect b ray = (none : Option (Range Ideal)) :=
  (BoundingBox2.ray_spec hb wb hr hd).2 hf

/-! ### C56: transforming a box -/

/-- **C56**: for an affine transform, the code computes the box spanned by the images of the two extreme corners. -/
theorem C56_real_span2 (t : Transform2 Ideal) (ht : AllFinite t.forward) (ha : t.forward.Affine) (b : BoundingBox2 Ideal) (hb : AllFinite b) :
    AllFinite (Transform.transform t b : BoundingBox2 Ideal) ∧
    (∀ i, (Transform.transform t b : BoundingBox2 Ideal).min.toReal i =
      min ((Transform.transform t b.min : Point2 Ideal).toReal i) ((Transform.transform t b.max : Point2 Ideal).toReal i)) ∧
    (∀ i, (Transform.transform t b : BoundingBox2 Ideal).max.toReal i =
      max ((Transform.transform t b.min : Point2 Ideal).toReal i) ((Transform.transform t b.max : Point2 Ideal).toReal i)) := by
  have hb' := hb
  rw [BoundingBox2.allFinite] at hb'
  have fd := BoundingBox2.fin_diagonal hb
  have fo := ha.fin_mulp ht hb'.1
  have fv := Matrix3x3.fin_mulv ht fd
  have e : ∀ i, (t.forward * b.max).toReal i = (t.forward * b.min).toReal i + (t.forward * b.diagonal).toReal i := by
    intro i
    rw [ha.toReal_mulp ht hb'.1, ha.toReal_mulp ht hb'.2, Matrix3x3.toReal_mulv' ht fd, BoundingBox2.toReal_diagonal hb, Matrix.mulVec_sub]
    simp only [Pi.add_apply, Pi.sub_apply]; ring
  simp only [Transform2.tr_point]
  simp only [e]
  have hT : (Transform.transform t b : BoundingBox2 Ideal) =
      (fun (mm : Point2 Ideal × Point2 Ideal) => BoundingBox2.new mm.1 mm.2)
        ([1, 2, 3].foldl (Transform2.boxStep (t.forward * b.min) (t.forward * b.diagonal)) (t.forward * b.min, t.forward * b.min)) := rfl
  rw [hT]
  generalize (t.forward * b.min : Point2 Ideal) = o at *
  generalize (t.forward * b.diagonal : Vector2 Ideal) = d at *
  rw [Point2.allFinite] at fo
  rw [Vector2.allFinite] at fv
  have hF : (fun (mm : Point2 Ideal × Point2 Ideal) => BoundingBox2.new mm.1 mm.2) ([1, 2, 3].foldl (Transform2.boxStep o d) (o, o)) =
      ⟨⟨fmin (chainMin o.x (o.x + d.x) [true, false, true]) (chainMax o.x (o.x + d.x) [true, false, true]), fmin (chainMin o.y (o.y + d.y) [false, true, true]) (chainMax o.y (o.y + d.y) [false, true, true])⟩,
       ⟨fmax (chainMin o.x (o.x + d.x) [true, false, true]) (chainMax o.x (o.x + d.x) [true, false, true]), fmax (chainMin o.y (o.y + d.y) [false, true, true]) (chainMax o.y (o.y + d.y) [false, true, true])⟩⟩ := rfl
  rw [hF]
  have c0 := chain_spec fo.1 (Ideal.finite_add fo.1 fv.1) (l := [true, false, true]) (by simp)
  rw [Ideal.real_add fo.1 fv.1] at c0
  have c1 := chain_spec fo.2 (Ideal.finite_add fo.2 fv.2) (l := [false, true, true]) (by simp)
  rw [Ideal.real_add fo.2 fv.2] at c1
  refine ⟨?_, fun i => ?_, fun i => ?_⟩
  · rw [BoundingBox2.allFinite, Point2.allFinite, Point2.allFinite]
    exact ⟨⟨c0.1, c1.1⟩, ⟨c0.2.1, c1.2.1⟩⟩
  · fin_cases i
    · exact c0.2.2.1
    · exact c1.2.2.1
  · fin_cases i
    · exact c0.2.2.2
    · exact c1.2.2.2

theorem C56_monotone2 {t : Transform2 Ideal} (ht : AllFinite t.forward) (ha : t.forward.Affine) {b : BoundingBox2 Ideal} (hb : AllFinite b)
    (wb : LeAll b.min b.max) {p : Point2 Ideal} (hp : AllFinite p) :
    (Transform.transform t b : BoundingBox2 Ideal).isInside (Transform.transform t p : Point2 Ideal) = true ↔
      ∀ i, min ((t.forward * b.min).toReal i) ((t.forward * b.max).toReal i) ≤ (t.forward * p).toReal i ∧
        (t.forward * p).toReal i ≤ max ((t.forward * b.min).toReal i) ((t.forward * b.max).toReal i) := by
  obtain ⟨f, h1, h2⟩ := C56_real_span2 t ht ha b hb
  rw [Transform2.tr_point t p, BoundingBox2.inside_real f (ha.fin_mulp ht hp)]
  simp only [h1, h2]; rfl

/-- **C56**, the exact truth: the transformed box contains the images of all points of every box if and only if no row
of the linear part of the transform has entries of opposite signs. -/
theorem C56_real_iff2 (t : Transform2 Ideal) (ht : AllFinite t.forward) (ha : t.forward.Affine) :
    (∀ (b : BoundingBox2 Ideal) (p : Point2 Ideal), AllFinite b → LeAll b.min b.max → AllFinite p → b.isInside p = true →
      (Transform.transform t b : BoundingBox2 Ideal).isInside (Transform.transform t p : Point2 Ideal) = true) ↔
    ∀ i, (∀ j, 0 ≤ t.forward.linear i j) ∨ (∀ j, t.forward.linear i j ≤ 0) := by
  constructor
  · intro h i
    by_contra hc
    push Not at hc
    obtain ⟨⟨j, hj⟩, ⟨k, hk⟩⟩ := hc
    have hjk : j ≠ k := by rintro rfl; linarith
    have fb : AllFinite (⟨Point2.ofReal 0, Point2.ofReal (Pi.single j 1 + Pi.single k 1)⟩ : BoundingBox2 Ideal) :=
      BoundingBox2.allFinite.2 ⟨Point2.fin_ofReal _, Point2.fin_ofReal _⟩
    have fp := Point2.fin_ofReal (Pi.single k 1)
    have s0 : ∀ j i : Fin 2, (0 : ℝ) ≤ (Pi.single j 1 : Fin 2 → ℝ) i := by
      intro j i; by_cases hij : i = j
      · subst hij; simp
      · simp [hij]
    have wb : LeAll (Point2.ofReal 0) (Point2.ofReal (Pi.single j 1 + Pi.single k 1)) := by
      refine (BoundingBox2.wf_real fb).2 fun l => ?_
      simp only [Point2.toReal_ofReal, Pi.zero_apply, Pi.add_apply]
      linarith [s0 j l, s0 k l]
    have := h _ _ fb wb fp ((BoundingBox2.inside_real fb fp).2 fun l => by
      simp only [Point2.toReal_ofReal, Pi.zero_apply, Pi.add_apply]
      exact ⟨s0 k l, by linarith [s0 j l]⟩)
    rw [C56_monotone2 ht ha fb wb fp] at this
    have := (this i).2
    rw [ha.toReal_mulp ht fp, ha.toReal_mulp ht (Point2.fin_ofReal _), ha.toReal_mulp ht (Point2.fin_ofReal _)] at this
    simp only [Point2.toReal_ofReal, Matrix.mulVec_add, Matrix.mulVec_zero, Matrix.mulVec_single_one, Pi.add_apply, Pi.zero_apply, zero_add] at this
    simp only [Matrix.col_apply] at this
    rcases le_max_iff.1 this with h | h <;> linarith
  · intro h b p hb wb hp hi
    rw [C56_monotone2 ht ha hb wb hp]
    have hb' := hb
    rw [BoundingBox2.allFinite] at hb'
    rw [BoundingBox2.inside_real hb hp] at hi
    intro i
    have d1 : (t.forward * p).toReal i - (t.forward * b.min).toReal i =
        ∑ j, t.forward.linear i j * (p.toReal j - b.min.toReal j) := by
      rw [ha.toReal_mulp ht hp, ha.toReal_mulp ht hb'.1]
      simp only [Pi.add_apply, Matrix.mulVec, dotProduct, mul_sub, Finset.sum_sub_distrib]; ring
    have d2 : (t.forward * b.max).toReal i - (t.forward * p).toReal i =
        ∑ j, t.forward.linear i j * (b.max.toReal j - p.toReal j) := by
      rw [ha.toReal_mulp ht hp, ha.toReal_mulp ht hb'.2]
      simp only [Pi.add_apply, Matrix.mulVec, dotProduct, mul_sub, Finset.sum_sub_distrib]; ring
    rcases h i with h | h
    · have p1 : 0 ≤ ∑ j, t.forward.linear i j * (p.toReal j - b.min.toReal j) :=
        Finset.sum_nonneg fun j _ => mul_nonneg (h j) (by linarith [(hi j).1])
      have p2 : 0 ≤ ∑ j, t.forward.linear i j * (b.max.toReal j - p.toReal j) :=
        Finset.sum_nonneg fun j _ => mul_nonneg (h j) (by linarith [(hi j).2])
      exact ⟨min_le_iff.2 (.inl (by linarith)), le_max_iff.2 (.inr (by linarith))⟩
    · have p1 : ∑ j, t.forward.linear i j * (p.toReal j - b.min.toReal j) ≤ 0 :=
        Finset.sum_nonpos fun j _ => mul_nonpos_of_nonpos_of_nonneg (h j) (by linarith [(hi j).1])
      have p2 : ∑ j, t.forward.linear i j * (b.max.toReal j - p.toReal j) ≤ 0 :=
        Finset.sum_nonpos fun j _ => mul_nonpos_of_nonpos_of_nonneg (h j) (by linarith [(hi j).2])
      exact ⟨min_le_iff.2 (.inr (by linarith)), le_max_iff.2 (.inl (by linarith))⟩

/-- **C56**: translations and scalings (of any sign) bound correctly. -/
theorem C56_real_translate_scale2 (v : Vector2 Ideal) (hv : AllFinite v) (sx sy : Ideal) (hs : IsFinite sx ∧ IsFinite sy) (b : BoundingBox2 Ideal) (p : Point2 Ideal)
    (hb : AllFinite b) (wb : LeAll b.min b.max) (hp : AllFinite p) (hi : b.isInside p = true) :
    (Transform.transform (Transform2.translate v) b : BoundingBox2 Ideal).isInside (Transform.transform (Transform2.translate v) p : Point2 Ideal) = true ∧
    (Transform.transform (Transform2.scale sx sy) b : BoundingBox2 Ideal).isInside (Transform.transform (Transform2.scale sx sy) p : Point2 Ideal) = true := by
  constructor
  · refine (C56_real_iff2 (Transform2.translate v) (Matrix3x3.fin_translate hv) (Matrix3x3.translate_affine v)).2 ?_ b p hb wb hp hi
    intro i; left; intro j
    show 0 ≤ (Matrix3x3.translate v).linear i j
    rw [Matrix3x3.linear_translate, Matrix.one_apply]; split_ifs <;> norm_num
  · refine (C56_real_iff2 (Transform2.scale sx sy) (Matrix3x3.fin_scale hs) (Matrix3x3.scale_affine sx sy)).2 ?_ b p hb wb hp hi
    intro i
    show (∀ j, 0 ≤ (Matrix3x3.scale sx sy).linear i j) ∨ (∀ j, (Matrix3x3.scale sx sy).linear i j ≤ 0)
    rw [Matrix3x3.linear_scale]
    rcases le_total 0 (![real sx, real sy] i) with h | h
    · left; intro j; rw [Matrix.diagonal_apply]; split_ifs; exacts [h, le_rfl]
    · right; intro j; rw [Matrix.diagonal_apply]; split_ifs; exacts [h, le_rfl]
end

/-! ## BoundingBox3 -/
section
variable {b a : BoundingBox3 Ideal} {p q : Point3 Ideal} {t : Transform3 Ideal}

theorem BoundingBox3.inside_real (hb : AllFinite b) (hp : AllFinite p) :
    b.isInside p = true ↔ ∀ i, b.min.toReal i ≤ p.toReal i ∧ p.toReal i ≤ b.max.toReal i := by
  rw [BoundingBox3.allFinite, Point3.allFinite, Point3.allFinite] at hb
  rw [Point3.allFinite] at hp
  rw [isInside3_iff]
  simp only [In1, Ideal.le_real, hb, hp, Point3.toReal]
  simp [Fin.forall_fin_succ]
theorem BoundingBox3.wf_real (hb : AllFinite b) : LeAll b.min b.max ↔ ∀ i, b.min.toReal i ≤ b.max.toReal i := by
  rw [BoundingBox3.allFinite, Point3.allFinite, Point3.allFinite] at hb
  rw [wf3_iff]
  simp only [Ideal.le_real, hb, Point3.toReal]
  simp [Fin.forall_fin_succ]
theorem BoundingBox3.fin_diagonal (hb : AllFinite b) : AllFinite b.diagonal := by
  rw [BoundingBox3.allFinite] at hb; exact Vector3.fin_subp hb.2 hb.1
theorem BoundingBox3.toReal_diagonal (hb : AllFinite b) : b.diagonal.toReal = b.max.toReal - b.min.toReal := by
  rw [BoundingBox3.allFinite] at hb; exact Vector3.toReal_subp hb.2 hb.1

/-- The box of given real corners. -/
noncomputable def Point3.ofReal (f : Fin 3 → ℝ) : Point3 Ideal := ⟨.of (f 0), .of (f 1), .of (f 2)⟩
theorem Point3.fin_ofReal (f : Fin 3 → ℝ) : AllFinite (Point3.ofReal f) := by rw [Point3.allFinite]; exact ⟨trivial, trivial, trivial⟩
theorem Point3.toReal_ofReal (f : Fin 3 → ℝ) : (Point3.ofReal f).toReal = f := by
  ext i; fin_cases i <;> rfl

/-! ### C31, C32 -/

/-- **C31**: the extents and measures are the geometric ones. -/
theorem C31_real3 (b : BoundingBox3 Ideal) (hb : AllFinite b) :
    real b.width = b.max.toReal 0 - b.min.toReal 0 ∧ real b.height = b.max.toReal 1 - b.min.toReal 1 ∧ real b.depth = b.max.toReal 2 - b.min.toReal 2 ∧ real b.surfaceArea = 2 * ((b.max.toReal 0 - b.min.toReal 0) * (b.max.toReal 1 - b.min.toReal 1) + (b.max.toReal 0 - b.min.toReal 0) * (b.max.toReal 2 - b.min.toReal 2) + (b.max.toReal 1 - b.min.toReal 1) * (b.max.toReal 2 - b.min.toReal 2)) ∧ real b.volume = (b.max.toReal 0 - b.min.toReal 0) * (b.max.toReal 1 - b.min.toReal 1) * (b.max.toReal 2 - b.min.toReal 2) := by
  rw [BoundingBox3.allFinite, Point3.allFinite, Point3.allFinite] at hb
  simp (maxDischargeDepth := 20) only [BoundingBox3.surfaceArea, BoundingBox3.volume, BoundingBox3.width, BoundingBox3.height, BoundingBox3.depth, BoundingBox3.size, BoundingBox3.diagonal_x, BoundingBox3.diagonal_y, BoundingBox3.diagonal_z,
    Ideal.real_sub, Ideal.real_mul, Ideal.real_add, Ideal.finite_sub, Ideal.finite_mul, Ideal.finite_add, finite_two, real_two, hb, Point3.toReal]
  simp
/-- **C31**: a box inside another one is smaller in every extent and measure. -/
theorem C31_real_monotone3 (a b : BoundingBox3 Ideal) (ha : AllFinite a) (hb : AllFinite b) (wa : LeAll a.min a.max)
    (h : ∀ p, a.isInside p = true → b.isInside p = true) :
    (∀ d, (a.extent d ≤? b.extent d) = true) ∧ (a.surfaceArea ≤? b.surfaceArea) = true ∧ (a.volume ≤? b.volume) = true := by
  have h1 := h _ (wf3_min wa)
  have h2 := h _ (wf3_max wa)
  rw [BoundingBox3.wf_real ha] at wa
  have ha' := ha
  have hb' := hb
  rw [BoundingBox3.allFinite] at ha' hb'
  rw [BoundingBox3.inside_real hb ha'.1] at h1
  rw [BoundingBox3.inside_real hb ha'.2] at h2
  have key : ∀ i, 0 ≤ a.max.toReal i - a.min.toReal i ∧
      a.max.toReal i - a.min.toReal i ≤ b.max.toReal i - b.min.toReal i :=
    fun i => ⟨by linarith [wa i], by linarith [(h1 i).1, (h2 i).2]⟩
  obtain ⟨ea0, ea1, ea2, ma0, ma1⟩ := C31_real3 a ha
  obtain ⟨eb0, eb1, eb2, mb0, mb1⟩ := C31_real3 b hb
  have fin : ∀ b : BoundingBox3 Ideal, AllFinite b → (∀ d, IsFinite (b.extent d)) ∧ IsFinite b.surfaceArea ∧ IsFinite b.volume := by
    intro b hb
    rw [BoundingBox3.allFinite, Point3.allFinite, Point3.allFinite] at hb
    refine ⟨fun d => ?_, ?_, ?_⟩
    · cases d <;> simp only [BoundingBox3.extent, BoundingBox3.surfaceArea, BoundingBox3.volume, BoundingBox3.width, BoundingBox3.height, BoundingBox3.depth, BoundingBox3.size, BoundingBox3.diagonal_x, BoundingBox3.diagonal_y, BoundingBox3.diagonal_z, Ideal.finite_sub, hb]
    all_goals simp (maxDischargeDepth := 20) only [BoundingBox3.surfaceArea, BoundingBox3.volume, BoundingBox3.width, BoundingBox3.height, BoundingBox3.depth, BoundingBox3.size, BoundingBox3.diagonal_x, BoundingBox3.diagonal_y, BoundingBox3.diagonal_z, Ideal.finite_sub, Ideal.finite_mul, Ideal.finite_add, finite_two, hb]
  have fa := fin a ha
  have fb := fin b hb
  obtain ⟨k0, l0⟩ := key 0
  obtain ⟨k1, l1⟩ := key 1
  obtain ⟨k2, l2⟩ := key 2
  refine ⟨fun d => ?_, ?_, ?_⟩
  · rw [Ideal.le_real (fa.1 d) (fb.1 d)]
    cases d
    · show real a.width ≤ real b.width; rw [ea0, eb0]; exact l0
    · show real a.height ≤ real b.height; rw [ea1, eb1]; exact l1
    · show real a.depth ≤ real b.depth; rw [ea2, eb2]; exact l2
  · rw [Ideal.le_real fa.2.1 fb.2.1, ma0, mb0]; have := mul_le_mul l0 l1 k1 (k0.trans l0); have := mul_le_mul l0 l2 k2 (k0.trans l0); have := mul_le_mul l1 l2 k2 (k1.trans l1); linarith
  · rw [Ideal.le_real fa.2.2 fb.2.2, ma1, mb1]; exact mul_le_mul (mul_le_mul l0 l1 k1 (k0.trans l0)) l2 k2 (mul_nonneg (k0.trans l0) (k1.trans l1))


/-- **C32**: the center is the midpoint of the two corners, inside the box, and at half the diagonal's length from
every corner. -/
theorem C32_real3 (b : BoundingBox3 Ideal) (hb : AllFinite b) (wb : LeAll b.min b.max) :
    AllFinite b.center ∧ (∀ i, b.center.toReal i = (b.min.toReal i + b.max.toReal i) / 2) ∧ b.isInside b.center = true ∧
    ∀ (build : Build) (index : UInt32) (p : Point3 Ideal), b.corner build index = .ok p →
      (Api.distance b.center p == Api.length b.diagonal * half) = true := by
  have hb' := hb
  rw [BoundingBox3.allFinite] at hb'
  have fd := BoundingBox3.fin_diagonal hb
  have fh := Vector3.fin_mul fd finite_half
  have fc : AllFinite b.center := Point3.fin_addv hb'.1 fh
  have hc : ∀ i, b.center.toReal i = (b.min.toReal i + b.max.toReal i) / 2 := by
    intro i
    show (b.min + b.diagonal * (half : Ideal)).toReal i = _
    rw [Point3.toReal_addv hb'.1 fh, Vector3.toReal_mul fd finite_half, BoundingBox3.toReal_diagonal hb, real_half]
    simp; ring
  refine ⟨fc, hc, ?_, ?_⟩
  · rw [BoundingBox3.inside_real hb fc]
    rw [BoundingBox3.wf_real hb] at wb
    intro i; rw [hc]; constructor <;> linarith [wb i]
  · intro build index p hp
    obtain ⟨h1, h2, h3⟩ := C33_corner3 b index
    have hrel : b.corner .release index = .ok p := by
      cases build
      · by_cases hi : index < 8
        · rw [← h2 hi]; exact hp
        · rw [h3 hi] at hp; cases hp
      · exact hp
    have hpe := Except.ok.inj (hrel.symm.trans h1)
    have hb'' := hb'
    rw [Point3.allFinite, Point3.allFinite] at hb''
    have hp' : ∀ i, p.toReal i = b.min.toReal i ∨ p.toReal i = b.max.toReal i := by
      intro i
      rw [hpe]
      fin_cases i <;> simp only [Point3.toReal] <;> simp <;> split_ifs <;> simp
    have fp : AllFinite p := by
      rw [hpe, Point3.allFinite]
      refine ⟨?_, ?_, ?_⟩ <;> (dsimp only; split_ifs <;> simp only [hb''])
    have fs := Vector3.fin_subp fp fc
    have fl := Vector3.fin_length fd
    rw [Ideal.beq_real (Point3.fin_distance fc fp) (Ideal.finite_mul fl finite_half), Point3.distance_def, Vector3.real_length' fs,
      Ideal.real_mul fl finite_half, Vector3.real_length' fd, real_half]
    have e : ((p - b.center).toReal ⬝ᵥ (p - b.center).toReal) = (1 / 2) ^ 2 * (b.diagonal.toReal ⬝ᵥ b.diagonal.toReal) := by
      rw [Vector3.toReal_subp fp fc, BoundingBox3.toReal_diagonal hb]
      unfold dotProduct
      rw [Finset.mul_sum]
      refine Finset.sum_congr rfl fun i _ => ?_
      simp only [Pi.sub_apply, hc]
      rcases hp' i with h | h <;> rw [h] <;> ring
    rw [e, Real.sqrt_mul (by positivity), Real.sqrt_sq (by norm_num), mul_comm]

/-! ### C35, C37: ray against box -/

theorem BoundingBox3.ray_inside (hb : AllFinite b) {ray : Ray3 Ideal} (hr : AllFinite ray) {s : Ideal} (hs : IsFinite s) :
    b.isInside (ray.at s) = true ↔ (real b.min.x ≤ real ray.origin.x + real ray.direction.x * real s ∧ real ray.origin.x + real ray.direction.x * real s ≤ real b.max.x) ∧ (real b.min.y ≤ real ray.origin.y + real ray.direction.y * real s ∧ real ray.origin.y + real ray.direction.y * real s ≤ real b.max.y) ∧ (real b.min.z ≤ real ray.origin.z + real ray.direction.z * real s ∧ real ray.origin.z + real ray.direction.z * real s ≤ real b.max.z) := by
  rw [Ray3.allFinite] at hr
  have fp : AllFinite (ray.at s) := Point3.fin_addv hr.1 (Vector3.fin_mul hr.2 hs)
  rw [BoundingBox3.inside_real hb fp]
  have e : ∀ i, (ray.at s).toReal i = ray.origin.toReal i + ray.direction.toReal i * real s := by
    intro i
    show (ray.origin + ray.direction * s).toReal i = _
    rw [Point3.toReal_addv hr.1 (Vector3.fin_mul hr.2 hs), Vector3.toReal_mul hr.2 hs]
    simp [mul_comm]
  simp only [e]
  simp [Fin.forall_fin_succ, Point3.toReal, Vector3.toReal]

/-- In no dimension does the ray run inside exactly one of the two planes bounding the box. -/
def FaceFree3 (b : BoundingBox3 Ideal) (ray : Ray3 Ideal) : Prop :=
  ∀ i : Fin 3, ray.direction.toReal i = 0 → (ray.origin.toReal i = b.min.toReal i ↔ ray.origin.toReal i = b.max.toReal i)

theorem faceFree3_iff {b : BoundingBox3 Ideal} {ray : Ray3 Ideal} :
    FaceFree3 b ray ↔ Slab.Good b.min.x b.max.x ray.origin.x ray.direction.x ∧ Slab.Good b.min.y b.max.y ray.origin.y ray.direction.y ∧ Slab.Good b.min.z b.max.z ray.origin.z ray.direction.z := by
  unfold FaceFree3 Slab.Good
  simp only [Fin.forall_fin_succ, Point3.toReal, Vector3.toReal]
  simp only [Matrix.cons_val_zero, Matrix.cons_val_succ, IsEmpty.forall_iff, and_true]
  have key : ∀ d o lo hi : ℝ, (d = 0 → (o = lo ↔ o = hi)) ↔ (d ≠ 0 ∨ (o ≠ lo ∧ o ≠ hi) ∨ lo = hi) := by
    intro d o lo hi
    grind
  exact ⟨fun h => ⟨(key _ _ _ _).1 h.1, (key _ _ _ _).1 h.2.1, (key _ _ _ _).1 h.2.2⟩, fun h => ⟨(key _ _ _ _).2 h.1, (key _ _ _ _).2 h.2.1, (key _ _ _ _).2 h.2.2⟩⟩

theorem BoundingBox3.ray_spec (hb : AllFinite b) (wb : LeAll b.min b.max) {ray : Ray3 Ideal} (hr : AllFinite ray)
    (hd : ray.direction.toReal ≠ 0) :
    (FaceFree3 b ray → ∃ s e : Ideal, ¬ IsNaN s ∧ ¬ IsNaN e ∧ 0 ≤ val s ∧ val e < ⊤ ∧
      (Api.intersect b ray = if s ≤? e then some ⟨s, e⟩ else (none : Option (Range Ideal))) ∧
      ∀ t : ℝ, (val s ≤ t ∧ (t : EReal) ≤ val e) ↔ 0 ≤ t ∧ (real b.min.x ≤ real ray.origin.x + real ray.direction.x * t ∧ real ray.origin.x + real ray.direction.x * t ≤ real b.max.x) ∧ (real b.min.y ≤ real ray.origin.y + real ray.direction.y * t ∧ real ray.origin.y + real ray.direction.y * t ≤ real b.max.y) ∧ (real b.min.z ≤ real ray.origin.z + real ray.direction.z * t ∧ real ray.origin.z + real ray.direction.z * t ≤ real b.max.z)) ∧
    (¬ FaceFree3 b ray → Api.intersect b ray = (none : Option (Range Ideal))) := by
  rw [BoundingBox3.allFinite, Point3.allFinite, Point3.allFinite] at hb
  rw [wf3_iff] at wb
  rw [Ray3.allFinite, Point3.allFinite, Vector3.allFinite] at hr
  have z0 : ¬ IsNaN (zero : Ideal) := not_nan_zero
  have i0 : ¬ IsNaN (infinity : Ideal) := Slab.not_nan_of_inf den_infinity
  have vz : val (zero : Ideal) = 0 := by rw [finite_zero.val, real_zero]; rfl
  have vi : val (infinity : Ideal) = ⊤ := Slab.val_of_inf den_infinity
  have hd0 : real ray.direction.x ≠ 0 ∨ real ray.direction.y ≠ 0 ∨ real ray.direction.z ≠ 0 := by
    by_contra hc
    simp only [not_or, not_not] at hc
    apply hd
    ext i; fin_cases i <;> simp [Vector3.toReal, hc]
  have w1 := (Ideal.le_real hb.1.1 hb.2.1).1 wb.1
  have w2 := (Ideal.le_real hb.1.2.1 hb.2.2.1).1 wb.2.1
  have w3 := (Ideal.le_real hb.1.2.2 hb.2.2.2).1 wb.2.2
  rw [faceFree3_iff]
  change (_ → ∃ s e : Ideal, _ ∧ _ ∧ _ ∧ _ ∧ b.intersectRay ray = _ ∧ _) ∧ (_ → b.intersectRay ray = _)
  set s1 : Ideal := fmax zero (Slab.near b.min.x b.max.x ray.origin.x ray.direction.x) with hs1
  set e1 : Ideal := fmin infinity (Slab.far b.min.x b.max.x ray.origin.x ray.direction.x) with he1
  set s2 : Ideal := fmax s1 (Slab.near b.min.y b.max.y ray.origin.y ray.direction.y) with hs2
  set e2 : Ideal := fmin e1 (Slab.far b.min.y b.max.y ray.origin.y ray.direction.y) with he2
  set s3 : Ideal := fmax s2 (Slab.near b.min.z b.max.z ray.origin.z ray.direction.z) with hs3
  set e3 : Ideal := fmin e2 (Slab.far b.min.z b.max.z ray.origin.z ray.direction.z) with he3
  have hI : b.intersectRay ray = if s1 >? e1 then none else if s2 >? e2 then none else if s3 ≤? e3 then some ⟨s3, e3⟩ else none := rfl
  rw [hI]
  constructor
  · intro hg
    have g1 := Slab.step_good hb.1.1 hb.2.1 hr.1.1 hr.2.1 w1 hg.1 z0 i0
    rw [← hs1, ← he1] at g1
    have g2 := Slab.step_good hb.1.2.1 hb.2.2.1 hr.1.2.1 hr.2.2.1 w2 hg.2.1 g1.1.1 g1.1.2.1
    rw [← hs2, ← he2] at g2
    have g3 := Slab.step_good hb.1.2.2 hb.2.2.2 hr.1.2.2 hr.2.2.2 w3 hg.2.2 g2.1.1 g2.1.2.1
    rw [← hs3, ← he3] at g3
    refine ⟨s3, e3, g3.1.1, g3.1.2.1, ?_, ?_, ?_, ?_⟩
    · rw [← vz]; exact ((g1.1.2.2.1.trans g2.1.2.2.1).trans g3.1.2.2.1)
    · rcases hd0 with h | h | h
      · exact (lt_of_le_of_lt g3.1.2.2.2 (lt_of_le_of_lt g2.1.2.2.2 (g1.2.1 h)))
      · exact (lt_of_le_of_lt g3.1.2.2.2 (g2.2.1 h))
      · exact (g3.2.1 h)
    · have c1 : (s1 >? e1) = true → ¬ (s3 ≤? e3) = true := by
        intro h h'
        have h := (lt_of_not_nan g1.1.2.1 g1.1.1).1 h
        have h' := (le_of_not_nan g3.1.1 g3.1.2.1).1 h'
        exact absurd (h.trans_le ((g2.1.2.2.1.trans g3.1.2.2.1).trans (h'.trans (g3.1.2.2.2.trans g2.1.2.2.2)))) (lt_irrefl _)
      have c2 : (s2 >? e2) = true → ¬ (s3 ≤? e3) = true := by
        intro h h'
        have h := (lt_of_not_nan g2.1.2.1 g2.1.1).1 h
        have h' := (le_of_not_nan g3.1.1 g3.1.2.1).1 h'
        exact absurd (h.trans_le (g3.1.2.2.1.trans (h'.trans g3.1.2.2.2))) (lt_irrefl _)
      split_ifs with h1 h2 h3 <;> first | rfl | (exfalso; first | exact c1 ‹_› ‹_› | exact c2 ‹_› ‹_›)
    · intro u
      rw [g3.2.2 u, g2.2.2 u, g1.2.2 u, vz, vi, EReal.coe_nonneg]
      simp only [le_top, and_true]
      tauto
  · intro hg
    have f1 : ¬ IsNaN s1 ∧ ¬ IsNaN e1 ∧ val (zero : Ideal) ≤ val s1 ∧ val e1 ≤ val (infinity : Ideal) := by
      by_cases h : Slab.Good b.min.x b.max.x ray.origin.x ray.direction.x
      · exact (Slab.step_good hb.1.1 hb.2.1 hr.1.1 hr.2.1 w1 h z0 i0).1
      · exact (Slab.step_face hb.1.1 hb.2.1 hr.1.1 hr.2.1 h z0 i0).1
    have f2 : ¬ IsNaN s2 ∧ ¬ IsNaN e2 ∧ val s1 ≤ val s2 ∧ val e2 ≤ val e1 := by
      by_cases h : Slab.Good b.min.y b.max.y ray.origin.y ray.direction.y
      · exact (Slab.step_good hb.1.2.1 hb.2.2.1 hr.1.2.1 hr.2.2.1 w2 h f1.1 f1.2.1).1
      · exact (Slab.step_face hb.1.2.1 hb.2.2.1 hr.1.2.1 hr.2.2.1 h f1.1 f1.2.1).1
    have f3 : ¬ IsNaN s3 ∧ ¬ IsNaN e3 ∧ val s2 ≤ val s3 ∧ val e3 ≤ val e2 := by
      by_cases h : Slab.Good b.min.z b.max.z ray.origin.z ray.direction.z
      · exact (Slab.step_good hb.1.2.2 hb.2.2.2 hr.1.2.2 hr.2.2.2 w3 h f2.1 f2.2.1).1
      · exact (Slab.step_face hb.1.2.2 hb.2.2.2 hr.1.2.2 hr.2.2.2 h f2.1 f2.2.1).1
    have inf : val s3 = ⊤ ∨ val e3 = ⊥ := by
      rw [not_and_or, not_and_or] at hg
      rcases hg with h | h | h
      · rcases (Slab.step_face hb.1.1 hb.2.1 hr.1.1 hr.2.1 h z0 i0).2 with h | h
        · rw [← hs1] at h; left; exact top_le_iff.1 (h.symm.le.trans (f2.2.2.1.trans (f3.2.2.1)))
        · rw [← he1] at h; right; exact le_bot_iff.1 (f3.2.2.2.trans (f2.2.2.2.trans (h.le)))
      · rcases (Slab.step_face hb.1.2.1 hb.2.2.1 hr.1.2.1 hr.2.2.1 h f1.1 f1.2.1).2 with h | h
        · rw [← hs2] at h; left; exact top_le_iff.1 (h.symm.le.trans (f3.2.2.1))
        · rw [← he2] at h; right; exact le_bot_iff.1 (f3.2.2.2.trans (h.le))
      · rcases (Slab.step_face hb.1.2.2 hb.2.2.2 hr.1.2.2 hr.2.2.2 h f2.1 f2.2.1).2 with h | h
        · rw [← hs3] at h; left; exact top_le_iff.1 (h.symm.le)
        · rw [← he3] at h; right; exact le_bot_iff.1 (h.le)
    have htop : val e3 < ⊤ := by
      rcases hd0 with h | h | h
      · exact (lt_of_le_of_lt f3.2.2.2 (lt_of_le_of_lt f2.2.2.2 ((Slab.step_good hb.1.1 hb.2.1 hr.1.1 hr.2.1 w1 (.inl h) z0 i0).2.1 h)))
      · exact (lt_of_le_of_lt f3.2.2.2 ((Slab.step_good hb.1.2.1 hb.2.2.1 hr.1.2.1 hr.2.2.1 w2 (.inl h) f1.1 f1.2.1).2.1 h))
      · exact ((Slab.step_good hb.1.2.2 hb.2.2.2 hr.1.2.2 hr.2.2.2 w3 (.inl h) f2.1 f2.2.1).2.1 h)
    have h0 : 0 ≤ val s3 := by rw [← vz]; exact ((f1.2.2.1.trans f2.2.2.1).trans f3.2.2.1)
    have : ¬ (s3 ≤? e3) = true := by
      rw [le_of_not_nan f3.1 f3.2.1, not_le]
      rcases inf with h | h
      · rw [h]; exact htop
      · rw [h]; exact lt_of_lt_of_le EReal.bot_lt_zero h0
    split_ifs <;> rfl

/-- **C35**: for a finite well-formed box and a finite ray with nonzero direction that does not run inside a face
plane, `intersect` returns exactly the interval of parameters `t >= 0` at which the ray is inside the box (a finite
interval), and `None` exactly if there is none. -/
theorem C35_real3 (b : BoundingBox3 Ideal) (hb : AllFinite b) (wb : LeAll b.min b.max) (ray : Ray3 Ideal) (hr : AllFinite ray)
    (hd : ray.direction.toReal ≠ 0) (hf : FaceFree3 b ray) :
    (∀ r : Range Ideal, Api.intersect b ray = some r → IsFinite r.start ∧ IsFinite r.stop ∧
      ∀ t : Ideal, IsFinite t →
        ((zero ≤? t) = true ∧ b.isInside (ray.at t) = true ↔ (r.start ≤? t) = true ∧ (t ≤? r.stop) = true)) ∧
    (Api.intersect b ray = (none : Option (Range Ideal)) ↔
      ∀ t : Ideal, IsFinite t → (zero ≤? t) = true → b.isInside (ray.at t) = false) := by
  obtain ⟨s, e, ns, ne, hs0, het, hI, ht⟩ := (BoundingBox3.ray_spec hb wb hr hd).1 hf
  have fin : val s ≤ val e → IsFinite s ∧ IsFinite e := by
    intro h
    exact ⟨finite_iff.2 ⟨ns, (lt_of_le_of_lt h het).ne, (lt_of_lt_of_le EReal.bot_lt_zero hs0).ne'⟩,
      finite_iff.2 ⟨ne, het.ne, (lt_of_lt_of_le EReal.bot_lt_zero (hs0.trans h)).ne'⟩⟩
  have ht' : ∀ t : Ideal, IsFinite t → ((zero ≤? t) = true ∧ b.isInside (ray.at t) = true ↔
      (val s ≤ (real t : EReal) ∧ (real t : EReal) ≤ val e)) := by
    intro t h
    rw [ht, BoundingBox3.ray_inside hb hr h, Ideal.le_real finite_zero h, real_zero]
  rw [hI]
  constructor
  · intro r hr
    split_ifs at hr with hse
    obtain rfl := Option.some.inj hr
    obtain ⟨fs, fe⟩ := fin ((le_of_not_nan ns ne).1 hse)
    refine ⟨fs, fe, fun t h => ?_⟩
    rw [ht' t h, le_of_not_nan ns h.not_nan, le_of_not_nan h.not_nan ne, h.val]
  · constructor
    · intro h t hft h0
      split_ifs at h with hse
      rw [Bool.eq_false_iff]
      intro hi
      have := (ht' t hft).1 ⟨h0, hi⟩
      exact hse ((le_of_not_nan ns ne).2 (this.1.trans this.2))
    · intro h
      split_ifs with hse
      · have hle := (le_of_not_nan ns ne).1 hse
        obtain ⟨fs, fe⟩ := fin hle
        have := (ht' s fs).2 ⟨by rw [fs.val], by rw [← fs.val]; exact hle⟩
        have h2 := h s fs this.1
        rw [this.2] at h2; cases h2
      · rfl

/-- **C37** is false of the code: whenever the ray runs inside a face plane of the box (in some dimension its
direction is zero and its origin is on exactly one of the two planes), `intersect` returns `None`, whether or not the
ray passes through that face. -/
theorem C37_real3 (b : BoundingBox3 Ideal) (hb : AllFinite b) (wb : LeAll b.min b.max) (ray : Ray3 Ideal) (hr : AllFinite ray)
    (hd : ray.direction.toReal ≠ 0) (hf : ¬ FaceFree3 b ray) :
    Api.intersect b ray = (none : Option (Range Ideal)) :=
  (BoundingBox3.ray_spec hb wb hr hd).2 hf

/-! ### C56: transforming a box -/

/-- **C56**: for an affine transform, the code computes the box spanned by the images of the two extreme corners. -/
theorem C56_real_span3 (t : Transform3 Ideal) (ht : AllFinite t.forward) (ha : t.forward.Affine) (b : BoundingBox3 Ideal) (hb : AllFinite b) :
    AllFinite (Transform.transform t b : BoundingBox3 Ideal) ∧
    (∀ i, (Transform.transform t b : BoundingBox3 Ideal).min.toReal i =
      min ((Transform.transform t b.min : Point3 Ideal).toReal i) ((Transform.transform t b.max : Point3 Ideal).toReal i)) ∧
    (∀ i, (Transform.transform t b : BoundingBox3 Ideal).max.toReal i =
      max ((Transform.transform t b.min : Point3 Ideal).toReal i) ((Transform.transform t b.max : Point3 Ideal).toReal i)) := by
  have hb' := hb
  rw [BoundingBox3.allFinite] at hb'
  have fd := BoundingBox3.fin_diagonal hb
  have fo := ha.fin_mulp ht hb'.1
  have fv := Matrix4x4.fin_mulv ht fd
  have e : ∀ i, (t.forward * b.max).toReal i = (t.forward * b.min).toReal i + (t.forward * b.diagonal).toReal i := by
    intro i
    rw [ha.toReal_mulp ht hb'.1, ha.toReal_mulp ht hb'.2, Matrix4x4.toReal_mulv' ht fd, BoundingBox3.toReal_diagonal hb, Matrix.mulVec_sub]
    simp only [Pi.add_apply, Pi.sub_apply]; ring
  simp only [Transform3.tr_point]
  simp only [e]
  have hT : (Transform.transform t b : BoundingBox3 Ideal) =
      (fun (mm : Point3 Ideal × Point3 Ideal) => BoundingBox3.new mm.1 mm.2)
        ([1, 2, 3, 4, 5, 6, 7].foldl (Transform3.boxStep (t.forward * b.min) (t.forward * b.diagonal)) (t.forward * b.min, t.forward * b.min)) := rfl
  rw [hT]
  generalize (t.forward * b.min : Point3 Ideal) = o at *
  generalize (t.forward * b.diagonal : Vector3 Ideal) = d at *
  rw [Point3.allFinite] at fo
  rw [Vector3.allFinite] at fv
  have hF : (fun (mm : Point3 Ideal × Point3 Ideal) => BoundingBox3.new mm.1 mm.2) ([1, 2, 3, 4, 5, 6, 7].foldl (Transform3.boxStep o d) (o, o)) =
      ⟨⟨fmin (chainMin o.x (o.x + d.x) [true, false, true, false, true, false, true]) (chainMax o.x (o.x + d.x) [true, false, true, false, true, false, true]), fmin (chainMin o.y (o.y + d.y) [false, true, true, false, false, true, true]) (chainMax o.y (o.y + d.y) [false, true, true, false, false, true, true]), fmin (chainMin o.z (o.z + d.z) [false, false, false, true, true, true, true]) (chainMax o.z (o.z + d.z) [false, false, false, true, true, true, true])⟩,
       ⟨fmax (chainMin o.x (o.x + d.x) [true, false, true, false, true, false, true]) (chainMax o.x (o.x + d.x) [true, false, true, false, true, false, true]), fmax (chainMin o.y (o.y + d.y) [false, true, true, false, false, true, true]) (chainMax o.y (o.y + d.y) [false, true, true, false, false, true, true]), fmax (chainMin o.z (o.z + d.z) [false, false, false, true, true, true, true]) (chainMax o.z (o.z + d.z) [false, false, false, true, true, true, true])⟩⟩ := rfl
  rw [hF]
  have c0 := chain_spec fo.1 (Ideal.finite_add fo.1 fv.1) (l := [true, false, true, false, true, false, true]) (by simp)
  rw [Ideal.real_add fo.1 fv.1] at c0
  have c1 := chain_spec fo.2.1 (Ideal.finite_add fo.2.1 fv.2.1) (l := [false, true, true, false, false, true, true]) (by simp)
  rw [Ideal.real_add fo.2.1 fv.2.1] at c1
  have c2 := chain_spec fo.2.2 (Ideal.finite_add fo.2.2 fv.2.2) (l := [false, false, false, true, true, true, true]) (by simp)
  rw [Ideal.real_add fo.2.2 fv.2.2] at c2
  refine ⟨?_, fun i => ?_, fun i => ?_⟩
  · rw [BoundingBox3.allFinite, Point3.allFinite, Point3.allFinite]
    exact ⟨⟨c0.1, c1.1, c2.1⟩, ⟨c0.2.1, c1.2.1, c2.2.1⟩⟩
  · fin_cases i
    · exact c0.2.2.1
    · exact c1.2.2.1
    · exact c2.2.2.1
  · fin_cases i
    · exact c0.2.2.2
    · exact c1.2.2.2
    · exact c2.2.2.2

theorem C56_monotone3 {t : Transform3 Ideal} (ht : AllFinite t.forward) (ha : t.forward.Affine) {b : BoundingBox3 Ideal} (hb : AllFinite b)
    (wb : LeAll b.min b.max) {p : Point3 Ideal} (hp : AllFinite p) :
    (Transform.transform t b : BoundingBox3 Ideal).isInside (Transform.transform t p : Point3 Ideal) = true ↔
      ∀ i, min ((t.forward * b.min).toReal i) ((t.forward * b.max).toReal i) ≤ (t.forward * p).toReal i ∧
        (t.forward * p).toReal i ≤ max ((t.forward * b.min).toReal i) ((t.forward * b.max).toReal i) := by
  obtain ⟨f, h1, h2⟩ := C56_real_span3 t ht ha b hb
  rw [Transform3.tr_point t p, BoundingBox3.inside_real f (ha.fin_mulp ht hp)]
  simp only [h1, h2]; rfl

/-- **C56**, the exact truth: the transformed box contains the images of all points of every box if and only if no row
of the linear part of the transform has entries of opposite signs. -/
theorem C56_real_iff3 (t : Transform3 Ideal) (ht : AllFinite t.forward) (ha : t.forward.Affine) :
    (∀ (b : BoundingBox3 Ideal) (p : Point3 Ideal), AllFinite b → LeAll b.min b.max → AllFinite p → b.isInside p = true →
      (Transform.transform t b : BoundingBox3 Ideal).isInside (Transform.transform t p : Point3 Ideal) = true) ↔
    ∀ i, (∀ j, 0 ≤ t.forward.linear i j) ∨ (∀ j, t.forward.linear i j ≤ 0) := by
  constructor
  · intro h i
    by_contra hc
    push Not at hc
    obtain ⟨⟨j, hj⟩, ⟨k, hk⟩⟩ := hc
    have hjk : j ≠ k := by rintro rfl; linarith
    have fb : AllFinite (⟨Point3.ofReal 0, Point3.ofReal (Pi.single j 1 + Pi.single k 1)⟩ : BoundingBox3 Ideal) :=
      BoundingBox3.allFinite.2 ⟨Point3.fin_ofReal _, Point3.fin_ofReal _⟩
    have fp := Point3.fin_ofReal (Pi.single k 1)
    have s0 : ∀ j i : Fin 3, (0 : ℝ) ≤ (Pi.single j 1 : Fin 3 → ℝ) i := by
      intro j i; by_cases hij : i = j
      · subst hij; simp
      · simp [hij]
    have wb : LeAll (Point3.ofReal 0) (Point3.ofReal (Pi.single j 1 + Pi.single k 1)) := by
      refine (BoundingBox3.wf_real fb).2 fun l => ?_
      simp only [Point3.toReal_ofReal, Pi.zero_apply, Pi.add_apply]
      linarith [s0 j l, s0 k l]
    have := h _ _ fb wb fp ((BoundingBox3.inside_real fb fp).2 fun l => by
      simp only [Point3.toReal_ofReal, Pi.zero_apply, Pi.add_apply]
      exact ⟨s0 k l, by linarith [s0 j l]⟩)
    rw [C56_monotone3 ht ha fb wb fp] at this
    have := (this i).2
    rw [ha.toReal_mulp ht fp, ha.toReal_mulp ht (Point3.fin_ofReal _), ha.toReal_mulp ht (Point3.fin_ofReal _)] at this
    simp only [Point3.toReal_ofReal, Matrix.mulVec_add, Matrix.mulVec_zero, Matrix.mulVec_single_one, Pi.add_apply, Pi.zero_apply, zero_add] at this
    simp only [Matrix.col_apply] at this
    rcases le_max_iff.1 this with h | h <;> linarith
  · intro h b p hb wb hp hi
    rw [C56_monotone3 ht ha hb wb hp]
    have hb' := hb
    rw [BoundingBox3.allFinite] at hb'
    rw [BoundingBox3.inside_real hb hp] at hi
    intro i
    have d1 : (t.forward * p).toReal i - (t.forward * b.min).toReal i =
        ∑ j, t.forward.linear i j * (p.toReal j - b.min.toReal j) := by
      rw [ha.toReal_mulp ht hp, ha.toReal_mulp ht hb'.1]
      simp only [Pi.add_apply, Matrix.mulVec, dotProduct, mul_sub, Finset.sum_sub_distrib]; ring
    have d2 : (t.forward * b.max).toReal i - (t.forward * p).toReal i =
        ∑ j, t.forward.linear i j * (b.max.toReal j - p.toReal j) := by
      rw [ha.toReal_mulp ht hp, ha.toReal_mulp ht hb'.2]
      simp only [Pi.add_apply, Matrix.mulVec, dotProduct, mul_sub, Finset.sum_sub_distrib]; ring
    rcases h i with h | h
    · have p1 : 0 ≤ ∑ j, t.forward.linear i j * (p.toReal j - b.min.toReal j) :=
        Finset.sum_nonneg fun j _ => mul_nonneg (h j) (by linarith [(hi j).1])
      have p2 : 0 ≤ ∑ j, t.forward.linear i j * (b.max.toReal j - p.toReal j) :=
        Finset.sum_nonneg fun j _ => mul_nonneg (h j) (by linarith [(hi j).2])
      exact ⟨min_le_iff.2 (.inl (by linarith)), le_max_iff.2 (.inr (by linarith))⟩
    · have p1 : ∑ j, t.forward.linear i j * (p.toReal j - b.min.toReal j) ≤ 0 :=
        Finset.sum_nonpos fun j _ => mul_nonpos_of_nonpos_of_nonneg (h j) (by linarith [(hi j).1])
      have p2 : ∑ j, t.forward.linear i j * (b.max.toReal j - p.toReal j) ≤ 0 :=
        Finset.sum_nonpos fun j _ => mul_nonpos_of_nonpos_of_nonneg (h j) (by linarith [(hi j).2])
      exact ⟨min_le_iff.2 (.inr (by linarith)), le_max_iff.2 (.inl (by linarith))⟩

/-- **C56**: translations and scalings (of any sign) bound correctly. -/
theorem C56_real_translate_scale3 (v : Vector3 Ideal) (hv : AllFinite v) (sx sy sz : Ideal) (hs : IsFinite sx ∧ IsFinite sy ∧ IsFinite sz) (b : BoundingBox3 Ideal) (p : Point3 Ideal)
    (hb : AllFinite b) (wb : LeAll b.min b.max) (hp : AllFinite p) (hi : b.isInside p = true) :
    (Transform.transform (Transform3.translate v) b : BoundingBox3 Ideal).isInside (Transform.transform (Transform3.translate v) p : Point3 Ideal) = true ∧
    (Transform.transform (Transform3.scale sx sy sz) b : BoundingBox3 Ideal).isInside (Transform.transform (Transform3.scale sx sy sz) p : Point3 Ideal) = true := by
  constructor
  · refine (C56_real_iff3 (Transform3.translate v) (Matrix4x4.fin_translate hv) (Matrix4x4.translate_affine v)).2 ?_ b p hb wb hp hi
    intro i; left; intro j
    show 0 ≤ (Matrix4x4.translate v).linear i j
    rw [Matrix4x4.linear_translate, Matrix.one_apply]; split_ifs <;> norm_num
  · refine (C56_real_iff3 (Transform3.scale sx sy sz) (Matrix4x4.fin_scale hs) (Matrix4x4.scale_affine sx sy sz)).2 ?_ b p hb wb hp hi
    intro i
    show (∀ j, 0 ≤ (Matrix4x4.scale sx sy sz).linear i j) ∨ (∀ j, (Matrix4x4.scale sx sy sz).linear i j ≤ 0)
    rw [Matrix4x4.linear_scale]
    rcases le_total 0 (![real sx, real sy, real sz] i) with h | h
    · left; intro j; rw [Matrix.diagonal_apply]; split_ifs; exacts [h, le_rfl]
    · right; intro j; rw [Matrix.diagonal_apply]; split_ifs; exacts [h, le_rfl]
end

/-- **C56** fails for rotations: in the plane, `rotate(a)` bounds correctly if and only if `a` is a multiple of a
quarter turn (`sin a` or `cos a` is 0). -/
theorem C56_real_rotate (a : Ideal) (ha : IsFinite a) :
    (∀ (b : BoundingBox2 Ideal) (p : Point2 Ideal), AllFinite b → LeAll b.min b.max → AllFinite p → b.isInside p = true →
      (Transform.transform (Transform2.rotate a) b : BoundingBox2 Ideal).isInside
        (Transform.transform (Transform2.rotate a) p : Point2 Ideal) = true) ↔
    Real.sin (real a) = 0 ∨ Real.cos (real a) = 0 := by
  rw [C56_real_iff2 (Transform2.rotate a) (Matrix3x3.fin_rotate ha) (Matrix3x3.rotate_affine ha)]
  show (∀ i, (∀ j, 0 ≤ (Matrix3x3.rotate a).linear i j) ∨ (∀ j, (Matrix3x3.rotate a).linear i j ≤ 0)) ↔ _
  rw [Matrix3x3.linear_rotate ha]
  simp only [rot2, Fin.forall_fin_two]
  simp
  constructor
  · rintro ⟨h1 | h1, h2 | h2⟩
    · exact .inl (le_antisymm h1.2 h2.1)
    · exact .inr (le_antisymm h2.2 h1.1)
    · exact .inr (le_antisymm h1.1 h2.2)
    · exact .inl (le_antisymm h2.1 h1.2)
  · rintro (h | h)
    · rw [h]; rcases le_total 0 (Real.cos (real a)) with h | h <;> simp [h]
    · rw [h]; rcases le_total 0 (Real.sin (real a)) with h | h <;> simp [h]
/-- **C56** fails for `rotate_z` in space at every other angle. -/
theorem C56_real_rotate_z (a : Ideal) (ha : IsFinite a) (hs : Real.sin (real a) ≠ 0) (hc : Real.cos (real a) ≠ 0) :
    ∃ (b : BoundingBox3 Ideal) (p : Point3 Ideal), AllFinite b ∧ LeAll b.min b.max ∧ AllFinite p ∧ b.isInside p = true ∧
      (Transform.transform (Transform3.rotateZ a) b : BoundingBox3 Ideal).isInside
        (Transform.transform (Transform3.rotateZ a) p : Point3 Ideal) = false := by
  by_contra hno
  have h : ∀ (b : BoundingBox3 Ideal) (p : Point3 Ideal), AllFinite b → LeAll b.min b.max → AllFinite p → b.isInside p = true →
      (Transform.transform (Transform3.rotateZ a) b : BoundingBox3 Ideal).isInside
        (Transform.transform (Transform3.rotateZ a) p : Point3 Ideal) = true := by
    intro b p h1 h2 h3 h4
    by_contra h5
    exact hno ⟨b, p, h1, h2, h3, h4, by simpa using h5⟩
  rw [C56_real_iff3 (Transform3.rotateZ a) (isRot_rotateZ ha).fin (isRot_rotateZ ha).affine] at h
  change ∀ i, (∀ j, 0 ≤ (Matrix4x4.rotateZ a).linear i j) ∨ (∀ j, (Matrix4x4.rotateZ a).linear i j ≤ 0) at h
  rw [(isRot_rotateZ ha).linear] at h
  simp only [rod, crossM, Fin.forall_fin_succ] at h
  simp [Matrix.vecMulVec_apply, Matrix.one_apply] at h
  obtain ⟨h1, h2⟩ := h
  rcases lt_or_gt_of_ne hs with s | s <;> rcases lt_or_gt_of_ne hc with c | c <;>
    rcases h1 with h1 | h1 <;> rcases h2 with h2 | h2 <;> obtain ⟨p, q⟩ := h1 <;>
    first | linarith | (obtain ⟨r, t⟩ := h2; linarith)

/-! ## The hypotheses are met by concrete, non-trivial values -/

noncomputable def exB2 : BoundingBox2 Ideal := ⟨⟨.of (-1), .of 2⟩, ⟨.of 3, .of 5⟩⟩
noncomputable def exB3 : BoundingBox3 Ideal := ⟨⟨.of (-1), .of 2, .of 0⟩, ⟨.of 3, .of 5, .of 7⟩⟩
theorem exB2_fin : AllFinite exB2 := by
  rw [BoundingBox2.allFinite, Point2.allFinite, Point2.allFinite]; exact ⟨⟨trivial, trivial⟩, ⟨trivial, trivial⟩⟩
theorem exB3_fin : AllFinite exB3 := by
  rw [BoundingBox3.allFinite, Point3.allFinite, Point3.allFinite]
  exact ⟨⟨trivial, trivial, trivial⟩, ⟨trivial, trivial, trivial⟩⟩
theorem exB2_wf : LeAll exB2.min exB2.max := by
  rw [BoundingBox2.wf_real exB2_fin]
  intro i; fin_cases i <;> simp [exB2, Point2.toReal] <;> norm_num
theorem exB3_wf : LeAll exB3.min exB3.max := by
  rw [BoundingBox3.wf_real exB3_fin]
  intro i; fin_cases i <;> simp [exB3, Point3.toReal] <;> norm_num
/-- a ray that runs parallel to an axis (zero direction component) and yet hits, entering at 2 and leaving at 5 -/
noncomputable def exR2 : Ray2 Ideal := ⟨⟨.of 0, .of 0⟩, ⟨.of 0, .of 1⟩⟩
theorem exR2_fin : AllFinite exR2 := by
  rw [Ray2.allFinite, Point2.allFinite, Vector2.allFinite]; exact ⟨⟨trivial, trivial⟩, ⟨trivial, trivial⟩⟩
example := C31_real_monotone2 exB2 exB2 exB2_fin exB2_fin exB2_wf (fun _ h => h)
example := C31_real_monotone3 exB3 exB3 exB3_fin exB3_fin exB3_wf (fun _ h => h)
example := C32_real2 exB2 exB2_fin exB2_wf
example := C32_real3 exB3 exB3_fin exB3_wf
example : FaceFree2 exB2 exR2 ∧ exR2.direction.toReal ≠ 0 ∧
    exB2.isInside (exR2.at (.of 3)) = true := by
  refine ⟨?_, ?_, ?_⟩
  · intro i; fin_cases i <;> simp [exR2, exB2, Point2.toReal, Vector2.toReal]
  · intro h; have := congrFun h 1; simp [exR2, Vector2.toReal] at this
  · rw [BoundingBox2.ray_inside exB2_fin exR2_fin (Ideal.finite_of 3)]
    simp [exB2, exR2]; norm_num
/-- a ray in a face plane, passing through the face -/
example : ¬ FaceFree2 exB2 ⟨⟨.of (-1), .of 0⟩, ⟨.of 0, .of 1⟩⟩ := by
  intro h; have := h 0; simp [exB2, Point2.toReal, Vector2.toReal] at this; norm_num at this
example := C56_real_translate_scale3 exV3 exV3_fin (.of 2) (.of (-3)) (.of 0) ⟨trivial, trivial, trivial⟩ exB3 exB3.max exB3_fin
  exB3_wf (BoundingBox3.allFinite.1 exB3_fin).2 (wf3_max exB3_wf)
/-- an affine transform that is no translation or scaling and still bounds correctly (a shear) -/
example : ∀ i, (∀ j, 0 ≤ exA3.linear i j) ∨ (∀ j, exA3.linear i j ≤ 0) := by
  intro i; left; intro j
  unfold Matrix3x3.linear
  rw [Matrix3x3.toReal_eq]
  fin_cases i <;> fin_cases j <;> simp [exA3]
/-- the rotation by one eighth turn does not -/
example : ¬ (Real.sin (real (Ideal.of (Real.pi / 4))) = 0 ∨ Real.cos (real (Ideal.of (Real.pi / 4))) = 0) := by
  simp
end VecMath

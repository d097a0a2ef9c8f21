import Verif.Spec.Corners
import Verif.Spec.Range
import Verif.Lemmas.Enc
import Verif.Props.FloatErrorMat
import Verif.Props.FloatBox
import Verif.Props.FloatCull
import Verif.Props.FloatRange
import Verif.Props.RealInstance
/-!
# The box around the transformed corners: C95

Generated by tools/gen/corners.py. Transforming the corners of a box one by one and taking the union bounds the computed
image of every point of the box *exactly*, in floating point: rounding is monotone. (Compare C56: `transform` of the box
itself does not.)
-/
open Classical

namespace VecMath
open Scalar IEEE

section
variable {S : Type} [Scalar S] [IEEE S]

theorem finite_btw {a b c : S} (ha : IsFinite a) (hc : IsFinite c) (h1 : (a ≤? b) = true) (h2 : (b ≤? c) = true) :
    IsFinite b := by
  rw [le_iff] at h1 h2
  rw [finite_iff]
  refine ⟨h1.2.1, fun h => ?_, fun h => ?_⟩
  · have := h2.2.2; rw [h, hc.val] at this; exact absurd this (by simp)
  · have := h1.2.2; rw [h, ha.val] at this; exact absurd this (by simp)
theorem isNaN_num {a : S} : IsNaN a ↔ num a = .nan := by
  unfold IsNaN num
  rcases den a with _ | s | _ | x <;> simp [Val.canon]

/-! ## 2D -/

/-- the computed images of the corners, in the order of their numbers -/
def corners2 (t : Transform2 S) (b : BoundingBox2 S) : List (Point2 S) :=
  ([⟨b.min.x, b.min.y⟩, ⟨b.max.x, b.min.y⟩, ⟨b.min.x, b.max.y⟩, ⟨b.max.x, b.max.y⟩] : List (Point2 S)).map fun c => Transform.transform t c

omit [IEEE S] in
theorem corner_ok2 (build : Build) (b : BoundingBox2 S) :
    b.corner build 0 = .ok ⟨b.min.x, b.min.y⟩ ∧ b.corner build 1 = .ok ⟨b.max.x, b.min.y⟩ ∧ b.corner build 2 = .ok ⟨b.min.x, b.max.y⟩ ∧ b.corner build 3 = .ok ⟨b.max.x, b.max.y⟩ := by
  cases build <;> exact ⟨rfl, rfl, rfl, rfl⟩
omit [IEEE S] in
theorem around_eq2 (t : Transform2 S) (build : Build) (b : BoundingBox2 S) :
    t.around build b = .ok ((corners2 t b).foldl (fun acc p => Api.union acc p) BoundingBox2.empty) := by
  obtain ⟨h0, h1, h2, h3⟩ := corner_ok2 build b
  unfold Transform2.around corners2
  simp only [List.mapM_cons, List.mapM_nil, h0, h1, h2, h3]
  rfl
omit [IEEE S] in
theorem corners_iff2 (t : Transform2 S) (build : Build) (b : BoundingBox2 S) (Q : Point2 S → Prop) :
    (∀ k : UInt32, k < 4 → ∀ c, b.corner build k = .ok c → Q (Transform.transform t c : Point2 S)) ↔ ∀ q ∈ corners2 t b, Q q := by
  obtain ⟨h0, h1, h2, h3⟩ := corner_ok2 build b
  constructor
  · intro h
    simp only [corners2, List.map_cons, List.map_nil, List.forall_mem_cons, List.not_mem_nil, IsEmpty.forall_iff, implies_true, and_true]
    exact ⟨h 0 (by decide) _ h0, h 1 (by decide) _ h1, h 2 (by decide) _ h2, h 3 (by decide) _ h3⟩
  · intro h k hk c hc
    have hk' : k = 0 ∨ k = 1 ∨ k = 2 ∨ k = 3 := by
      have : k.toNat < 4 := hk
      have e : k = UInt32.ofNat k.toNat := by simp
      generalize k.toNat = m at *
      subst e
      interval_cases m <;> simp
    simp only [corners2, List.map_cons, List.map_nil, List.forall_mem_cons, List.not_mem_nil, IsEmpty.forall_iff, implies_true, and_true] at h
    rcases hk' with rfl | rfl | rfl | rfl
    · rw [h0] at hc; cases hc; exact h.1
    · rw [h1] at hc; cases hc; exact h.2.1
    · rw [h2] at hc; cases hc; exact h.2.2.1
    · rw [h3] at hc; cases hc; exact h.2.2.2

/-- the corners are in the box -/
theorem corner_inside2 (build : Build) (b : BoundingBox2 S) (wb : LeAll b.min b.max) {k : UInt32} {c : Point2 S}
    (hk : k < 4) (hc : b.corner build k = .ok c) : b.isInside c = true := by
  rw [Point2.leAll] at wb
  unfold BoundingBox2.corner at hc
  split_ifs at hc <;> cases hc <;> rw [isInside2_iff] <;> simp only [Point2.new] <;>
    refine ⟨?_, ?_⟩ <;>
    first
    | exact ⟨le_self (le_iff.1 wb.1).1, wb.1⟩
    | exact ⟨wb.1, le_self (le_iff.1 wb.1).2.1⟩
    | exact ⟨le_self (le_iff.1 wb.2).1, wb.2⟩
    | exact ⟨wb.2, le_self (le_iff.1 wb.2).2.1⟩

/-- **C95** (key): the computed image of a point of the box is, coordinate by coordinate, a number between two of the
computed images of the corners. -/
theorem image_between2 (t : Transform2 S) (b : BoundingBox2 S) (p : Point2 S) (ht : AllFinite t.forward)
    (haff : t.forward.toReal 2 = ![0, 0, 1]) (hb : AllFinite b) (hn : ∀ q ∈ corners2 t b, NoNaN q)
    (hp : b.isInside p = true) :
    ((∃ q ∈ corners2 t b, (q.x ≤? (Transform.transform t p : Point2 S).x) = true) ∧
      (∃ q ∈ corners2 t b, ((Transform.transform t p : Point2 S).x ≤? q.x) = true)) ∧
    ((∃ q ∈ corners2 t b, (q.y ≤? (Transform.transform t p : Point2 S).y) = true) ∧
      (∃ q ∈ corners2 t b, ((Transform.transform t p : Point2 S).y ≤? q.y) = true)) := by
  rw [BoundingBox2.allFinite, Point2.allFinite, Point2.allFinite] at hb
  rw [isInside2_iff] at hp
  rw [Matrix3x3.allFinite, forall_lt_9] at ht
  obtain ⟨h0, h1, h2, h3, h4, h5, h6, h7, h8⟩ := ht
  obtain ⟨⟨lx, ly⟩, ux, uy⟩ := hb
  obtain ⟨px, py⟩ := hp
  have fx : IsFinite p.x := finite_btw lx ux px.1 px.2
  have rx : real b.min.x ≤ real p.x ∧ real p.x ≤ real b.max.x := by
    have h1 := (le_iff.1 px.1).2.2
    have h2 := (le_iff.1 px.2).2.2
    rw [lx.val, fx.val, EReal.coe_le_coe_iff] at h1
    rw [ux.val, fx.val, EReal.coe_le_coe_iff] at h2
    exact ⟨h1, h2⟩
  have fy : IsFinite p.y := finite_btw ly uy py.1 py.2
  have ry : real b.min.y ≤ real p.y ∧ real p.y ≤ real b.max.y := by
    have h1 := (le_iff.1 py.1).2.2
    have h2 := (le_iff.1 py.2).2.2
    rw [ly.val, fy.val, EReal.coe_le_coe_iff] at h1
    rw [uy.val, fy.val, EReal.coe_le_coe_iff] at h2
    exact ⟨h1, h2⟩
  have W : ∀ {x y : S}, IsFinite x → IsFinite y → num (t.forward.m[6] * x + t.forward.m[7] * y + t.forward.m[8]) = num (one : S) :=
    fun {x y} gx gy => weight_one2 h6 h7 h8 gx gy (congrFun haff 0) (congrFun haff 1) (congrFun haff 2)
  have key : ∀ {v w : S}, num w = num (one : S) → (IsNaN (v / w) ↔ IsNaN v) ∧ val (v / w) = val v := by
    intro v w hw
    have e := div_weight (x := v) hw
    exact ⟨by rw [isNaN_num, isNaN_num (a := v), e], by rw [val_num, val_num v, e]⟩
  have mem : ∀ cx ∈ ({b.min.x, b.max.x} : Set S), ∀ cy ∈ ({b.min.y, b.max.y} : Set S), (Transform.transform t (⟨cx, cy⟩ : Point2 S) : Point2 S) ∈ corners2 t b ∧ IsFinite cx ∧ IsFinite cy := by
    intro cx hx cy hy
    simp only [Set.mem_insert_iff, Set.mem_singleton_iff] at hx hy
    rcases hx with rfl | rfl <;> rcases hy with rfl | rfl <;>
      exact ⟨by simp [corners2], by assumption, by assumption⟩
  have Rx : ((∃ q ∈ corners2 t b, (q.x ≤? (Transform.transform t p : Point2 S).x) = true) ∧
      (∃ q ∈ corners2 t b, ((Transform.transform t p : Point2 S).x ≤? q.x) = true)) := by
    obtain ⟨k, ⟨cx, hx, cy, hy, le⟩, ⟨dx, gx, dy, gy, lf⟩⟩ := enc_row2 h0 h1 h2 lx ux ly uy fx fy rx ry
      (fun cx hx cy hy => (not_congr (key (W (mem _ hx _ hy).2.1 (mem _ hx _ hy).2.2)).1).1 ((Point2.noNaN.1 (hn _ (mem _ hx _ hy).1)).1))
    have kp := key (v := t.forward.m[0] * p.x + t.forward.m[1] * p.y + t.forward.m[2]) (W fx fy)
    constructor
    · exact ⟨_, (mem _ hx _ hy).1, le_iff.2 ⟨(Point2.noNaN.1 (hn _ (mem _ hx _ hy).1)).1, (not_congr kp.1).2 k, (key (v := t.forward.m[0] * cx + t.forward.m[1] * cy + t.forward.m[2]) (W (mem _ hx _ hy).2.1 (mem _ hx _ hy).2.2)).2.trans_le (le.trans kp.2.ge)⟩⟩
    · exact ⟨_, (mem _ gx _ gy).1, le_iff.2 ⟨(not_congr kp.1).2 k, (Point2.noNaN.1 (hn _ (mem _ gx _ gy).1)).1, kp.2.trans_le (lf.trans (key (v := t.forward.m[0] * dx + t.forward.m[1] * dy + t.forward.m[2]) (W (mem _ gx _ gy).2.1 (mem _ gx _ gy).2.2)).2.ge)⟩⟩
  have Ry : ((∃ q ∈ corners2 t b, (q.y ≤? (Transform.transform t p : Point2 S).y) = true) ∧
      (∃ q ∈ corners2 t b, ((Transform.transform t p : Point2 S).y ≤? q.y) = true)) := by
    obtain ⟨k, ⟨cx, hx, cy, hy, le⟩, ⟨dx, gx, dy, gy, lf⟩⟩ := enc_row2 h3 h4 h5 lx ux ly uy fx fy rx ry
      (fun cx hx cy hy => (not_congr (key (W (mem _ hx _ hy).2.1 (mem _ hx _ hy).2.2)).1).1 ((Point2.noNaN.1 (hn _ (mem _ hx _ hy).1)).2))
    have kp := key (v := t.forward.m[3] * p.x + t.forward.m[4] * p.y + t.forward.m[5]) (W fx fy)
    constructor
    · exact ⟨_, (mem _ hx _ hy).1, le_iff.2 ⟨(Point2.noNaN.1 (hn _ (mem _ hx _ hy).1)).2, (not_congr kp.1).2 k, (key (v := t.forward.m[3] * cx + t.forward.m[4] * cy + t.forward.m[5]) (W (mem _ hx _ hy).2.1 (mem _ hx _ hy).2.2)).2.trans_le (le.trans kp.2.ge)⟩⟩
    · exact ⟨_, (mem _ gx _ gy).1, le_iff.2 ⟨(not_congr kp.1).2 k, (Point2.noNaN.1 (hn _ (mem _ gx _ gy).1)).2, kp.2.trans_le (lf.trans (key (v := t.forward.m[3] * dx + t.forward.m[4] * dy + t.forward.m[5]) (W (mem _ gx _ gy).2.1 (mem _ gx _ gy).2.2)).2.ge)⟩⟩
  exact ⟨Rx, Ry⟩

/-- **C95**: the box around the transformed corners contains, exactly, the computed image of every point of the box, and
it is the smallest box that does. -/
theorem C95_around2 (t : Transform2 S) (build : Build) (b : BoundingBox2 S) (ht : AllFinite t.forward)
    (haff : t.forward.toReal 2 = ![0, 0, 1]) (hb : AllFinite b) (wb : LeAll b.min b.max)
    (hn : ∀ k : UInt32, k < 4 → ∀ c, b.corner build k = .ok c → NoNaN (Transform.transform t c : Point2 S)) :
    ∃ B : BoundingBox2 S, t.around build b = .ok B ∧ LeAll B.min B.max ∧
      (∀ p, b.isInside p = true → B.isInside (Transform.transform t p : Point2 S) = true) ∧
      (∀ C : BoundingBox2 S, (∀ p, b.isInside p = true → C.isInside (Transform.transform t p : Point2 S) = true) →
        ∀ r, B.isInside r = true → C.isInside r = true) := by
  have hn' := (corners_iff2 t build b NoNaN).1 hn
  obtain ⟨w, hin, hmin⟩ := C27_points2 (corners2 t b) (by simp [corners2]) hn'
  refine ⟨_, around_eq2 t build b, w, ?_, ?_⟩
  · intro p hp
    have K := image_between2 t b p ht haff hb hn' hp
    rw [isInside2_iff]
    refine ⟨?_, ?_⟩
    · obtain ⟨⟨q, hq, l1⟩, ⟨q', hq', l2⟩⟩ := K.1
      exact ⟨le_trans' (isInside2_iff.1 (hin q hq)).1.1 l1, le_trans' l2 (isInside2_iff.1 (hin q' hq')).1.2⟩
    · obtain ⟨⟨q, hq, l1⟩, ⟨q', hq', l2⟩⟩ := K.2
      exact ⟨le_trans' (isInside2_iff.1 (hin q hq)).2.1 l1, le_trans' l2 (isInside2_iff.1 (hin q' hq')).2.2⟩
  · intro C hC
    refine hmin C ((corners_iff2 t build b (fun q => C.isInside q = true)).1 fun k hk c hc => ?_)
    exact hC c (corner_inside2 build b wb hk hc)

/-- **C95**: the NaN condition is needed: if the image of some corner has a NaN coordinate, no box contains the images of
all the points of the box. -/
theorem C95_nan2 (t : Transform2 S) (build : Build) (b : BoundingBox2 S) (wb : LeAll b.min b.max) (k : UInt32) (hk : k < 4) (c : Point2 S)
    (hc : b.corner build k = .ok c) (hn : ¬ NoNaN (Transform.transform t c : Point2 S)) (C : BoundingBox2 S) :
    b.isInside c = true ∧ C.isInside (Transform.transform t c : Point2 S) = false := by
  refine ⟨corner_inside2 build b wb hk hc, ?_⟩
  rw [Bool.eq_false_iff]
  intro h
  rw [isInside2_iff] at h
  exact hn (Point2.noNaN.2 ⟨(le_iff.1 h.1.1).2.1, (le_iff.1 h.2.1).2.1⟩)

/-- a property of numbers shared by the coordinates of all the images of the corners holds of the box around them -/
theorem around_all2 (Q : S → Prop) (hQ : ∀ {a c : S}, num a = num c → Q c → Q a) (t : Transform2 S) (build : Build) (b : BoundingBox2 S)
    (hn : ∀ k : UInt32, k < 4 → ∀ c, b.corner build k = .ok c →
      Q (Transform.transform t c : Point2 S).x ∧ Q (Transform.transform t c : Point2 S).y)
    (hs : ∀ k : UInt32, k < 4 → ∀ c, b.corner build k = .ok c → NoNaN (Transform.transform t c : Point2 S)) :
    ∃ B : BoundingBox2 S, t.around build b = .ok B ∧ (Q B.min.x ∧ Q B.min.y) ∧ Q B.max.x ∧ Q B.max.y := by
  refine ⟨_, around_eq2 t build b, ?_⟩
  have hn' := (corners_iff2 t build b (fun q => Q q.x ∧ Q q.y)).1 hn
  replace hs := (corners_iff2 t build b NoNaN).1 hs
  have hne : corners2 t b ≠ [] := by simp [corners2]
  generalize corners2 t b = l at *
  obtain ⟨p, ps, rfl⟩ := List.exists_cons_of_ne_nil hne
  rw [List.foldl_cons]
  have h0 : (Q (Api.union (BoundingBox2.empty : BoundingBox2 S) p).min.x ∧ Q (Api.union (BoundingBox2.empty : BoundingBox2 S) p).min.y) ∧ Q (Api.union (BoundingBox2.empty : BoundingBox2 S) p).max.x ∧ Q (Api.union (BoundingBox2.empty : BoundingBox2 S) p).max.y := by
    have e := union_emp2 (S := S) (hs p (by simp))
    have fp := hn' p (by simp)
    simp only [BoundingBox2.beq_iff, Point2.beq_iff] at e
    exact ⟨⟨hQ (num_of_beq e.1.1) fp.1, hQ (num_of_beq e.1.2) fp.2⟩, hQ (num_of_beq e.2.1) fp.1, hQ (num_of_beq e.2.2) fp.2⟩
  have hp : ∀ q ∈ ps, Q q.x ∧ Q q.y := fun q hq => hn' q (by simp [hq])
  clear hn hn' hs hne
  have mn : ∀ {a c : S}, Q a → Q c → Q (fmin a c) := by
    intro a c ha hc
    rcases min_same (a := a) (b := c) with h | h
    · exact hQ (by unfold num; rw [h]) ha
    · exact hQ (by unfold num; rw [h]) hc
  have mx : ∀ {a c : S}, Q a → Q c → Q (fmax a c) := by
    intro a c ha hc
    rcases max_same (a := a) (b := c) with h | h
    · exact hQ (by unfold num; rw [h]) ha
    · exact hQ (by unfold num; rw [h]) hc
  generalize Api.union (BoundingBox2.empty : BoundingBox2 S) p = acc at h0
  induction ps generalizing acc with
  | nil => exact h0
  | cons q ps ih =>
    rw [List.foldl_cons]
    refine ih (fun r hr => hp r (by simp [hr])) (Api.union acc q) ?_
    have fq := hp q (by simp)
    obtain ⟨⟨ax, ay⟩, ex, ey⟩ := h0
    exact ⟨⟨mn (mn ax fq.1) (mx ex fq.1), mn (mn ay fq.2) (mx ey fq.2)⟩, mx (mn ax fq.1) (mx ex fq.1), mx (mn ay fq.2) (mx ey fq.2)⟩

/-- **C95**: if the images of the corners are finite, so is the box around them: it can be transformed again. -/
theorem C95_finite2 (t : Transform2 S) (build : Build) (b : BoundingBox2 S)
    (hn : ∀ k : UInt32, k < 4 → ∀ c, b.corner build k = .ok c → AllFinite (Transform.transform t c : Point2 S)) :
    ∃ B : BoundingBox2 S, t.around build b = .ok B ∧ AllFinite B := by
  obtain ⟨B, h1, h2⟩ := around_all2 IsFinite (fun h hc => (finite_num h).2 hc) t build b
    (fun k hk c hc => Point2.allFinite.1 (hn k hk c hc)) (fun k hk c hc => (hn k hk c hc).noNaN)
  exact ⟨B, h1, BoundingBox2.allFinite.2 ⟨Point2.allFinite.2 h2.1, Point2.allFinite.2 h2.2⟩⟩

/-- **C95**: the box is no larger in magnitude than the images of the corners. -/
theorem C95_bounded2 {M : ℝ} (t : Transform2 S) (build : Build) (b : BoundingBox2 S)
    (hn : ∀ k : UInt32, k < 4 → ∀ c, b.corner build k = .ok c → UpToAll M (Transform.transform t c : Point2 S)) :
    ∃ B : BoundingBox2 S, t.around build b = .ok B ∧ UpToAll M B := by
  obtain ⟨B, h1, h2⟩ := around_all2 (UpTo M) (fun h hc => ⟨(finite_num h).2 hc.1, by rw [real_num h]; exact hc.2⟩) t build b
    (fun k hk c hc => Point2.upToAll.1 (hn k hk c hc)) (fun k hk c hc => (hn k hk c hc).allFinite.noNaN)
  exact ⟨B, h1, BoundingBox2.upToAll.2 ⟨Point2.upToAll.2 h2.1, Point2.upToAll.2 h2.2⟩⟩

/-- every level is finite and affine, and its computed corner images are finite -/
def Levels2 (build : Build) : List (Transform2 S) → BoundingBox2 S → Prop
  | [], _ => True
  | t :: ts, b => AllFinite t.forward ∧ t.forward.toReal 2 = ![0, 0, 1] ∧
      (∀ k : UInt32, k < 4 → ∀ c, b.corner build k = .ok c → AllFinite (Transform.transform t c : Point2 S)) ∧
      ∀ b', t.around build b = .ok b' → Levels2 build ts b'

/-- **C95**: a scene graph of any depth: a point of the innermost box, transformed level by level, is in the outermost box. -/
theorem C95_levels2 (build : Build) (ts : List (Transform2 S)) (b : BoundingBox2 S) (hb : AllFinite b) (wb : LeAll b.min b.max)
    (h : Levels2 build ts b) :
    ∃ B : BoundingBox2 S, Transform2.aroundAll build ts b = .ok B ∧ AllFinite B ∧ LeAll B.min B.max ∧
      ∀ p, b.isInside p = true → B.isInside (ts.foldl (fun q t => (Transform.transform t q : Point2 S)) p) = true := by
  induction ts generalizing b with
  | nil => exact ⟨b, rfl, hb, wb, fun p hp => hp⟩
  | cons t ts ih =>
    obtain ⟨h1, h2, h3, h4⟩ := h
    obtain ⟨b1, e1, f1⟩ := C95_finite2 t build b h3
    obtain ⟨b2, e2, w2, i2, -⟩ := C95_around2 t build b h1 h2 hb wb (fun k hk c hc => Point2.noNaN.2 (by
      have := Point2.allFinite.1 (h3 k hk c hc)
      exact ⟨this.1.not_nan, this.2.not_nan⟩))
    obtain rfl : b1 = b2 := Except.ok.inj (e1.symm.trans e2)
    obtain ⟨B, e3, f3, w3, i3⟩ := ih b1 f1 w2 (h4 b1 e1)
    refine ⟨B, ?_, f3, w3, fun p hp => i3 _ (i2 p hp)⟩
    show (t.around build b).bind _ = _
    rw [e1]; exact e3

/-! ## 3D -/

/-- the computed images of the corners, in the order of their numbers -/
def corners3 (t : Transform3 S) (b : BoundingBox3 S) : List (Point3 S) :=
  ([⟨b.min.x, b.min.y, b.min.z⟩, ⟨b.max.x, b.min.y, b.min.z⟩, ⟨b.min.x, b.max.y, b.min.z⟩, ⟨b.max.x, b.max.y, b.min.z⟩, ⟨b.min.x, b.min.y, b.max.z⟩, ⟨b.max.x, b.min.y, b.max.z⟩, ⟨b.min.x, b.max.y, b.max.z⟩, ⟨b.max.x, b.max.y, b.max.z⟩] : List (Point3 S)).map fun c => Transform.transform t c

omit [IEEE S] in
theorem corner_ok3 (build : Build) (b : BoundingBox3 S) :
    b.corner build 0 = .ok ⟨b.min.x, b.min.y, b.min.z⟩ ∧ b.corner build 1 = .ok ⟨b.max.x, b.min.y, b.min.z⟩ ∧ b.corner build 2 = .ok ⟨b.min.x, b.max.y, b.min.z⟩ ∧ b.corner build 3 = .ok ⟨b.max.x, b.max.y, b.min.z⟩ ∧ b.corner build 4 = .ok ⟨b.min.x, b.min.y, b.max.z⟩ ∧ b.corner build 5 = .ok ⟨b.max.x, b.min.y, b.max.z⟩ ∧ b.corner build 6 = .ok ⟨b.min.x, b.max.y, b.max.z⟩ ∧ b.corner build 7 = .ok ⟨b.max.x, b.max.y, b.max.z⟩ := by
  cases build <;> exact ⟨rfl, rfl, rfl, rfl, rfl, rfl, rfl, rfl⟩
omit [IEEE S] in
theorem around_eq3 (t : Transform3 S) (build : Build) (b : BoundingBox3 S) :
    t.around build b = .ok ((corners3 t b).foldl (fun acc p => Api.union acc p) BoundingBox3.empty) := by
  obtain ⟨h0, h1, h2, h3, h4, h5, h6, h7⟩ := corner_ok3 build b
  unfold Transform3.around corners3
  simp only [List.mapM_cons, List.mapM_nil, h0, h1, h2, h3, h4, h5, h6, h7]
  rfl
omit [IEEE S] in
theorem corners_iff3 (t : Transform3 S) (build : Build) (b : BoundingBox3 S) (Q : Point3 S → Prop) :
    (∀ k : UInt32, k < 8 → ∀ c, b.corner build k = .ok c → Q (Transform.transform t c : Point3 S)) ↔ ∀ q ∈ corners3 t b, Q q := by
  obtain ⟨h0, h1, h2, h3, h4, h5, h6, h7⟩ := corner_ok3 build b
  constructor
  · intro h
    simp only [corners3, List.map_cons, List.map_nil, List.forall_mem_cons, List.not_mem_nil, IsEmpty.forall_iff, implies_true, and_true]
    exact ⟨h 0 (by decide) _ h0, h 1 (by decide) _ h1, h 2 (by decide) _ h2, h 3 (by decide) _ h3, h 4 (by decide) _ h4, h 5 (by decide) _ h5, h 6 (by decide) _ h6, h 7 (by decide) _ h7⟩
  · intro h k hk c hc
    have hk' : k = 0 ∨ k = 1 ∨ k = 2 ∨ k = 3 ∨ k = 4 ∨ k = 5 ∨ k = 6 ∨ k = 7 := by
      have : k.toNat < 8 := hk
      have e : k = UInt32.ofNat k.toNat := by simp
      generalize k.toNat = m at *
      subst e
      interval_cases m <;> simp
    simp only [corners3, List.map_cons, List.map_nil, List.forall_mem_cons, List.not_mem_nil, IsEmpty.forall_iff, implies_true, and_true] at h
    rcases hk' with rfl | rfl | rfl | rfl | rfl | rfl | rfl | rfl
    · rw [h0] at hc; cases hc; exact h.1
    · rw [h1] at hc; cases hc; exact h.2.1
    · rw [h2] at hc; cases hc; exact h.2.2.1
    · rw [h3] at hc; cases hc; exact h.2.2.2.1
    · rw [h4] at hc; cases hc; exact h.2.2.2.2.1
    · rw [h5] at hc; cases hc; exact h.2.2.2.2.2.1
    · rw [h6] at hc; cases hc; exact h.2.2.2.2.2.2.1
    · rw [h7] at hc; cases hc; exact h.2.2.2.2.2.2.2

/-- the corners are in the box -/
theorem corner_inside3 (build : Build) (b : BoundingBox3 S) (wb : LeAll b.min b.max) {k : UInt32} {c : Point3 S}
    (hk : k < 8) (hc : b.corner build k = .ok c) : b.isInside c = true := by
  rw [Point3.leAll] at wb
  unfold BoundingBox3.corner at hc
  split_ifs at hc <;> cases hc <;> rw [isInside3_iff] <;> simp only [Point3.new] <;>
    refine ⟨?_, ?_, ?_⟩ <;>
    first
    | exact ⟨le_self (le_iff.1 wb.1).1, wb.1⟩
    | exact ⟨wb.1, le_self (le_iff.1 wb.1).2.1⟩
    | exact ⟨le_self (le_iff.1 wb.2.1).1, wb.2.1⟩
    | exact ⟨wb.2.1, le_self (le_iff.1 wb.2.1).2.1⟩
    | exact ⟨le_self (le_iff.1 wb.2.2).1, wb.2.2⟩
    | exact ⟨wb.2.2, le_self (le_iff.1 wb.2.2).2.1⟩

/-- **C95** (key): the computed image of a point of the box is, coordinate by coordinate, a number between two of the
computed images of the corners. -/
theorem image_between3 (t : Transform3 S) (b : BoundingBox3 S) (p : Point3 S) (ht : AllFinite t.forward)
    (haff : t.forward.toReal 3 = ![0, 0, 0, 1]) (hb : AllFinite b) (hn : ∀ q ∈ corners3 t b, NoNaN q)
    (hp : b.isInside p = true) :
    ((∃ q ∈ corners3 t b, (q.x ≤? (Transform.transform t p : Point3 S).x) = true) ∧
      (∃ q ∈ corners3 t b, ((Transform.transform t p : Point3 S).x ≤? q.x) = true)) ∧
    ((∃ q ∈ corners3 t b, (q.y ≤? (Transform.transform t p : Point3 S).y) = true) ∧
      (∃ q ∈ corners3 t b, ((Transform.transform t p : Point3 S).y ≤? q.y) = true)) ∧
    ((∃ q ∈ corners3 t b, (q.z ≤? (Transform.transform t p : Point3 S).z) = true) ∧
      (∃ q ∈ corners3 t b, ((Transform.transform t p : Point3 S).z ≤? q.z) = true)) := by
  rw [BoundingBox3.allFinite, Point3.allFinite, Point3.allFinite] at hb
  rw [isInside3_iff] at hp
  rw [Matrix4x4.allFinite, forall_lt_16] at ht
  obtain ⟨h0, h1, h2, h3, h4, h5, h6, h7, h8, h9, h10, h11, h12, h13, h14, h15⟩ := ht
  obtain ⟨⟨lx, ly, lz⟩, ux, uy, uz⟩ := hb
  obtain ⟨px, py, pz⟩ := hp
  have fx : IsFinite p.x := finite_btw lx ux px.1 px.2
  have rx : real b.min.x ≤ real p.x ∧ real p.x ≤ real b.max.x := by
    have h1 := (le_iff.1 px.1).2.2
    have h2 := (le_iff.1 px.2).2.2
    rw [lx.val, fx.val, EReal.coe_le_coe_iff] at h1
    rw [ux.val, fx.val, EReal.coe_le_coe_iff] at h2
    exact ⟨h1, h2⟩
  have fy : IsFinite p.y := finite_btw ly uy py.1 py.2
  have ry : real b.min.y ≤ real p.y ∧ real p.y ≤ real b.max.y := by
    have h1 := (le_iff.1 py.1).2.2
    have h2 := (le_iff.1 py.2).2.2
    rw [ly.val, fy.val, EReal.coe_le_coe_iff] at h1
    rw [uy.val, fy.val, EReal.coe_le_coe_iff] at h2
    exact ⟨h1, h2⟩
  have fz : IsFinite p.z := finite_btw lz uz pz.1 pz.2
  have rz : real b.min.z ≤ real p.z ∧ real p.z ≤ real b.max.z := by
    have h1 := (le_iff.1 pz.1).2.2
    have h2 := (le_iff.1 pz.2).2.2
    rw [lz.val, fz.val, EReal.coe_le_coe_iff] at h1
    rw [uz.val, fz.val, EReal.coe_le_coe_iff] at h2
    exact ⟨h1, h2⟩
  have W : ∀ {x y z : S}, IsFinite x → IsFinite y → IsFinite z → num (t.forward.m[12] * x + t.forward.m[13] * y + t.forward.m[14] * z + t.forward.m[15]) = num (one : S) :=
    fun {x y z} gx gy gz => weight_one3 h12 h13 h14 h15 gx gy gz (congrFun haff 0) (congrFun haff 1) (congrFun haff 2) (congrFun haff 3)
  have key : ∀ {v w : S}, num w = num (one : S) → (IsNaN (v / w) ↔ IsNaN v) ∧ val (v / w) = val v := by
    intro v w hw
    have e := div_weight (x := v) hw
    exact ⟨by rw [isNaN_num, isNaN_num (a := v), e], by rw [val_num, val_num v, e]⟩
  have mem : ∀ cx ∈ ({b.min.x, b.max.x} : Set S), ∀ cy ∈ ({b.min.y, b.max.y} : Set S), ∀ cz ∈ ({b.min.z, b.max.z} : Set S), (Transform.transform t (⟨cx, cy, cz⟩ : Point3 S) : Point3 S) ∈ corners3 t b ∧ IsFinite cx ∧ IsFinite cy ∧ IsFinite cz := by
    intro cx hx cy hy cz hz
    simp only [Set.mem_insert_iff, Set.mem_singleton_iff] at hx hy hz
    rcases hx with rfl | rfl <;> rcases hy with rfl | rfl <;> rcases hz with rfl | rfl <;>
      exact ⟨by simp [corners3], by assumption, by assumption, by assumption⟩
  have Rx : ((∃ q ∈ corners3 t b, (q.x ≤? (Transform.transform t p : Point3 S).x) = true) ∧
      (∃ q ∈ corners3 t b, ((Transform.transform t p : Point3 S).x ≤? q.x) = true)) := by
    obtain ⟨k, ⟨cx, hx, cy, hy, cz, hz, le⟩, ⟨dx, gx, dy, gy, dz, gz, lf⟩⟩ := enc_row3 h0 h1 h2 h3 lx ux ly uy lz uz fx fy fz rx ry rz
      (fun cx hx cy hy cz hz => (not_congr (key (W (mem _ hx _ hy _ hz).2.1 (mem _ hx _ hy _ hz).2.2.1 (mem _ hx _ hy _ hz).2.2.2)).1).1 ((Point3.noNaN.1 (hn _ (mem _ hx _ hy _ hz).1)).1))
    have kp := key (v := t.forward.m[0] * p.x + t.forward.m[1] * p.y + t.forward.m[2] * p.z + t.forward.m[3]) (W fx fy fz)
    constructor
    · exact ⟨_, (mem _ hx _ hy _ hz).1, le_iff.2 ⟨(Point3.noNaN.1 (hn _ (mem _ hx _ hy _ hz).1)).1, (not_congr kp.1).2 k, (key (v := t.forward.m[0] * cx + t.forward.m[1] * cy + t.forward.m[2] * cz + t.forward.m[3]) (W (mem _ hx _ hy _ hz).2.1 (mem _ hx _ hy _ hz).2.2.1 (mem _ hx _ hy _ hz).2.2.2)).2.trans_le (le.trans kp.2.ge)⟩⟩
    · exact ⟨_, (mem _ gx _ gy _ gz).1, le_iff.2 ⟨(not_congr kp.1).2 k, (Point3.noNaN.1 (hn _ (mem _ gx _ gy _ gz).1)).1, kp.2.trans_le (lf.trans (key (v := t.forward.m[0] * dx + t.forward.m[1] * dy + t.forward.m[2] * dz + t.forward.m[3]) (W (mem _ gx _ gy _ gz).2.1 (mem _ gx _ gy _ gz).2.2.1 (mem _ gx _ gy _ gz).2.2.2)).2.ge)⟩⟩
  have Ry : ((∃ q ∈ corners3 t b, (q.y ≤? (Transform.transform t p : Point3 S).y) = true) ∧
      (∃ q ∈ corners3 t b, ((Transform.transform t p : Point3 S).y ≤? q.y) = true)) := by
    obtain ⟨k, ⟨cx, hx, cy, hy, cz, hz, le⟩, ⟨dx, gx, dy, gy, dz, gz, lf⟩⟩ := enc_row3 h4 h5 h6 h7 lx ux ly uy lz uz fx fy fz rx ry rz
      (fun cx hx cy hy cz hz => (not_congr (key (W (mem _ hx _ hy _ hz).2.1 (mem _ hx _ hy _ hz).2.2.1 (mem _ hx _ hy _ hz).2.2.2)).1).1 ((Point3.noNaN.1 (hn _ (mem _ hx _ hy _ hz).1)).2.1))
    have kp := key (v := t.forward.m[4] * p.x + t.forward.m[5] * p.y + t.forward.m[6] * p.z + t.forward.m[7]) (W fx fy fz)
    constructor
    · exact ⟨_, (mem _ hx _ hy _ hz).1, le_iff.2 ⟨(Point3.noNaN.1 (hn _ (mem _ hx _ hy _ hz).1)).2.1, (not_congr kp.1).2 k, (key (v := t.forward.m[4] * cx + t.forward.m[5] * cy + t.forward.m[6] * cz + t.forward.m[7]) (W (mem _ hx _ hy _ hz).2.1 (mem _ hx _ hy _ hz).2.2.1 (mem _ hx _ hy _ hz).2.2.2)).2.trans_le (le.trans kp.2.ge)⟩⟩
    · exact ⟨_, (mem _ gx _ gy _ gz).1, le_iff.2 ⟨(not_congr kp.1).2 k, (Point3.noNaN.1 (hn _ (mem _ gx _ gy _ gz).1)).2.1, kp.2.trans_le (lf.trans (key (v := t.forward.m[4] * dx + t.forward.m[5] * dy + t.forward.m[6] * dz + t.forward.m[7]) (W (mem _ gx _ gy _ gz).2.1 (mem _ gx _ gy _ gz).2.2.1 (mem _ gx _ gy _ gz).2.2.2)).2.ge)⟩⟩
  have Rz : ((∃ q ∈ corners3 t b, (q.z ≤? (Transform.transform t p : Point3 S).z) = true) ∧
      (∃ q ∈ corners3 t b, ((Transform.transform t p : Point3 S).z ≤? q.z) = true)) := by
    obtain ⟨k, ⟨cx, hx, cy, hy, cz, hz, le⟩, ⟨dx, gx, dy, gy, dz, gz, lf⟩⟩ := enc_row3 h8 h9 h10 h11 lx ux ly uy lz uz fx fy fz rx ry rz
      (fun cx hx cy hy cz hz => (not_congr (key (W (mem _ hx _ hy _ hz).2.1 (mem _ hx _ hy _ hz).2.2.1 (mem _ hx _ hy _ hz).2.2.2)).1).1 ((Point3.noNaN.1 (hn _ (mem _ hx _ hy _ hz).1)).2.2))
    have kp := key (v := t.forward.m[8] * p.x + t.forward.m[9] * p.y + t.forward.m[10] * p.z + t.forward.m[11]) (W fx fy fz)
    constructor
    · exact ⟨_, (mem _ hx _ hy _ hz).1, le_iff.2 ⟨(Point3.noNaN.1 (hn _ (mem _ hx _ hy _ hz).1)).2.2, (not_congr kp.1).2 k, (key (v := t.forward.m[8] * cx + t.forward.m[9] * cy + t.forward.m[10] * cz + t.forward.m[11]) (W (mem _ hx _ hy _ hz).2.1 (mem _ hx _ hy _ hz).2.2.1 (mem _ hx _ hy _ hz).2.2.2)).2.trans_le (le.trans kp.2.ge)⟩⟩
    · exact ⟨_, (mem _ gx _ gy _ gz).1, le_iff.2 ⟨(not_congr kp.1).2 k, (Point3.noNaN.1 (hn _ (mem _ gx _ gy _ gz).1)).2.2, kp.2.trans_le (lf.trans (key (v := t.forward.m[8] * dx + t.forward.m[9] * dy + t.forward.m[10] * dz + t.forward.m[11]) (W (mem _ gx _ gy _ gz).2.1 (mem _ gx _ gy _ gz).2.2.1 (mem _ gx _ gy _ gz).2.2.2)).2.ge)⟩⟩
  exact ⟨Rx, Ry, Rz⟩

/-- **C95**: the box around the transformed corners contains, exactly, the computed image of every point of the box, and
it is the smallest box that does. -/
theorem C95_around3 (t : Transform3 S) (build : Build) (b : BoundingBox3 S) (ht : AllFinite t.forward)
    (haff : t.forward.toReal 3 = ![0, 0, 0, 1]) (hb : AllFinite b) (wb : LeAll b.min b.max)
    (hn : ∀ k : UInt32, k < 8 → ∀ c, b.corner build k = .ok c → NoNaN (Transform.transform t c : Point3 S)) :
    ∃ B : BoundingBox3 S, t.around build b = .ok B ∧ LeAll B.min B.max ∧
      (∀ p, b.isInside p = true → B.isInside (Transform.transform t p : Point3 S) = true) ∧
      (∀ C : BoundingBox3 S, (∀ p, b.isInside p = true → C.isInside (Transform.transform t p : Point3 S) = true) →
        ∀ r, B.isInside r = true → C.isInside r = true) := by
  have hn' := (corners_iff3 t build b NoNaN).1 hn
  obtain ⟨w, hin, hmin⟩ := C27_points3 (corners3 t b) (by simp [corners3]) hn'
  refine ⟨_, around_eq3 t build b, w, ?_, ?_⟩
  · intro p hp
    have K := image_between3 t b p ht haff hb hn' hp
    rw [isInside3_iff]
    refine ⟨?_, ?_, ?_⟩
    · obtain ⟨⟨q, hq, l1⟩, ⟨q', hq', l2⟩⟩ := K.1
      exact ⟨le_trans' (isInside3_iff.1 (hin q hq)).1.1 l1, le_trans' l2 (isInside3_iff.1 (hin q' hq')).1.2⟩
    · obtain ⟨⟨q, hq, l1⟩, ⟨q', hq', l2⟩⟩ := K.2.1
      exact ⟨le_trans' (isInside3_iff.1 (hin q hq)).2.1.1 l1, le_trans' l2 (isInside3_iff.1 (hin q' hq')).2.1.2⟩
    · obtain ⟨⟨q, hq, l1⟩, ⟨q', hq', l2⟩⟩ := K.2.2
      exact ⟨le_trans' (isInside3_iff.1 (hin q hq)).2.2.1 l1, le_trans' l2 (isInside3_iff.1 (hin q' hq')).2.2.2⟩
  · intro C hC
    refine hmin C ((corners_iff3 t build b (fun q => C.isInside q = true)).1 fun k hk c hc => ?_)
    exact hC c (corner_inside3 build b wb hk hc)

/-- **C95**: the NaN condition is needed: if the image of some corner has a NaN coordinate, no box contains the images of
all the points of the box. -/
theorem C95_nan3 (t : Transform3 S) (build : Build) (b : BoundingBox3 S) (wb : LeAll b.min b.max) (k : UInt32) (hk : k < 8) (c : Point3 S)
    (hc : b.corner build k = .ok c) (hn : ¬ NoNaN (Transform.transform t c : Point3 S)) (C : BoundingBox3 S) :
    b.isInside c = true ∧ C.isInside (Transform.transform t c : Point3 S) = false := by
  refine ⟨corner_inside3 build b wb hk hc, ?_⟩
  rw [Bool.eq_false_iff]
  intro h
  rw [isInside3_iff] at h
  exact hn (Point3.noNaN.2 ⟨(le_iff.1 h.1.1).2.1, (le_iff.1 h.2.1.1).2.1, (le_iff.1 h.2.2.1).2.1⟩)

/-- a property of numbers shared by the coordinates of all the images of the corners holds of the box around them -/
theorem around_all3 (Q : S → Prop) (hQ : ∀ {a c : S}, num a = num c → Q c → Q a) (t : Transform3 S) (build : Build) (b : BoundingBox3 S)
    (hn : ∀ k : UInt32, k < 8 → ∀ c, b.corner build k = .ok c →
      Q (Transform.transform t c : Point3 S).x ∧ Q (Transform.transform t c : Point3 S).y ∧ Q (Transform.transform t c : Point3 S).z)
    (hs : ∀ k : UInt32, k < 8 → ∀ c, b.corner build k = .ok c → NoNaN (Transform.transform t c : Point3 S)) :
    ∃ B : BoundingBox3 S, t.around build b = .ok B ∧ (Q B.min.x ∧ Q B.min.y ∧ Q B.min.z) ∧ Q B.max.x ∧ Q B.max.y ∧ Q B.max.z := by
  refine ⟨_, around_eq3 t build b, ?_⟩
  have hn' := (corners_iff3 t build b (fun q => Q q.x ∧ Q q.y ∧ Q q.z)).1 hn
  replace hs := (corners_iff3 t build b NoNaN).1 hs
  have hne : corners3 t b ≠ [] := by simp [corners3]
  generalize corners3 t b = l at *
  obtain ⟨p, ps, rfl⟩ := List.exists_cons_of_ne_nil hne
  rw [List.foldl_cons]
  have h0 : (Q (Api.union (BoundingBox3.empty : BoundingBox3 S) p).min.x ∧ Q (Api.union (BoundingBox3.empty : BoundingBox3 S) p).min.y ∧ Q (Api.union (BoundingBox3.empty : BoundingBox3 S) p).min.z) ∧ Q (Api.union (BoundingBox3.empty : BoundingBox3 S) p).max.x ∧ Q (Api.union (BoundingBox3.empty : BoundingBox3 S) p).max.y ∧ Q (Api.union (BoundingBox3.empty : BoundingBox3 S) p).max.z := by
    have e := union_emp3 (S := S) (hs p (by simp))
    have fp := hn' p (by simp)
    simp only [BoundingBox3.beq_iff, Point3.beq_iff] at e
    exact ⟨⟨hQ (num_of_beq e.1.1) fp.1, hQ (num_of_beq e.1.2.1) fp.2.1, hQ (num_of_beq e.1.2.2) fp.2.2⟩, hQ (num_of_beq e.2.1) fp.1, hQ (num_of_beq e.2.2.1) fp.2.1, hQ (num_of_beq e.2.2.2) fp.2.2⟩
  have hp : ∀ q ∈ ps, Q q.x ∧ Q q.y ∧ Q q.z := fun q hq => hn' q (by simp [hq])
  clear hn hn' hs hne
  have mn : ∀ {a c : S}, Q a → Q c → Q (fmin a c) := by
    intro a c ha hc
    rcases min_same (a := a) (b := c) with h | h
    · exact hQ (by unfold num; rw [h]) ha
    · exact hQ (by unfold num; rw [h]) hc
  have mx : ∀ {a c : S}, Q a → Q c → Q (fmax a c) := by
    intro a c ha hc
    rcases max_same (a := a) (b := c) with h | h
    · exact hQ (by unfold num; rw [h]) ha
    · exact hQ (by unfold num; rw [h]) hc
  generalize Api.union (BoundingBox3.empty : BoundingBox3 S) p = acc at h0
  induction ps generalizing acc with
  | nil => exact h0
  | cons q ps ih =>
    rw [List.foldl_cons]
    refine ih (fun r hr => hp r (by simp [hr])) (Api.union acc q) ?_
    have fq := hp q (by simp)
    obtain ⟨⟨ax, ay, az⟩, ex, ey, ez⟩ := h0
    exact ⟨⟨mn (mn ax fq.1) (mx ex fq.1), mn (mn ay fq.2.1) (mx ey fq.2.1), mn (mn az fq.2.2) (mx ez fq.2.2)⟩, mx (mn ax fq.1) (mx ex fq.1), mx (mn ay fq.2.1) (mx ey fq.2.1), mx (mn az fq.2.2) (mx ez fq.2.2)⟩

/-- **C95**: if the images of the corners are finite, so is the box around them: it can be transformed again. -/
theorem C95_finite3 (t : Transform3 S) (build : Build) (b : BoundingBox3 S)
    (hn : ∀ k : UInt32, k < 8 → ∀ c, b.corner build k = .ok c → AllFinite (Transform.transform t c : Point3 S)) :
    ∃ B : BoundingBox3 S, t.around build b = .ok B ∧ AllFinite B := by
  obtain ⟨B, h1, h2⟩ := around_all3 IsFinite (fun h hc => (finite_num h).2 hc) t build b
    (fun k hk c hc => Point3.allFinite.1 (hn k hk c hc)) (fun k hk c hc => (hn k hk c hc).noNaN)
  exact ⟨B, h1, BoundingBox3.allFinite.2 ⟨Point3.allFinite.2 h2.1, Point3.allFinite.2 h2.2⟩⟩

/-- **C95**: the box is no larger in magnitude than the images of the corners. -/
theorem C95_bounded3 {M : ℝ} (t : Transform3 S) (build : Build) (b : BoundingBox3 S)
    (hn : ∀ k : UInt32, k < 8 → ∀ c, b.corner build k = .ok c → UpToAll M (Transform.transform t c : Point3 S)) :
    ∃ B : BoundingBox3 S, t.around build b = .ok B ∧ UpToAll M B := by
  obtain ⟨B, h1, h2⟩ := around_all3 (UpTo M) (fun h hc => ⟨(finite_num h).2 hc.1, by rw [real_num h]; exact hc.2⟩) t build b
    (fun k hk c hc => Point3.upToAll.1 (hn k hk c hc)) (fun k hk c hc => (hn k hk c hc).allFinite.noNaN)
  exact ⟨B, h1, BoundingBox3.upToAll.2 ⟨Point3.upToAll.2 h2.1, Point3.upToAll.2 h2.2⟩⟩

/-- every level is finite and affine, and its computed corner images are finite -/
def Levels3 (build : Build) : List (Transform3 S) → BoundingBox3 S → Prop
  | [], _ => True
  | t :: ts, b => AllFinite t.forward ∧ t.forward.toReal 3 = ![0, 0, 0, 1] ∧
      (∀ k : UInt32, k < 8 → ∀ c, b.corner build k = .ok c → AllFinite (Transform.transform t c : Point3 S)) ∧
      ∀ b', t.around build b = .ok b' → Levels3 build ts b'

/-- **C95**: a scene graph of any depth: a point of the innermost box, transformed level by level, is in the outermost box. -/
theorem C95_levels3 (build : Build) (ts : List (Transform3 S)) (b : BoundingBox3 S) (hb : AllFinite b) (wb : LeAll b.min b.max)
    (h : Levels3 build ts b) :
    ∃ B : BoundingBox3 S, Transform3.aroundAll build ts b = .ok B ∧ AllFinite B ∧ LeAll B.min B.max ∧
      ∀ p, b.isInside p = true → B.isInside (ts.foldl (fun q t => (Transform.transform t q : Point3 S)) p) = true := by
  induction ts generalizing b with
  | nil => exact ⟨b, rfl, hb, wb, fun p hp => hp⟩
  | cons t ts ih =>
    obtain ⟨h1, h2, h3, h4⟩ := h
    obtain ⟨b1, e1, f1⟩ := C95_finite3 t build b h3
    obtain ⟨b2, e2, w2, i2, -⟩ := C95_around3 t build b h1 h2 hb wb (fun k hk c hc => Point3.noNaN.2 (by
      have := Point3.allFinite.1 (h3 k hk c hc)
      exact ⟨this.1.not_nan, this.2.1.not_nan, this.2.2.not_nan⟩))
    obtain rfl : b1 = b2 := Except.ok.inj (e1.symm.trans e2)
    obtain ⟨B, e3, f3, w3, i3⟩ := ih b1 f1 w2 (h4 b1 e1)
    refine ⟨B, ?_, f3, w3, fun p hp => i3 _ (i2 p hp)⟩
    show (t.around build b).bind _ = _
    rw [e1]; exact e3
end
section
variable {S : Type} [Scalar S] [IEEE S] [Binary S]

/-- the corners are no larger than the box -/
theorem corner_upTo2 {M : ℝ} (build : Build) (b : BoundingBox2 S) (hb : UpToAll M b) {k : UInt32} {c : Point2 S}
    (hc : b.corner build k = .ok c) : UpToAll M c := by
  rw [BoundingBox2.upToAll, Point2.upToAll, Point2.upToAll] at hb
  unfold BoundingBox2.corner at hc
  split_ifs at hc <;> cases hc <;> rw [Point2.upToAll] <;> simp only [Point2.new] <;>
    exact ⟨(by first | exact hb.1.1 | exact hb.2.1), (by first | exact hb.1.2 | exact hb.2.2)⟩
/-- **C95** without overflow: linear part up to `2^a`, box up to `2^b`, offset up to `2^(a+b)`: no condition on the computed
images is needed, and the box around the corners is finite and at most `3 · 2^(a+b)`. -/
theorem C95_room2 {a e : ℤ} (t : Transform2 S) (build : Build) (b : BoundingBox2 S) (hF : AllFinite t.forward)
    (haff : t.forward.toReal 2 = ![0, 0, 1]) (hA : ∀ i j : Fin 2, UpTo (2 ^ a) (t.forward.m[3 * i.val + j.val]))
    (ho : ∀ i : Fin 2, UpTo (2 ^ (a + e)) (t.forward.m[3 * i.val + 2])) (hb : UpToAll (2 ^ e) b) (wb : LeAll b.min b.max)
    (hR : Room S (a + e) 3) :
    ∃ B : BoundingBox2 S, t.around build b = .ok B ∧ UpToAll (3 * 2 ^ (a + e)) B ∧ LeAll B.min B.max ∧
      ∀ p, b.isInside p = true → B.isInside (Transform.transform t p : Point2 S) = true := by
  have fc : ∀ k : UInt32, k < 4 → ∀ c, b.corner build k = .ok c →
      UpToAll (3 * 2 ^ (a + e)) (Transform.transform t c : Point2 S) :=
    fun k _ c hc => C86_point2 t c hF haff hA ho (corner_upTo2 build b hb hc) hR
  obtain ⟨B, e1, u⟩ := C95_bounded2 t build b fc
  obtain ⟨B', e2, w, i, -⟩ := C95_around2 t build b hF haff hb.allFinite wb (fun k hk c hc => (fc k hk c hc).allFinite.noNaN)
  obtain rfl : B = B' := Except.ok.inj (e1.symm.trans e2)
  exact ⟨B, e1, u, w, i⟩

/-- the corners are no larger than the box -/
theorem corner_upTo3 {M : ℝ} (build : Build) (b : BoundingBox3 S) (hb : UpToAll M b) {k : UInt32} {c : Point3 S}
    (hc : b.corner build k = .ok c) : UpToAll M c := by
  rw [BoundingBox3.upToAll, Point3.upToAll, Point3.upToAll] at hb
  unfold BoundingBox3.corner at hc
  split_ifs at hc <;> cases hc <;> rw [Point3.upToAll] <;> simp only [Point3.new] <;>
    exact ⟨(by first | exact hb.1.1 | exact hb.2.1), (by first | exact hb.1.2.1 | exact hb.2.2.1), (by first | exact hb.1.2.2 | exact hb.2.2.2)⟩
/-- **C95** without overflow: linear part up to `2^a`, box up to `2^b`, offset up to `2^(a+b)`: no condition on the computed
images is needed, and the box around the corners is finite and at most `4 · 2^(a+b)`. -/
theorem C95_room3 {a e : ℤ} (t : Transform3 S) (build : Build) (b : BoundingBox3 S) (hF : AllFinite t.forward)
    (haff : t.forward.toReal 3 = ![0, 0, 0, 1]) (hA : ∀ i j : Fin 3, UpTo (2 ^ a) (t.forward.m[4 * i.val + j.val]))
    (ho : ∀ i : Fin 3, UpTo (2 ^ (a + e)) (t.forward.m[4 * i.val + 3])) (hb : UpToAll (2 ^ e) b) (wb : LeAll b.min b.max)
    (hR : Room S (a + e) 4) :
    ∃ B : BoundingBox3 S, t.around build b = .ok B ∧ UpToAll (4 * 2 ^ (a + e)) B ∧ LeAll B.min B.max ∧
      ∀ p, b.isInside p = true → B.isInside (Transform.transform t p : Point3 S) = true := by
  have fc : ∀ k : UInt32, k < 8 → ∀ c, b.corner build k = .ok c →
      UpToAll (4 * 2 ^ (a + e)) (Transform.transform t c : Point3 S) :=
    fun k _ c hc => C86_point3 t c hF haff hA ho (corner_upTo3 build b hb hc) hR
  obtain ⟨B, e1, u⟩ := C95_bounded3 t build b fc
  obtain ⟨B', e2, w, i, -⟩ := C95_around3 t build b hF haff hb.allFinite wb (fun k hk c hc => (fc k hk c hc).allFinite.noNaN)
  obtain rfl : B = B' := Except.ok.inj (e1.symm.trans e2)
  exact ⟨B, e1, u, w, i⟩
end

/-! ## Culling in exact arithmetic, 2D -/

theorem aff_row2 {m : Matrix3x3 Ideal} (h : m.Affine) : m.toReal 2 = ![0, 0, 1] := by
  funext j
  have := h j
  fin_cases j <;> simpa using this

/-- **C95**: the box around the corners may be used to cull: whenever the transformed-back ray hits the box, the ray itself
hits the box around its transformed corners, over a range that contains the one reported. -/
theorem C95_cull2 (t : Transform2 Ideal) (ht : AllFinite t) (hp : t.Paired) (ha : t.forward.Affine) (build : Build)
    (b : BoundingBox2 Ideal) (hb : AllFinite b) (wb : LeAll b.min b.max) (ray : Ray2 Ideal) (hr : AllFinite ray)
    (hd : ray.direction.toReal ≠ 0) (hf : FaceFree2 b (Transform.transform t.inv ray)) :
    ∃ B : BoundingBox2 Ideal, t.around build b = .ok B ∧ AllFinite B ∧ (FaceFree2 B ray →
      (∀ r : Range Ideal, Api.intersect b (Transform.transform t.inv ray : Ray2 Ideal) = some r →
        ∃ r' : Range Ideal, Api.intersect B ray = some r' ∧ (r'.start ≤? r.start) = true ∧ (r.stop ≤? r'.stop) = true) ∧
      (Api.intersect B ray = (none : Option (Range Ideal)) →
        Api.intersect b (Transform.transform t.inv ray : Ray2 Ideal) = (none : Option (Range Ideal)))) := by
  have ht' := Transform2.allFinite.1 ht
  have hr' := Ray2.allFinite.1 hr
  have fc : ∀ k : UInt32, k < 4 → ∀ c, b.corner build k = .ok c → AllFinite (Transform.transform t c : Point2 Ideal) := by
    intro k hk c hc
    refine ha.fin_mulp ht'.1 ?_
    have hi := corner_inside2 build b wb hk hc
    rw [isInside2_iff] at hi
    rw [BoundingBox2.allFinite, Point2.allFinite, Point2.allFinite] at hb
    rw [Point2.allFinite]
    exact ⟨finite_btw hb.1.1 hb.2.1 hi.1.1 hi.1.2, finite_btw hb.1.2 hb.2.2 hi.2.1 hi.2.2⟩
  obtain ⟨B, e1, f1⟩ := C95_finite2 t build b fc
  obtain ⟨B', e2, w2, i2, -⟩ := C95_around2 t build b ht'.1 (aff_row2 ha) hb wb (fun k hk c hc => Point2.noNaN.2 (by
    have := Point2.allFinite.1 (fc k hk c hc)
    exact ⟨this.1.not_nan, this.2.not_nan⟩))
  obtain rfl : B = B' := Except.ok.inj (e1.symm.trans e2)
  refine ⟨B, e1, f1, fun hF => ?_⟩
  obtain ⟨k1, k2⟩ := C93_real2 t ht hp ha b hb wb ray hr hd hf
  obtain ⟨g1, g2⟩ := C35_real2 B f1 w2 ray hr hd hF
  have hfin : ∀ r : Range Ideal, Api.intersect b (Transform.transform t.inv ray : Ray2 Ideal) = some r →
      IsFinite r.start ∧ IsFinite r.stop ∧ (r.start ≤? r.stop) = true := by
    intro r h
    have hi := hp.affine_inverse ht ha
    have fti : AllFinite t.inv := Transform2.allFinite.2 ⟨ht'.2, ht'.1⟩
    have fl : AllFinite (Transform.transform t.inv ray : Ray2 Ideal) :=
      Ray2.allFinite.2 ⟨hi.fin_mulp ht'.2 hr'.1, Matrix3x3.fin_mulv ht'.2 hr'.2⟩
    have hd' : (Transform.transform t.inv ray : Ray2 Ideal).direction.toReal ≠ 0 := by
      intro h0
      apply hd
      have h1 := (C51_real2 t.inv fti (hp.symm ht) ray.origin hr'.1 ray.direction hr'.2).2 hi
      have h2 : (t.forward * (t.inverse * ray.direction)).toReal = ray.direction.toReal :=
        (Vector2.beq_toReal (Matrix3x3.fin_mulv ht'.1 (Matrix3x3.fin_mulv ht'.2 hr'.2)) hr'.2).1 h1
      rw [Matrix3x3.toReal_mulv' ht'.1 (Matrix3x3.fin_mulv ht'.2 hr'.2), show (t.inverse * ray.direction).toReal = 0 from h0, Matrix.mulVec_zero] at h2
      exact h2.symm
    obtain ⟨l1, -⟩ := C35_real2 b hb wb _ fl hd' hf
    exact ⟨(l1 r h).1, (l1 r h).2.1, (C34_range2 b _ r h).2.1⟩
  have key : ∀ s : Ideal, IsFinite s → (∃ q : Point2 Ideal, AllFinite q ∧ b.isInside q = true ∧
      ((Transform.transform t q : Point2 Ideal) == ray.at s) = true) → B.isInside (ray.at s) = true := by
    rintro s hs ⟨q, fq, hq, e⟩
    have fa : AllFinite (ray.at s) := Point2.fin_addv hr'.1 (Vector2.fin_mul hr'.2 hs)
    have fi : AllFinite (Transform.transform t q : Point2 Ideal) := ha.fin_mulp ht'.1 fq
    have hi := i2 q hq
    rw [BoundingBox2.inside_real f1 fi] at hi
    rw [BoundingBox2.inside_real f1 fa, ← (Point2.beq_toReal fi fa).1 e]
    exact hi
  have main : ∀ r : Range Ideal, Api.intersect b (Transform.transform t.inv ray : Ray2 Ideal) = some r →
        ∃ r' : Range Ideal, Api.intersect B ray = some r' ∧ (r'.start ≤? r.start) = true ∧ (r.stop ≤? r'.stop) = true := by
    intro r h
    obtain ⟨fs, fe, hse⟩ := hfin r h
    have ps := (k1 r h r.start fs).2 ⟨le_self fs.not_nan, hse⟩
    have pe := (k1 r h r.stop fe).2 ⟨hse, le_self fe.not_nan⟩
    have bs := key _ fs ps.2
    have be := key _ fe pe.2
    cases hI : (Api.intersect B ray : Option (Range Ideal)) with
    | none => have := g2.1 hI _ fs ps.1; rw [bs] at this; cases this
    | some r' => exact ⟨r', rfl, (((g1 r' hI).2.2 _ fs).1 ⟨ps.1, bs⟩).1, (((g1 r' hI).2.2 _ fe).1 ⟨pe.1, be⟩).2⟩
  refine ⟨main, fun hN => ?_⟩
  cases hI : (Api.intersect b (Transform.transform t.inv ray : Ray2 Ideal) : Option (Range Ideal)) with
  | none => rfl
  | some r => obtain ⟨r', h', -⟩ := main r hI; rw [hN] at h'; cases h'

/-! ## Culling in exact arithmetic, 3D -/

theorem aff_row3 {m : Matrix4x4 Ideal} (h : m.Affine) : m.toReal 3 = ![0, 0, 0, 1] := by
  funext j
  have := h j
  fin_cases j <;> simpa using this

/-- **C95**: the box around the corners may be used to cull: whenever the transformed-back ray hits the box, the ray itself
hits the box around its transformed corners, over a range that contains the one reported. -/
theorem C95_cull3 (t : Transform3 Ideal) (ht : AllFinite t) (hp : t.Paired) (ha : t.forward.Affine) (build : Build)
    (b : BoundingBox3 Ideal) (hb : AllFinite b) (wb : LeAll b.min b.max) (ray : Ray3 Ideal) (hr : AllFinite ray)
    (hd : ray.direction.toReal ≠ 0) (hf : FaceFree3 b (Transform.transform t.inv ray)) :
    ∃ B : BoundingBox3 Ideal, t.around build b = .ok B ∧ AllFinite B ∧ (FaceFree3 B ray →
      (∀ r : Range Ideal, Api.intersect b (Transform.transform t.inv ray : Ray3 Ideal) = some r →
        ∃ r' : Range Ideal, Api.intersect B ray = some r' ∧ (r'.start ≤? r.start) = true ∧ (r.stop ≤? r'.stop) = true) ∧
      (Api.intersect B ray = (none : Option (Range Ideal)) →
        Api.intersect b (Transform.transform t.inv ray : Ray3 Ideal) = (none : Option (Range Ideal)))) := by
  have ht' := Transform3.allFinite.1 ht
  have hr' := Ray3.allFinite.1 hr
  have fc : ∀ k : UInt32, k < 8 → ∀ c, b.corner build k = .ok c → AllFinite (Transform.transform t c : Point3 Ideal) := by
    intro k hk c hc
    refine ha.fin_mulp ht'.1 ?_
    have hi := corner_inside3 build b wb hk hc
    rw [isInside3_iff] at hi
    rw [BoundingBox3.allFinite, Point3.allFinite, Point3.allFinite] at hb
    rw [Point3.allFinite]
    exact ⟨finite_btw hb.1.1 hb.2.1 hi.1.1 hi.1.2, finite_btw hb.1.2.1 hb.2.2.1 hi.2.1.1 hi.2.1.2, finite_btw hb.1.2.2 hb.2.2.2 hi.2.2.1 hi.2.2.2⟩
  obtain ⟨B, e1, f1⟩ := C95_finite3 t build b fc
  obtain ⟨B', e2, w2, i2, -⟩ := C95_around3 t build b ht'.1 (aff_row3 ha) hb wb (fun k hk c hc => Point3.noNaN.2 (by
    have := Point3.allFinite.1 (fc k hk c hc)
    exact ⟨this.1.not_nan, this.2.1.not_nan, this.2.2.not_nan⟩))
  obtain rfl : B = B' := Except.ok.inj (e1.symm.trans e2)
  refine ⟨B, e1, f1, fun hF => ?_⟩
  obtain ⟨k1, k2⟩ := C93_real3 t ht hp ha b hb wb ray hr hd hf
  obtain ⟨g1, g2⟩ := C35_real3 B f1 w2 ray hr hd hF
  have hfin : ∀ r : Range Ideal, Api.intersect b (Transform.transform t.inv ray : Ray3 Ideal) = some r →
      IsFinite r.start ∧ IsFinite r.stop ∧ (r.start ≤? r.stop) = true := by
    intro r h
    have hi := hp.affine_inverse ht ha
    have fti : AllFinite t.inv := Transform3.allFinite.2 ⟨ht'.2, ht'.1⟩
    have fl : AllFinite (Transform.transform t.inv ray : Ray3 Ideal) :=
      Ray3.allFinite.2 ⟨hi.fin_mulp ht'.2 hr'.1, Matrix4x4.fin_mulv ht'.2 hr'.2⟩
    have hd' : (Transform.transform t.inv ray : Ray3 Ideal).direction.toReal ≠ 0 := by
      intro h0
      apply hd
      have h1 := (C51_real3 t.inv fti (hp.symm ht) ray.origin hr'.1 ray.direction hr'.2).2 hi
      have h2 : (t.forward * (t.inverse * ray.direction)).toReal = ray.direction.toReal :=
        (Vector3.beq_toReal (Matrix4x4.fin_mulv ht'.1 (Matrix4x4.fin_mulv ht'.2 hr'.2)) hr'.2).1 h1
      rw [Matrix4x4.toReal_mulv' ht'.1 (Matrix4x4.fin_mulv ht'.2 hr'.2), show (t.inverse * ray.direction).toReal = 0 from h0, Matrix.mulVec_zero] at h2
      exact h2.symm
    obtain ⟨l1, -⟩ := C35_real3 b hb wb _ fl hd' hf
    exact ⟨(l1 r h).1, (l1 r h).2.1, (C34_range3 b _ r h).2.1⟩
  have key : ∀ s : Ideal, IsFinite s → (∃ q : Point3 Ideal, AllFinite q ∧ b.isInside q = true ∧
      ((Transform.transform t q : Point3 Ideal) == ray.at s) = true) → B.isInside (ray.at s) = true := by
    rintro s hs ⟨q, fq, hq, e⟩
    have fa : AllFinite (ray.at s) := Point3.fin_addv hr'.1 (Vector3.fin_mul hr'.2 hs)
    have fi : AllFinite (Transform.transform t q : Point3 Ideal) := ha.fin_mulp ht'.1 fq
    have hi := i2 q hq
    rw [BoundingBox3.inside_real f1 fi] at hi
    rw [BoundingBox3.inside_real f1 fa, ← (Point3.beq_toReal fi fa).1 e]
    exact hi
  have main : ∀ r : Range Ideal, Api.intersect b (Transform.transform t.inv ray : Ray3 Ideal) = some r →
        ∃ r' : Range Ideal, Api.intersect B ray = some r' ∧ (r'.start ≤? r.start) = true ∧ (r.stop ≤? r'.stop) = true := by
    intro r h
    obtain ⟨fs, fe, hse⟩ := hfin r h
    have ps := (k1 r h r.start fs).2 ⟨le_self fs.not_nan, hse⟩
    have pe := (k1 r h r.stop fe).2 ⟨hse, le_self fe.not_nan⟩
    have bs := key _ fs ps.2
    have be := key _ fe pe.2
    cases hI : (Api.intersect B ray : Option (Range Ideal)) with
    | none => have := g2.1 hI _ fs ps.1; rw [bs] at this; cases this
    | some r' => exact ⟨r', rfl, (((g1 r' hI).2.2 _ fs).1 ⟨ps.1, bs⟩).1, (((g1 r' hI).2.2 _ fe).1 ⟨pe.1, be⟩).2⟩
  refine ⟨main, fun hN => ?_⟩
  cases hI : (Api.intersect b (Transform.transform t.inv ray : Ray3 Ideal) : Option (Range Ideal)) with
  | none => rfl
  | some r => obtain ⟨r', h', -⟩ := main r hI; rw [hN] at h'; cases h'

end VecMath

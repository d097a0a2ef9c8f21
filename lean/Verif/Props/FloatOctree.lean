import Verif.Lemmas.Octree
import Verif.Props.FloatExamples2
/-!
# Quadtrees and octrees (layer F): C92

Subdividing a box into the cells spanned by its center and its corners, any number of times.
Generated by tools/gen/oct.py.
-/

open Classical
set_option linter.unusedSectionVars false

namespace VecMath
open Scalar IEEE
variable {S : Type} [Scalar S] [IEEE S] [B : Binary S]

theorem in1_real {lo hi x : S} (hl : IsFinite lo) (hh : IsFinite hi) : In1 lo hi x ↔ IsFinite x ∧ real lo ≤ real x ∧ real x ≤ real hi := by
  constructor
  · intro h
    have f := ofinite_between hl hh h.1 h.2
    exact ⟨f, (ole_real hl f).1 h.1, (ole_real f hh).1 h.2⟩
  · rintro ⟨f, h1, h2⟩
    exact ⟨(ole_real hl f).2 h1, (ole_real f hh).2 h2⟩

theorem adjacent_face {lo hi x : S} (h : In1 lo hi x) (ha : Adjacent lo hi) : (x == lo) = true ∨ (x == hi) = true := by
  obtain ⟨h1, h2⟩ := h
  rw [le_iff] at h1 h2
  by_contra hc
  push_neg at hc
  refine ha ⟨x, lt_iff.2 ⟨h1.1, h1.2.1, lt_of_le_of_ne h1.2.2 fun e => hc.1 (IEEE.beq_iff.2 ⟨h1.2.1, h1.1, e.symm⟩)⟩,
    lt_iff.2 ⟨h2.1, h2.2.1, lt_of_le_of_ne h2.2.2 fun e => hc.2 (IEEE.beq_iff.2 ⟨h2.1, h2.2.1, e⟩)⟩⟩

section
variable {b c : BoundingBox2 S} {build : Build} {k : UInt32}

theorem BoundingBox2.ivs (hf : AllFinite b) (hb : LeAll b.min b.max) (hd : AllFinite b.diagonal) : Iv b.min.x b.max.x ∧ Iv b.min.y b.max.y := by
  rw [BoundingBox2.allFinite, Point2.allFinite, Point2.allFinite] at hf
  rw [wf2_iff] at hb
  rw [Vector2.allFinite] at hd
  exact ⟨Iv.of hf.1.1 hf.2.1 hb.1 hd.1, Iv.of hf.1.2 hf.2.2 hb.2 hd.2⟩
theorem BoundingBox2.of_ivs (h : Iv b.min.x b.max.x ∧ Iv b.min.y b.max.y) : AllFinite b ∧ LeAll b.min b.max ∧ AllFinite b.diagonal := by
  refine ⟨?_, ?_, ?_⟩
  · rw [BoundingBox2.allFinite, Point2.allFinite, Point2.allFinite]
    exact ⟨⟨h.1.fl, h.2.fl⟩, ⟨h.1.fh, h.2.fh⟩⟩
  · rw [wf2_iff]
    exact ⟨(ole_real h.1.fl h.1.fh).2 h.1.le, (ole_real h.2.fl h.2.fh).2 h.2.le⟩
  · rw [Vector2.allFinite]
    exact ⟨h.1.ext, h.2.ext⟩
theorem BoundingBox2.inside_reals (h : Iv b.min.x b.max.x ∧ Iv b.min.y b.max.y) {p : Point2 S} : b.isInside p = true ↔
    (IsFinite p.x ∧ real b.min.x ≤ real p.x ∧ real p.x ≤ real b.max.x) ∧ (IsFinite p.y ∧ real b.min.y ≤ real p.y ∧ real p.y ≤ real b.max.y) := by
  rw [isInside2_iff, in1_real h.1.fl h.1.fh, in1_real h.2.fl h.2.fh]

/-- the cell whose choices are given as booleans (true: the upper half) -/
def BoundingBox2.cellOf (b : BoundingBox2 S) (sx sy : Bool) : BoundingBox2 S :=
  BoundingBox2.new b.center ⟨if sx then b.max.x else b.min.x, if sy then b.max.y else b.min.y⟩
theorem BoundingBox2.cell_eq (h : b.cell build k = .ok c) :
    c = b.cellOf (k.toNat.testBit 0) (k.toNat.testBit 1) := by
  obtain ⟨h1, h2, h3⟩ := C33_corner2 b k
  have hr : b.corner build k = b.corner .release k := by
    cases build
    · by_cases hk : k < 4
      · exact h2 hk
      · rw [BoundingBox2.cell, h3 hk] at h; cases h
    · rfl
  rw [BoundingBox2.cell, hr, h1] at h
  cases h
  rfl
theorem BoundingBox2.cell_ok (hk : k < 4) : b.cell build k = .ok (b.cellOf (k.toNat.testBit 0) (k.toNat.testBit 1)) := by
  obtain ⟨h1, h2, h3⟩ := C33_corner2 b k
  have hr : b.corner build k = b.corner .release k := by
    cases build
    · exact h2 hk
    · rfl
  rw [BoundingBox2.cell, hr, h1]
  rfl
theorem BoundingBox2.cell_kids (h : Iv b.min.x b.max.x ∧ Iv b.min.y b.max.y) (sx sy : Bool) :
    Kid b.min.x b.max.x (b.cellOf sx sy).min.x (b.cellOf sx sy).max.x ∧ Kid b.min.y b.max.y (b.cellOf sx sy).min.y (b.cellOf sx sy).max.y := by
  refine ⟨?_, ?_⟩
  · cases sx
    · exact h.1.kid_lo.2.2
    · exact h.1.kid_hi.2.2
  · cases sy
    · exact h.2.kid_lo.2.2
    · exact h.2.kid_hi.2.2
end

/-- **C92**: every cell of a finite, ordered box whose extent does not overflow is such a box again, inside the box. All
4 cells exist, in both build profiles. -/
theorem C92_cell2 (b : BoundingBox2 S) (hf : AllFinite b) (hb : LeAll b.min b.max) (hd : AllFinite b.diagonal) (build : Build) :
    (∀ k < 4, ∃ c, b.cell build k = .ok c) ∧
    ∀ k c, b.cell build k = .ok c → (AllFinite c ∧ LeAll c.min c.max ∧ AllFinite c.diagonal) ∧
      (c.isInside b.center = true) ∧ (∀ q, b.corner build k = .ok q → c.isInside q = true) ∧
      ∀ p, c.isInside p = true → b.isInside p = true := by
  have hi := BoundingBox2.ivs hf hb hd
  refine ⟨fun k hk => ⟨_, BoundingBox2.cell_ok hk⟩, fun k c h => ?_⟩
  have hc := BoundingBox2.cell_eq h
  have kk := BoundingBox2.cell_kids hi (k.toNat.testBit 0) (k.toNat.testBit 1)
  rw [← hc] at kk
  have ii : Iv c.min.x c.max.x ∧ Iv c.min.y c.max.y := ⟨kk.1.iv hi.1, kk.2.iv hi.2⟩
  have nc : NoNaN b.center := by
    rw [Point2.noNaN]; exact ⟨hi.1.mid_in.1.not_nan, hi.2.mid_in.1.not_nan⟩
  refine ⟨BoundingBox2.of_ivs ii, ?_, fun q hq => ?_, fun p hp => ?_⟩
  · cases hq : b.corner build k with
    | error e => rw [BoundingBox2.cell, hq] at h; cases h
    | ok q =>
      rw [BoundingBox2.cell, hq] at h
      cases h
      rw [BoundingBox2.inside_reals ii]
      exact ⟨⟨hi.1.mid_in.1, by rcases kk.1.cases with ⟨a, e⟩ | ⟨a, e⟩ <;> rw [a] <;> [exact hi.1.mid_in.2.1; exact le_rfl], by rcases kk.1.cases with ⟨a, e⟩ | ⟨a, e⟩ <;> rw [e] <;> [exact le_rfl; exact hi.1.mid_in.2.2]⟩, ⟨hi.2.mid_in.1, by rcases kk.2.cases with ⟨a, e⟩ | ⟨a, e⟩ <;> rw [a] <;> [exact hi.2.mid_in.2.1; exact le_rfl], by rcases kk.2.cases with ⟨a, e⟩ | ⟨a, e⟩ <;> rw [e] <;> [exact le_rfl; exact hi.2.mid_in.2.2]⟩⟩
  · rw [BoundingBox2.cell, hq] at h
    cases h
    have nq : NoNaN q := by
      obtain ⟨h1, h2, h3⟩ := C33_corner2 b k
      have hr : b.corner build k = b.corner .release k := by
        cases build
        · by_cases hk : k < 4
          · exact h2 hk
          · rw [h3 hk] at hq; cases hq
        · rfl
      rw [hr, h1] at hq
      cases hq
      rw [Point2.noNaN]
      refine ⟨?_, ?_⟩
      · dsimp only; split_ifs
        · exact hi.1.fh.not_nan
        · exact hi.1.fl.not_nan
      · dsimp only; split_ifs
        · exact hi.2.fh.not_nan
        · exact hi.2.fl.not_nan
    exact (C24_new2 _ _ nc nq).2.2.1
  · rw [BoundingBox2.inside_reals ii] at hp
    rw [BoundingBox2.inside_reals hi]
    exact ⟨⟨hp.1.1, (kk.1.in_ hi.1).1.trans hp.1.2.1, hp.1.2.2.trans (kk.1.in_ hi.1).2.2⟩, ⟨hp.2.1, (kk.2.in_ hi.2).1.trans hp.2.2.1, hp.2.2.2.trans (kk.2.in_ hi.2).2.2⟩⟩

/-- **C92**: the cells cover the box. -/
theorem C92_cover2 (b : BoundingBox2 S) (hf : AllFinite b) (hb : LeAll b.min b.max) (hd : AllFinite b.diagonal) (build : Build) (p : Point2 S) (hp : b.isInside p = true) :
    ∃ k < 4, ∃ c, b.cell build k = .ok c ∧ c.isInside p = true := by
  have hi := BoundingBox2.ivs hf hb hd
  have ex : ∀ sx sy : Bool, ∃ k : UInt32, k < 4 ∧ k.toNat.testBit 0 = sx ∧ k.toNat.testBit 1 = sy := by
    intro sx sy
    refine ⟨(if sx then 1 else 0) + (if sy then 2 else 0), ?_⟩
    revert sx sy
    decide
  rw [BoundingBox2.inside_reals hi] at hp
  obtain ⟨k, hk, ex, ey⟩ := ex (decide (real (mid b.min.x b.max.x) ≤ real p.x)) (decide (real (mid b.min.y b.max.y) ≤ real p.y))
  refine ⟨k, hk, _, BoundingBox2.cell_ok hk, ?_⟩
  rw [ex, ey]
  have kk := BoundingBox2.cell_kids hi (decide (real (mid b.min.x b.max.x) ≤ real p.x)) (decide (real (mid b.min.y b.max.y) ≤ real p.y))
  rw [BoundingBox2.inside_reals ⟨kk.1.iv hi.1, kk.2.iv hi.2⟩]
  refine ⟨?_, ?_⟩
  · refine ⟨hp.1.1, ?_⟩
    by_cases h : real (mid b.min.x b.max.x) ≤ real p.x
    · simp only [h, decide_true]
      exact ⟨hi.1.kid_hi.1.le.trans h, hp.1.2.2.trans hi.1.kid_hi.2.1.ge⟩
    · simp only [h, decide_false]
      exact ⟨hi.1.kid_lo.1.le.trans hp.1.2.1, (not_le.1 h).le.trans hi.1.kid_lo.2.1.ge⟩
  · refine ⟨hp.2.1, ?_⟩
    by_cases h : real (mid b.min.y b.max.y) ≤ real p.y
    · simp only [h, decide_true]
      exact ⟨hi.2.kid_hi.1.le.trans h, hp.2.2.2.trans hi.2.kid_hi.2.1.ge⟩
    · simp only [h, decide_false]
      exact ⟨hi.2.kid_lo.1.le.trans hp.2.2.1, (not_le.1 h).le.trans hi.2.kid_lo.2.1.ge⟩

/-- **C92**: two cells that differ in dimension `i` share only points on the center plane of dimension `i`. -/
theorem C92_overlap2 (b : BoundingBox2 S) (hf : AllFinite b) (hb : LeAll b.min b.max) (hd : AllFinite b.diagonal) (build : Build) (k k' : UInt32) (c c' : BoundingBox2 S)
    (h : b.cell build k = .ok c) (h' : b.cell build k' = .ok c') (p : Point2 S) (hp : c.isInside p = true) (hp' : c'.isInside p = true) :
    (k.toNat.testBit 0 ≠ k'.toNat.testBit 0 → (p.x == b.center.x) = true) ∧
    (k.toNat.testBit 1 ≠ k'.toNat.testBit 1 → (p.y == b.center.y) = true) := by
  have hi := BoundingBox2.ivs hf hb hd
  have kk := BoundingBox2.cell_kids hi (k.toNat.testBit 0) (k.toNat.testBit 1)
  have kk' := BoundingBox2.cell_kids hi (k'.toNat.testBit 0) (k'.toNat.testBit 1)
  rw [BoundingBox2.cell_eq h, BoundingBox2.inside_reals ⟨kk.1.iv hi.1, kk.2.iv hi.2⟩] at hp
  rw [BoundingBox2.cell_eq h', BoundingBox2.inside_reals ⟨kk'.1.iv hi.1, kk'.2.iv hi.2⟩] at hp'
  refine ⟨fun hne => ?_, fun hne => ?_⟩
  · refine (obeq_real hp.1.1 hi.1.mid_in.1).2 ?_
    have a := hp.1.2
    have a' := hp'.1.2
    cases e : k.toNat.testBit 0 <;> cases e' : k'.toNat.testBit 0 <;> rw [e, e'] at hne
    · exact absurd rfl hne
    · rw [e] at a
      rw [e'] at a'
      exact le_antisymm (a.2.trans hi.1.kid_lo.2.1.le) (hi.1.kid_hi.1.ge.trans a'.1)
    · rw [e] at a
      rw [e'] at a'
      exact le_antisymm (a'.2.trans hi.1.kid_lo.2.1.le) (hi.1.kid_hi.1.ge.trans a.1)
    · exact absurd rfl hne
  · refine (obeq_real hp.2.1 hi.2.mid_in.1).2 ?_
    have a := hp.2.2
    have a' := hp'.2.2
    cases e : k.toNat.testBit 1 <;> cases e' : k'.toNat.testBit 1 <;> rw [e, e'] at hne
    · exact absurd rfl hne
    · rw [e] at a
      rw [e'] at a'
      exact le_antisymm (a.2.trans hi.2.kid_lo.2.1.le) (hi.2.kid_hi.1.ge.trans a'.1)
    · rw [e] at a
      rw [e'] at a'
      exact le_antisymm (a'.2.trans hi.2.kid_lo.2.1.le) (hi.2.kid_hi.1.ge.trans a.1)
    · exact absurd rfl hne

/-- **C92**: the center is strictly inside in every dimension in which some number lies strictly between the bounds, and on
a face in every other. -/
theorem C92_progress2 (b : BoundingBox2 S) (hf : AllFinite b) (hb : LeAll b.min b.max) (hd : AllFinite b.diagonal) :
    ((∃ m, (b.min.x <? m) = true ∧ (m <? b.max.x) = true) → (b.min.x <? b.center.x) = true ∧ (b.center.x <? b.max.x) = true) ∧
    ((∃ m, (b.min.y <? m) = true ∧ (m <? b.max.y) = true) → (b.min.y <? b.center.y) = true ∧ (b.center.y <? b.max.y) = true) ∧
    (Adjacent b.min.x b.max.x → (b.center.x == b.min.x) = true ∨ (b.center.x == b.max.x) = true) ∧
    (Adjacent b.min.y b.max.y → (b.center.y == b.min.y) = true ∨ (b.center.y == b.max.y) = true) := by
  have hi := BoundingBox2.ivs hf hb hd
  refine ⟨fun h => ⟨(olt_real hi.1.fl hi.1.mid_in.1).2 (hi.1.mid_strict (not_not.2 h)).1.1, (olt_real hi.1.mid_in.1 hi.1.fh).2 (hi.1.mid_strict (not_not.2 h)).1.2⟩, fun h => ⟨(olt_real hi.2.fl hi.2.mid_in.1).2 (hi.2.mid_strict (not_not.2 h)).1.1, (olt_real hi.2.mid_in.1 hi.2.fh).2 (hi.2.mid_strict (not_not.2 h)).1.2⟩,
    fun h => (hi.1.mid_adjacent h).imp (obeq_real hi.1.mid_in.1 hi.1.fl).2 (obeq_real hi.1.mid_in.1 hi.1.fh).2, fun h => (hi.2.mid_adjacent h).imp (obeq_real hi.2.mid_in.1 hi.2.fl).2 (obeq_real hi.2.mid_in.1 hi.2.fh).2⟩

theorem BoundingBox2.descend_kids {b d : BoundingBox2 S} {build : Build} {ks : List UInt32} (h : Iv b.min.x b.max.x ∧ Iv b.min.y b.max.y)
    (hk : BoundingBox2.descend build b ks = .ok d) : Kids ks.length b.min.x b.max.x d.min.x d.max.x ∧ Kids ks.length b.min.y b.max.y d.min.y d.max.y := by
  induction ks generalizing b with
  | nil =>
    cases hk
    exact ⟨Kids.zero _ _, Kids.zero _ _⟩
  | cons k ks ih =>
    rw [BoundingBox2.descend] at hk
    cases hc : b.cell build k with
    | error e => rw [hc] at hk; cases hk
    | ok c =>
      rw [hc] at hk
      have kk := BoundingBox2.cell_kids h (k.toNat.testBit 0) (k.toNat.testBit 1)
      rw [← BoundingBox2.cell_eq hc] at kk
      have := ih ⟨kk.1.iv h.1, kk.2.iv h.2⟩ hk
      exact ⟨.succ kk.1 this.1, .succ kk.2 this.2⟩

/-- **C92**: after `n` subdivisions the box is ordered, finite and inside the first one, and in every dimension its extent
is at most `(7/8)^n` of the first extent, or no number is left strictly between its bounds. -/
theorem C92_descend2 (b : BoundingBox2 S) (hf : AllFinite b) (hb : LeAll b.min b.max) (hd : AllFinite b.diagonal) (hp : 4 ≤ B.F.p) (build : Build) (ks : List UInt32) (d : BoundingBox2 S)
    (h : BoundingBox2.descend build b ks = .ok d) :
    (AllFinite d ∧ LeAll d.min d.max ∧ AllFinite d.diagonal) ∧ (∀ p, d.isInside p = true → b.isInside p = true) ∧
    (Adjacent d.min.x d.max.x ∨ real d.max.x - real d.min.x ≤ (7 / 8) ^ ks.length * (real b.max.x - real b.min.x)) ∧
    (Adjacent d.min.y d.max.y ∨ real d.max.y - real d.min.y ≤ (7 / 8) ^ ks.length * (real b.max.y - real b.min.y)) := by
  have hi := BoundingBox2.ivs hf hb hd
  have key := BoundingBox2.descend_kids hi h
  have mx := key.1.main hi.1
  have my := key.2.main hi.2
  have ii : Iv d.min.x d.max.x ∧ Iv d.min.y d.max.y := ⟨mx.1, my.1⟩
  refine ⟨BoundingBox2.of_ivs ii, fun p q => ?_, mx.2.2.2 hp, my.2.2.2 hp⟩
  rw [BoundingBox2.inside_reals ii] at q
  rw [BoundingBox2.inside_reals hi]
  exact ⟨⟨q.1.1, mx.2.1.trans q.1.2.1, q.1.2.2.trans mx.2.2.1⟩, ⟨q.2.1, my.2.1.trans q.2.2.1, q.2.2.2.trans my.2.2.1⟩⟩

/-- **C92**: the tree has bounded depth: after `6 (emax - emin)` subdivisions (1662 for `f32`, 12588 for `f64`) no number is
left strictly between the bounds of the box, in any dimension, whichever cells were taken. -/
theorem C92_depth2 (b : BoundingBox2 S) (hf : AllFinite b) (hb : LeAll b.min b.max) (hd : AllFinite b.diagonal) (hp : 4 ≤ B.F.p) (build : Build) (ks : List UInt32) (d : BoundingBox2 S)
    (h : BoundingBox2.descend build b ks = .ok d) (hn : 6 * (B.F.emax - B.F.emin) ≤ ks.length) :
    Adjacent d.min.x d.max.x ∧
    Adjacent d.min.y d.max.y := by
  have hi := BoundingBox2.ivs hf hb hd
  have key := BoundingBox2.descend_kids hi h
  exact ⟨key.1.depth hi.1 hp hn, key.2.depth hi.2 hp hn⟩
theorem C92_depth2_f32 (b : BoundingBox2 F32) (hf : AllFinite b) (hb : LeAll b.min b.max) (hd : AllFinite b.diagonal) (build : Build) (ks : List UInt32) (d : BoundingBox2 F32)
    (h : BoundingBox2.descend build b ks = .ok d) (hn : 1662 ≤ ks.length) : Adjacent d.min.x d.max.x ∧ Adjacent d.min.y d.max.y :=
  C92_depth2 b hf hb hd (by decide) build ks d h (by show 6 * ((128 : ℤ) - (-149)) ≤ _; omega)
theorem C92_depth2_f64 (b : BoundingBox2 F64) (hf : AllFinite b) (hb : LeAll b.min b.max) (hd : AllFinite b.diagonal) (build : Build) (ks : List UInt32) (d : BoundingBox2 F64)
    (h : BoundingBox2.descend build b ks = .ok d) (hn : 12588 ≤ ks.length) : Adjacent d.min.x d.max.x ∧ Adjacent d.min.y d.max.y :=
  C92_depth2 b hf hb hd (by decide) build ks d h (by show 6 * ((1024 : ℤ) - (-1074)) ≤ _; omega)

/-- **C92**: when no number is left between the bounds of a dimension, every point in the box is on one of its two faces. -/
theorem C92_leaf2 (d : BoundingBox2 S) (p : Point2 S) (hp : d.isInside p = true) :
    (Adjacent d.min.x d.max.x → (p.x == d.min.x) = true ∨ (p.x == d.max.x) = true) ∧
    (Adjacent d.min.y d.max.y → (p.y == d.min.y) = true ∨ (p.y == d.max.y) = true) := by
  rw [isInside2_iff] at hp
  exact ⟨adjacent_face hp.1, adjacent_face hp.2⟩

section
variable {b c : BoundingBox3 S} {build : Build} {k : UInt32}

theorem BoundingBox3.ivs (hf : AllFinite b) (hb : LeAll b.min b.max) (hd : AllFinite b.diagonal) : Iv b.min.x b.max.x ∧ Iv b.min.y b.max.y ∧ Iv b.min.z b.max.z := by
  rw [BoundingBox3.allFinite, Point3.allFinite, Point3.allFinite] at hf
  rw [wf3_iff] at hb
  rw [Vector3.allFinite] at hd
  exact ⟨Iv.of hf.1.1 hf.2.1 hb.1 hd.1, Iv.of hf.1.2.1 hf.2.2.1 hb.2.1 hd.2.1, Iv.of hf.1.2.2 hf.2.2.2 hb.2.2 hd.2.2⟩
theorem BoundingBox3.of_ivs (h : Iv b.min.x b.max.x ∧ Iv b.min.y b.max.y ∧ Iv b.min.z b.max.z) : AllFinite b ∧ LeAll b.min b.max ∧ AllFinite b.diagonal := by
  refine ⟨?_, ?_, ?_⟩
  · rw [BoundingBox3.allFinite, Point3.allFinite, Point3.allFinite]
    exact ⟨⟨h.1.fl, h.2.1.fl, h.2.2.fl⟩, ⟨h.1.fh, h.2.1.fh, h.2.2.fh⟩⟩
  · rw [wf3_iff]
    exact ⟨(ole_real h.1.fl h.1.fh).2 h.1.le, (ole_real h.2.1.fl h.2.1.fh).2 h.2.1.le, (ole_real h.2.2.fl h.2.2.fh).2 h.2.2.le⟩
  · rw [Vector3.allFinite]
    exact ⟨h.1.ext, h.2.1.ext, h.2.2.ext⟩
theorem BoundingBox3.inside_reals (h : Iv b.min.x b.max.x ∧ Iv b.min.y b.max.y ∧ Iv b.min.z b.max.z) {p : Point3 S} : b.isInside p = true ↔
    (IsFinite p.x ∧ real b.min.x ≤ real p.x ∧ real p.x ≤ real b.max.x) ∧ (IsFinite p.y ∧ real b.min.y ≤ real p.y ∧ real p.y ≤ real b.max.y) ∧ (IsFinite p.z ∧ real b.min.z ≤ real p.z ∧ real p.z ≤ real b.max.z) := by
  rw [isInside3_iff, in1_real h.1.fl h.1.fh, in1_real h.2.1.fl h.2.1.fh, in1_real h.2.2.fl h.2.2.fh]

/-- the cell whose choices are given as booleans (true: the upper half) -/
def BoundingBox3.cellOf (b : BoundingBox3 S) (sx sy sz : Bool) : BoundingBox3 S :=
  BoundingBox3.new b.center ⟨if sx then b.max.x else b.min.x, if sy then b.max.y else b.min.y, if sz then b.max.z else b.min.z⟩
theorem BoundingBox3.cell_eq (h : b.cell build k = .ok c) :
    c = b.cellOf (k.toNat.testBit 0) (k.toNat.testBit 1) (k.toNat.testBit 2) := by
  obtain ⟨h1, h2, h3⟩ := C33_corner3 b k
  have hr : b.corner build k = b.corner .release k := by
    cases build
    · by_cases hk : k < 8
      · exact h2 hk
      · rw [BoundingBox3.cell, h3 hk] at h; cases h
    · rfl
  rw [BoundingBox3.cell, hr, h1] at h
  cases h
  rfl
theorem BoundingBox3.cell_ok (hk : k < 8) : b.cell build k = .ok (b.cellOf (k.toNat.testBit 0) (k.toNat.testBit 1) (k.toNat.testBit 2)) := by
  obtain ⟨h1, h2, h3⟩ := C33_corner3 b k
  have hr : b.corner build k = b.corner .release k := by
    cases build
    · exact h2 hk
    · rfl
  rw [BoundingBox3.cell, hr, h1]
  rfl
theorem BoundingBox3.cell_kids (h : Iv b.min.x b.max.x ∧ Iv b.min.y b.max.y ∧ Iv b.min.z b.max.z) (sx sy sz : Bool) :
    Kid b.min.x b.max.x (b.cellOf sx sy sz).min.x (b.cellOf sx sy sz).max.x ∧ Kid b.min.y b.max.y (b.cellOf sx sy sz).min.y (b.cellOf sx sy sz).max.y ∧ Kid b.min.z b.max.z (b.cellOf sx sy sz).min.z (b.cellOf sx sy sz).max.z := by
  refine ⟨?_, ?_, ?_⟩
  · cases sx
    · exact h.1.kid_lo.2.2
    · exact h.1.kid_hi.2.2
  · cases sy
    · exact h.2.1.kid_lo.2.2
    · exact h.2.1.kid_hi.2.2
  · cases sz
    · exact h.2.2.kid_lo.2.2
    · exact h.2.2.kid_hi.2.2
end

/-- **C92**: every cell of a finite, ordered box whose extent does not overflow is such a box again, inside the box. All
8 cells exist, in both build profiles. -/
theorem C92_cell3 (b : BoundingBox3 S) (hf : AllFinite b) (hb : LeAll b.min b.max) (hd : AllFinite b.diagonal) (build : Build) :
    (∀ k < 8, ∃ c, b.cell build k = .ok c) ∧
    ∀ k c, b.cell build k = .ok c → (AllFinite c ∧ LeAll c.min c.max ∧ AllFinite c.diagonal) ∧
      (c.isInside b.center = true) ∧ (∀ q, b.corner build k = .ok q → c.isInside q = true) ∧
      ∀ p, c.isInside p = true → b.isInside p = true := by
  have hi := BoundingBox3.ivs hf hb hd
  refine ⟨fun k hk => ⟨_, BoundingBox3.cell_ok hk⟩, fun k c h => ?_⟩
  have hc := BoundingBox3.cell_eq h
  have kk := BoundingBox3.cell_kids hi (k.toNat.testBit 0) (k.toNat.testBit 1) (k.toNat.testBit 2)
  rw [← hc] at kk
  have ii : Iv c.min.x c.max.x ∧ Iv c.min.y c.max.y ∧ Iv c.min.z c.max.z := ⟨kk.1.iv hi.1, kk.2.1.iv hi.2.1, kk.2.2.iv hi.2.2⟩
  have nc : NoNaN b.center := by
    rw [Point3.noNaN]; exact ⟨hi.1.mid_in.1.not_nan, hi.2.1.mid_in.1.not_nan, hi.2.2.mid_in.1.not_nan⟩
  refine ⟨BoundingBox3.of_ivs ii, ?_, fun q hq => ?_, fun p hp => ?_⟩
  · cases hq : b.corner build k with
    | error e => rw [BoundingBox3.cell, hq] at h; cases h
    | ok q =>
      rw [BoundingBox3.cell, hq] at h
      cases h
      rw [BoundingBox3.inside_reals ii]
      exact ⟨⟨hi.1.mid_in.1, by rcases kk.1.cases with ⟨a, e⟩ | ⟨a, e⟩ <;> rw [a] <;> [exact hi.1.mid_in.2.1; exact le_rfl], by rcases kk.1.cases with ⟨a, e⟩ | ⟨a, e⟩ <;> rw [e] <;> [exact le_rfl; exact hi.1.mid_in.2.2]⟩, ⟨hi.2.1.mid_in.1, by rcases kk.2.1.cases with ⟨a, e⟩ | ⟨a, e⟩ <;> rw [a] <;> [exact hi.2.1.mid_in.2.1; exact le_rfl], by rcases kk.2.1.cases with ⟨a, e⟩ | ⟨a, e⟩ <;> rw [e] <;> [exact le_rfl; exact hi.2.1.mid_in.2.2]⟩, ⟨hi.2.2.mid_in.1, by rcases kk.2.2.cases with ⟨a, e⟩ | ⟨a, e⟩ <;> rw [a] <;> [exact hi.2.2.mid_in.2.1; exact le_rfl], by rcases kk.2.2.cases with ⟨a, e⟩ | ⟨a, e⟩ <;> rw [e] <;> [exact le_rfl; exact hi.2.2.mid_in.2.2]⟩⟩
  · rw [BoundingBox3.cell, hq] at h
    cases h
    have nq : NoNaN q := by
      obtain ⟨h1, h2, h3⟩ := C33_corner3 b k
      have hr : b.corner build k = b.corner .release k := by
        cases build
        · by_cases hk : k < 8
          · exact h2 hk
          · rw [h3 hk] at hq; cases hq
        · rfl
      rw [hr, h1] at hq
      cases hq
      rw [Point3.noNaN]
      refine ⟨?_, ?_, ?_⟩
      · dsimp only; split_ifs
        · exact hi.1.fh.not_nan
        · exact hi.1.fl.not_nan
      · dsimp only; split_ifs
        · exact hi.2.1.fh.not_nan
        · exact hi.2.1.fl.not_nan
      · dsimp only; split_ifs
        · exact hi.2.2.fh.not_nan
        · exact hi.2.2.fl.not_nan
    exact (C24_new3 _ _ nc nq).2.2.1
  · rw [BoundingBox3.inside_reals ii] at hp
    rw [BoundingBox3.inside_reals hi]
    exact ⟨⟨hp.1.1, (kk.1.in_ hi.1).1.trans hp.1.2.1, hp.1.2.2.trans (kk.1.in_ hi.1).2.2⟩, ⟨hp.2.1.1, (kk.2.1.in_ hi.2.1).1.trans hp.2.1.2.1, hp.2.1.2.2.trans (kk.2.1.in_ hi.2.1).2.2⟩, ⟨hp.2.2.1, (kk.2.2.in_ hi.2.2).1.trans hp.2.2.2.1, hp.2.2.2.2.trans (kk.2.2.in_ hi.2.2).2.2⟩⟩

/-- **C92**: the cells cover the box. -/
theorem C92_cover3 (b : BoundingBox3 S) (hf : AllFinite b) (hb : LeAll b.min b.max) (hd : AllFinite b.diagonal) (build : Build) (p : Point3 S) (hp : b.isInside p = true) :
    ∃ k < 8, ∃ c, b.cell build k = .ok c ∧ c.isInside p = true := by
  have hi := BoundingBox3.ivs hf hb hd
  have ex : ∀ sx sy sz : Bool, ∃ k : UInt32, k < 8 ∧ k.toNat.testBit 0 = sx ∧ k.toNat.testBit 1 = sy ∧ k.toNat.testBit 2 = sz := by
    intro sx sy sz
    refine ⟨(if sx then 1 else 0) + (if sy then 2 else 0) + (if sz then 4 else 0), ?_⟩
    revert sx sy sz
    decide
  rw [BoundingBox3.inside_reals hi] at hp
  obtain ⟨k, hk, ex, ey, ez⟩ := ex (decide (real (mid b.min.x b.max.x) ≤ real p.x)) (decide (real (mid b.min.y b.max.y) ≤ real p.y)) (decide (real (mid b.min.z b.max.z) ≤ real p.z))
  refine ⟨k, hk, _, BoundingBox3.cell_ok hk, ?_⟩
  rw [ex, ey, ez]
  have kk := BoundingBox3.cell_kids hi (decide (real (mid b.min.x b.max.x) ≤ real p.x)) (decide (real (mid b.min.y b.max.y) ≤ real p.y)) (decide (real (mid b.min.z b.max.z) ≤ real p.z))
  rw [BoundingBox3.inside_reals ⟨kk.1.iv hi.1, kk.2.1.iv hi.2.1, kk.2.2.iv hi.2.2⟩]
  refine ⟨?_, ?_, ?_⟩
  · refine ⟨hp.1.1, ?_⟩
    by_cases h : real (mid b.min.x b.max.x) ≤ real p.x
    · simp only [h, decide_true]
      exact ⟨hi.1.kid_hi.1.le.trans h, hp.1.2.2.trans hi.1.kid_hi.2.1.ge⟩
    · simp only [h, decide_false]
      exact ⟨hi.1.kid_lo.1.le.trans hp.1.2.1, (not_le.1 h).le.trans hi.1.kid_lo.2.1.ge⟩
  · refine ⟨hp.2.1.1, ?_⟩
    by_cases h : real (mid b.min.y b.max.y) ≤ real p.y
    · simp only [h, decide_true]
      exact ⟨hi.2.1.kid_hi.1.le.trans h, hp.2.1.2.2.trans hi.2.1.kid_hi.2.1.ge⟩
    · simp only [h, decide_false]
      exact ⟨hi.2.1.kid_lo.1.le.trans hp.2.1.2.1, (not_le.1 h).le.trans hi.2.1.kid_lo.2.1.ge⟩
  · refine ⟨hp.2.2.1, ?_⟩
    by_cases h : real (mid b.min.z b.max.z) ≤ real p.z
    · simp only [h, decide_true]
      exact ⟨hi.2.2.kid_hi.1.le.trans h, hp.2.2.2.2.trans hi.2.2.kid_hi.2.1.ge⟩
    · simp only [h, decide_false]
      exact ⟨hi.2.2.kid_lo.1.le.trans hp.2.2.2.1, (not_le.1 h).le.trans hi.2.2.kid_lo.2.1.ge⟩

/-- **C92**: two cells that differ in dimension `i` share only points on the center plane of dimension `i`. -/
theorem C92_overlap3 (b : BoundingBox3 S) (hf : AllFinite b) (hb : LeAll b.min b.max) (hd : AllFinite b.diagonal) (build : Build) (k k' : UInt32) (c c' : BoundingBox3 S)
    (h : b.cell build k = .ok c) (h' : b.cell build k' = .ok c') (p : Point3 S) (hp : c.isInside p = true) (hp' : c'.isInside p = true) :
    (k.toNat.testBit 0 ≠ k'.toNat.testBit 0 → (p.x == b.center.x) = true) ∧
    (k.toNat.testBit 1 ≠ k'.toNat.testBit 1 → (p.y == b.center.y) = true) ∧
    (k.toNat.testBit 2 ≠ k'.toNat.testBit 2 → (p.z == b.center.z) = true) := by
  have hi := BoundingBox3.ivs hf hb hd
  have kk := BoundingBox3.cell_kids hi (k.toNat.testBit 0) (k.toNat.testBit 1) (k.toNat.testBit 2)
  have kk' := BoundingBox3.cell_kids hi (k'.toNat.testBit 0) (k'.toNat.testBit 1) (k'.toNat.testBit 2)
  rw [BoundingBox3.cell_eq h, BoundingBox3.inside_reals ⟨kk.1.iv hi.1, kk.2.1.iv hi.2.1, kk.2.2.iv hi.2.2⟩] at hp
  rw [BoundingBox3.cell_eq h', BoundingBox3.inside_reals ⟨kk'.1.iv hi.1, kk'.2.1.iv hi.2.1, kk'.2.2.iv hi.2.2⟩] at hp'
  refine ⟨fun hne => ?_, fun hne => ?_, fun hne => ?_⟩
  · refine (obeq_real hp.1.1 hi.1.mid_in.1).2 ?_
    have a := hp.1.2
    have a' := hp'.1.2
    cases e : k.toNat.testBit 0 <;> cases e' : k'.toNat.testBit 0 <;> rw [e, e'] at hne
    · exact absurd rfl hne
    · rw [e] at a
      rw [e'] at a'
      exact le_antisymm (a.2.trans hi.1.kid_lo.2.1.le) (hi.1.kid_hi.1.ge.trans a'.1)
    · rw [e] at a
      rw [e'] at a'
      exact le_antisymm (a'.2.trans hi.1.kid_lo.2.1.le) (hi.1.kid_hi.1.ge.trans a.1)
    · exact absurd rfl hne
  · refine (obeq_real hp.2.1.1 hi.2.1.mid_in.1).2 ?_
    have a := hp.2.1.2
    have a' := hp'.2.1.2
    cases e : k.toNat.testBit 1 <;> cases e' : k'.toNat.testBit 1 <;> rw [e, e'] at hne
    · exact absurd rfl hne
    · rw [e] at a
      rw [e'] at a'
      exact le_antisymm (a.2.trans hi.2.1.kid_lo.2.1.le) (hi.2.1.kid_hi.1.ge.trans a'.1)
    · rw [e] at a
      rw [e'] at a'
      exact le_antisymm (a'.2.trans hi.2.1.kid_lo.2.1.le) (hi.2.1.kid_hi.1.ge.trans a.1)
    · exact absurd rfl hne
  · refine (obeq_real hp.2.2.1 hi.2.2.mid_in.1).2 ?_
    have a := hp.2.2.2
    have a' := hp'.2.2.2
    cases e : k.toNat.testBit 2 <;> cases e' : k'.toNat.testBit 2 <;> rw [e, e'] at hne
    · exact absurd rfl hne
    · rw [e] at a
      rw [e'] at a'
      exact le_antisymm (a.2.trans hi.2.2.kid_lo.2.1.le) (hi.2.2.kid_hi.1.ge.trans a'.1)
    · rw [e] at a
      rw [e'] at a'
      exact le_antisymm (a'.2.trans hi.2.2.kid_lo.2.1.le) (hi.2.2.kid_hi.1.ge.trans a.1)
    · exact absurd rfl hne

/-- **C92**: the center is strictly inside in every dimension in which some number lies strictly between the bounds, and on
a face in every other. -/
theorem C92_progress3 (b : BoundingBox3 S) (hf : AllFinite b) (hb : LeAll b.min b.max) (hd : AllFinite b.diagonal) :
    ((∃ m, (b.min.x <? m) = true ∧ (m <? b.max.x) = true) → (b.min.x <? b.center.x) = true ∧ (b.center.x <? b.max.x) = true) ∧
    ((∃ m, (b.min.y <? m) = true ∧ (m <? b.max.y) = true) → (b.min.y <? b.center.y) = true ∧ (b.center.y <? b.max.y) = true) ∧
    ((∃ m, (b.min.z <? m) = true ∧ (m <? b.max.z) = true) → (b.min.z <? b.center.z) = true ∧ (b.center.z <? b.max.z) = true) ∧
    (Adjacent b.min.x b.max.x → (b.center.x == b.min.x) = true ∨ (b.center.x == b.max.x) = true) ∧
    (Adjacent b.min.y b.max.y → (b.center.y == b.min.y) = true ∨ (b.center.y == b.max.y) = true) ∧
    (Adjacent b.min.z b.max.z → (b.center.z == b.min.z) = true ∨ (b.center.z == b.max.z) = true) := by
  have hi := BoundingBox3.ivs hf hb hd
  refine ⟨fun h => ⟨(olt_real hi.1.fl hi.1.mid_in.1).2 (hi.1.mid_strict (not_not.2 h)).1.1, (olt_real hi.1.mid_in.1 hi.1.fh).2 (hi.1.mid_strict (not_not.2 h)).1.2⟩, fun h => ⟨(olt_real hi.2.1.fl hi.2.1.mid_in.1).2 (hi.2.1.mid_strict (not_not.2 h)).1.1, (olt_real hi.2.1.mid_in.1 hi.2.1.fh).2 (hi.2.1.mid_strict (not_not.2 h)).1.2⟩, fun h => ⟨(olt_real hi.2.2.fl hi.2.2.mid_in.1).2 (hi.2.2.mid_strict (not_not.2 h)).1.1, (olt_real hi.2.2.mid_in.1 hi.2.2.fh).2 (hi.2.2.mid_strict (not_not.2 h)).1.2⟩,
    fun h => (hi.1.mid_adjacent h).imp (obeq_real hi.1.mid_in.1 hi.1.fl).2 (obeq_real hi.1.mid_in.1 hi.1.fh).2, fun h => (hi.2.1.mid_adjacent h).imp (obeq_real hi.2.1.mid_in.1 hi.2.1.fl).2 (obeq_real hi.2.1.mid_in.1 hi.2.1.fh).2, fun h => (hi.2.2.mid_adjacent h).imp (obeq_real hi.2.2.mid_in.1 hi.2.2.fl).2 (obeq_real hi.2.2.mid_in.1 hi.2.2.fh).2⟩

theorem BoundingBox3.descend_kids {b d : BoundingBox3 S} {build : Build} {ks : List UInt32} (h : Iv b.min.x b.max.x ∧ Iv b.min.y b.max.y ∧ Iv b.min.z b.max.z)
    (hk : BoundingBox3.descend build b ks = .ok d) : Kids ks.length b.min.x b.max.x d.min.x d.max.x ∧ Kids ks.length b.min.y b.max.y d.min.y d.max.y ∧ Kids ks.length b.min.z b.max.z d.min.z d.max.z := by
  induction ks generalizing b with
  | nil =>
    cases hk
    exact ⟨Kids.zero _ _, Kids.zero _ _, Kids.zero _ _⟩
  | cons k ks ih =>
    rw [BoundingBox3.descend] at hk
    cases hc : b.cell build k with
    | error e => rw [hc] at hk; cases hk
    | ok c =>
      rw [hc] at hk
      have kk := BoundingBox3.cell_kids h (k.toNat.testBit 0) (k.toNat.testBit 1) (k.toNat.testBit 2)
      rw [← BoundingBox3.cell_eq hc] at kk
      have := ih ⟨kk.1.iv h.1, kk.2.1.iv h.2.1, kk.2.2.iv h.2.2⟩ hk
      exact ⟨.succ kk.1 this.1, .succ kk.2.1 this.2.1, .succ kk.2.2 this.2.2⟩

/-- **C92**: after `n` subdivisions the box is ordered, finite and inside the first one, and in every dimension its extent
is at most `(7/8)^n` of the first extent, or no number is left strictly between its bounds. -/
theorem C92_descend3 (b : BoundingBox3 S) (hf : AllFinite b) (hb : LeAll b.min b.max) (hd : AllFinite b.diagonal) (hp : 4 ≤ B.F.p) (build : Build) (ks : List UInt32) (d : BoundingBox3 S)
    (h : BoundingBox3.descend build b ks = .ok d) :
    (AllFinite d ∧ LeAll d.min d.max ∧ AllFinite d.diagonal) ∧ (∀ p, d.isInside p = true → b.isInside p = true) ∧
    (Adjacent d.min.x d.max.x ∨ real d.max.x - real d.min.x ≤ (7 / 8) ^ ks.length * (real b.max.x - real b.min.x)) ∧
    (Adjacent d.min.y d.max.y ∨ real d.max.y - real d.min.y ≤ (7 / 8) ^ ks.length * (real b.max.y - real b.min.y)) ∧
    (Adjacent d.min.z d.max.z ∨ real d.max.z - real d.min.z ≤ (7 / 8) ^ ks.length * (real b.max.z - real b.min.z)) := by
  have hi := BoundingBox3.ivs hf hb hd
  have key := BoundingBox3.descend_kids hi h
  have mx := key.1.main hi.1
  have my := key.2.1.main hi.2.1
  have mz := key.2.2.main hi.2.2
  have ii : Iv d.min.x d.max.x ∧ Iv d.min.y d.max.y ∧ Iv d.min.z d.max.z := ⟨mx.1, my.1, mz.1⟩
  refine ⟨BoundingBox3.of_ivs ii, fun p q => ?_, mx.2.2.2 hp, my.2.2.2 hp, mz.2.2.2 hp⟩
  rw [BoundingBox3.inside_reals ii] at q
  rw [BoundingBox3.inside_reals hi]
  exact ⟨⟨q.1.1, mx.2.1.trans q.1.2.1, q.1.2.2.trans mx.2.2.1⟩, ⟨q.2.1.1, my.2.1.trans q.2.1.2.1, q.2.1.2.2.trans my.2.2.1⟩, ⟨q.2.2.1, mz.2.1.trans q.2.2.2.1, q.2.2.2.2.trans mz.2.2.1⟩⟩

/-- **C92**: the tree has bounded depth: after `6 (emax - emin)` subdivisions (1662 for `f32`, 12588 for `f64`) no number is
left strictly between the bounds of the box, in any dimension, whichever cells were taken. -/
theorem C92_depth3 (b : BoundingBox3 S) (hf : AllFinite b) (hb : LeAll b.min b.max) (hd : AllFinite b.diagonal) (hp : 4 ≤ B.F.p) (build : Build) (ks : List UInt32) (d : BoundingBox3 S)
    (h : BoundingBox3.descend build b ks = .ok d) (hn : 6 * (B.F.emax - B.F.emin) ≤ ks.length) :
    Adjacent d.min.x d.max.x ∧
    Adjacent d.min.y d.max.y ∧
    Adjacent d.min.z d.max.z := by
  have hi := BoundingBox3.ivs hf hb hd
  have key := BoundingBox3.descend_kids hi h
  exact ⟨key.1.depth hi.1 hp hn, key.2.1.depth hi.2.1 hp hn, key.2.2.depth hi.2.2 hp hn⟩
theorem C92_depth3_f32 (b : BoundingBox3 F32) (hf : AllFinite b) (hb : LeAll b.min b.max) (hd : AllFinite b.diagonal) (build : Build) (ks : List UInt32) (d : BoundingBox3 F32)
    (h : BoundingBox3.descend build b ks = .ok d) (hn : 1662 ≤ ks.length) : Adjacent d.min.x d.max.x ∧ Adjacent d.min.y d.max.y ∧ Adjacent d.min.z d.max.z :=
  C92_depth3 b hf hb hd (by decide) build ks d h (by show 6 * ((128 : ℤ) - (-149)) ≤ _; omega)
theorem C92_depth3_f64 (b : BoundingBox3 F64) (hf : AllFinite b) (hb : LeAll b.min b.max) (hd : AllFinite b.diagonal) (build : Build) (ks : List UInt32) (d : BoundingBox3 F64)
    (h : BoundingBox3.descend build b ks = .ok d) (hn : 12588 ≤ ks.length) : Adjacent d.min.x d.max.x ∧ Adjacent d.min.y d.max.y ∧ Adjacent d.min.z d.max.z :=
  C92_depth3 b hf hb hd (by decide) build ks d h (by show 6 * ((1024 : ℤ) - (-1074)) ≤ _; omega)

/-- **C92**: when no number is left between the bounds of a dimension, every point in the box is on one of its two faces. -/
theorem C92_leaf3 (d : BoundingBox3 S) (p : Point3 S) (hp : d.isInside p = true) :
    (Adjacent d.min.x d.max.x → (p.x == d.min.x) = true ∨ (p.x == d.max.x) = true) ∧
    (Adjacent d.min.y d.max.y → (p.y == d.min.y) = true ∨ (p.y == d.max.y) = true) ∧
    (Adjacent d.min.z d.max.z → (p.z == d.min.z) = true ∨ (p.z == d.max.z) = true) := by
  rw [isInside3_iff] at hp
  exact ⟨adjacent_face hp.1, adjacent_face hp.2.1, adjacent_face hp.2.2⟩

/-! ### Splitting along the longest dimension can stall -/

/-- `2^24 + 2`, the successor of `2^24` in `f32` -/
noncomputable def nextFar : F32 := Fl.of (F := binary32) 16777218 ⟨8388609, 1, by decide, by decide, by norm_num⟩ (by
  show |(16777218 : ℝ)| < 2 ^ (128 : ℤ)
  norm_num)
/-- `[2^24, 2^24 + 2] × [0, 1]` -/
noncomputable def farBox : BoundingBox2 F32 := ⟨⟨int32 16777216, int32 0⟩, ⟨nextFar, int32 1⟩⟩
/-- **C92**: splitting a box at its center along `max_dimension()` can stall: the center is on a face of the longest
dimension, although the other dimension can be split further. -/
theorem C92_longest_stalls : AllFinite farBox ∧ LeAll farBox.min farBox.max ∧ AllFinite farBox.diagonal ∧
    farBox.maxDimension = .X ∧ (farBox.center.x == farBox.min.x) = true ∧
    ∃ m, (farBox.min.y <? m) = true ∧ (m <? farBox.max.y) = true := by
  have ho := overflow32
  have e1 : Exactly (int32 16777216) 16777216 := ⟨finite_int32, by rw [real_int32]; norm_num⟩
  have e2 : Exactly nextFar 16777218 := ⟨trivial, rfl⟩
  have e3 : Exactly (int32 0) 0 := ⟨finite_int32, by rw [real_int32]; norm_num⟩
  have e4 : Exactly (int32 1) 1 := ⟨finite_int32, by rw [real_int32]; norm_num⟩
  have eh : Exactly (Scalar.half : F32) (1 / 2) := ⟨finite_half, by rw [real_half]⟩
  have dx : Exactly (nextFar - int32 16777216) 2 := by
    have := correct_sub e2.1 e1.1
    rw [e2.2, e1.2] at this
    have g := this.grid (e := 0) (N := 2) ((OnGrid.int (n := 2) (by norm_num)).congr (by norm_num)) (fits_f32 (by norm_num))
    rwa [show (16777218 - 16777216 : ℝ) = 2 by norm_num] at g
  have dy : Exactly (int32 1 - int32 0) 1 := by
    have := correct_sub e4.1 e3.1
    rw [e4.2, e3.2] at this
    have g := this.grid (e := 0) (N := 2) ((OnGrid.int (n := 1) (by norm_num)).congr (by norm_num)) (fits_f32 (by norm_num))
    rwa [show (1 - 0 : ℝ) = 1 by norm_num] at g
  have hx : Exactly ((nextFar - int32 16777216) * Scalar.half) 1 := by
    have := correct_mul dx.1 eh.1
    rw [dx.2, eh.2] at this
    have g := this.grid (e := 0) (N := 2) ((OnGrid.int (n := 1) (by norm_num)).congr (by norm_num)) (fits_f32 (by norm_num))
    rwa [show (2 * (1 / 2) : ℝ) = 1 by norm_num] at g
  have cx : Exactly (int32 16777216 + (nextFar - int32 16777216) * Scalar.half) 16777216 :=
    exec_add e1 hx (by
      show binary32.rnd _ = _
      rw [binary32.rnd_lit_even 24 1 8388608 (by decide) (by decide)] <;> norm_num) (by
      show |(16777216 + 1 : ℝ)| < 2 ^ (128 : ℤ) - 2 ^ (103 : ℤ)
      norm_num)
  refine ⟨?_, ?_, ?_, ?_, ?_, ?_⟩
  · rw [BoundingBox2.allFinite, Point2.allFinite, Point2.allFinite]
    exact ⟨⟨e1.1, e3.1⟩, ⟨e2.1, e4.1⟩⟩
  · rw [wf2_iff]
    exact ⟨(ole_real e1.1 e2.1).2 (by rw [e1.2, e2.2]; norm_num), (ole_real e3.1 e4.1).2 (by rw [e3.2, e4.2]; norm_num)⟩
  · rw [Vector2.allFinite]
    exact ⟨dx.1, dy.1⟩
  · have : (farBox.diagonal.x >? farBox.diagonal.y) = true := (olt_real dy.1 dx.1).2 (by rw [dx.2, dy.2]; norm_num)
    exact if_pos this
  · exact (obeq_real cx.1 e1.1).2 (by rw [cx.2, e1.2])
  · refine ⟨Scalar.half, (olt_real e3.1 eh.1).2 ?_, (olt_real eh.1 e4.1).2 ?_⟩
    · rw [e3.2, eh.2]; norm_num
    · rw [e4.2, eh.2]; norm_num

/-! ### The hypotheses are met: the cube `[0, 8]` -/

theorem cube_diag : IsFinite (int32 8 - int32 0) := by
  refine (correct_sub (S := F32) finite_int32 finite_int32).1.2 ?_
  rw [real_int32, real_int32]
  have := overflow32
  norm_num at this ⊢
  linarith
theorem cube8_2 : AllFinite (cube2 0 8).diagonal := Vector2.allFinite.2 ⟨cube_diag, cube_diag⟩
theorem cube8_3 : AllFinite (cube3 0 8).diagonal := Vector3.allFinite.2 ⟨cube_diag, cube_diag, cube_diag⟩
/-- the center of `[0, 8]` is strictly inside: 1 lies between -/
theorem one_between : ∃ m : F32, (int32 0 <? m) = true ∧ (m <? int32 8) = true :=
  ⟨int32 1, (olt_real finite_int32 finite_int32).2 (by show ((0 : ℤ) : ℝ) < ((1 : ℤ) : ℝ); norm_num),
    (olt_real finite_int32 finite_int32).2 (by show ((1 : ℤ) : ℝ) < ((8 : ℤ) : ℝ); norm_num)⟩
example := ((C92_progress2 (cube2 0 8) cube2_finite (cube2_le (by norm_num)) cube8_2).1 one_between)
/-- every list of cell numbers below 8 can be followed, so the bound on the depth is about existing boxes -/
theorem BoundingBox3.descend_ok (b : BoundingBox3 S) (build : Build) (ks : List UInt32) (h : ∀ k ∈ ks, k < 8) :
    ∃ d, BoundingBox3.descend build b ks = .ok d := by
  induction ks generalizing b with
  | nil => exact ⟨b, rfl⟩
  | cons k ks ih =>
    rw [BoundingBox3.descend, BoundingBox3.cell_ok (h k (by simp))]
    exact ih _ fun j hj => h j (by simp [hj])
example : ∃ d, BoundingBox3.descend .debug (cube3 0 8) (List.replicate 2000 5) = .ok d ∧
    Adjacent d.min.x d.max.x ∧ Adjacent d.min.y d.max.y ∧ Adjacent d.min.z d.max.z := by
  obtain ⟨d, hd⟩ := BoundingBox3.descend_ok (cube3 0 8) .debug (List.replicate 2000 5) (by
    intro k hk; rw [List.eq_of_mem_replicate hk]; decide)
  exact ⟨d, hd, C92_depth3_f32 _ cube3_finite (cube3_le (by norm_num)) cube8_3 _ _ d hd (by rw [List.length_replicate]; norm_num)⟩

end VecMath

out='''import Verif.Lemmas.Octree
import Verif.Props.FloatExamples2
/-!
# Quadtrees and octrees (layer F): C92

Subdividing a box into the cells spanned by its center and its corners, any number of times.
Generated by tools/gen/oct.py.
-/

open Classical
set_option linter.unusedSectionVars false

namespace VecMath
open Scalar IEEE
variable {S : Type} [Scalar S] [IEEE S] [B : Binary S]

theorem in1_real {lo hi x : S} (hl : IsFinite lo) (hh : IsFinite hi) : In1 lo hi x ↔ IsFinite x ∧ real lo ≤ real x ∧ real x ≤ real hi := by
  constructor
  · intro h
    have f := ofinite_between hl hh h.1 h.2
    exact ⟨f, (ole_real hl f).1 h.1, (ole_real f hh).1 h.2⟩
  · rintro ⟨f, h1, h2⟩
    exact ⟨(ole_real hl f).2 h1, (ole_real f hh).2 h2⟩

'''
for D,X in ((2,'xy'),(3,'xyz')):
    BB=f'BoundingBox{D}'; P=f'Point{D}'; V=f'Vector{D}'
    n=2**D
    sel={2:['.1','.2'],3:['.1','.2.1','.2.2']}[D]
    masks=['0b01','0b10'] if D==2 else ['0b001','0b010','0b100']
    H=f'''(hf : AllFinite b) (hb : LeAll b.min b.max) (hd : AllFinite b.diagonal)'''
    out+=f'''section
variable {{b c : {BB} S}} {{build : Build}} {{k : UInt32}}

theorem {BB}.ivs {H} : {' ∧ '.join(f'Iv b.min.{c} b.max.{c}' for c in X)} := by
  rw [{BB}.allFinite, {P}.allFinite, {P}.allFinite] at hf
  rw [wf{D}_iff] at hb
  rw [{V}.allFinite] at hd
  exact ⟨{', '.join(f'Iv.of hf.1{s} hf.2{s} hb{s} hd{s}' for s in sel)}⟩
theorem {BB}.of_ivs (h : {' ∧ '.join(f'Iv b.min.{c} b.max.{c}' for c in X)}) : AllFinite b ∧ LeAll b.min b.max ∧ AllFinite b.diagonal := by
  refine ⟨?_, ?_, ?_⟩
  · rw [{BB}.allFinite, {P}.allFinite, {P}.allFinite]
    exact ⟨⟨{', '.join(f'h{s}.fl' for s in sel)}⟩, ⟨{', '.join(f'h{s}.fh' for s in sel)}⟩⟩
  · rw [wf{D}_iff]
    exact ⟨{', '.join(f'(ole_real h{s}.fl h{s}.fh).2 h{s}.le' for s in sel)}⟩
  · rw [{V}.allFinite]
    exact ⟨{', '.join(f'h{s}.ext' for s in sel)}⟩
theorem {BB}.inside_reals (h : {' ∧ '.join(f'Iv b.min.{c} b.max.{c}' for c in X)}) {{p : {P} S}} : b.isInside p = true ↔
    {' ∧ '.join(f'(IsFinite p.{c} ∧ real b.min.{c} ≤ real p.{c} ∧ real p.{c} ≤ real b.max.{c})' for c in X)} := by
  rw [isInside{D}_iff{''.join(f', in1_real h{s}.fl h{s}.fh' for s in sel)}]

/-- the cell whose choices are given as booleans (true: the upper half) -/
def {BB}.cellOf (b : {BB} S) ({' '.join('s'+c for c in X)} : Bool) : {BB} S :=
  {BB}.new b.center ⟨{', '.join(f'if s{c} then b.max.{c} else b.min.{c}' for c in X)}⟩
theorem {BB}.cell_eq (h : b.cell build k = .ok c) :
    c = b.cellOf {' '.join(f'(k.toNat.testBit {i})' for i,_ in enumerate(X))} := by
  obtain ⟨h1, h2, h3⟩ := C33_corner{D} b k
  have hr : b.corner build k = b.corner .release k := by
    cases build
    · by_cases hk : k < {n}
      · exact h2 hk
      · rw [{BB}.cell, h3 hk] at h; cases h
    · rfl
  rw [{BB}.cell, hr, h1] at h
  cases h
  rfl
theorem {BB}.cell_ok (hk : k < {n}) : b.cell build k = .ok (b.cellOf {' '.join(f'(k.toNat.testBit {i})' for i,_ in enumerate(X))}) := by
  obtain ⟨h1, h2, h3⟩ := C33_corner{D} b k
  have hr : b.corner build k = b.corner .release k := by
    cases build
    · exact h2 hk
    · rfl
  rw [{BB}.cell, hr, h1]
  rfl
theorem {BB}.cell_kids (h : {' ∧ '.join(f'Iv b.min.{c} b.max.{c}' for c in X)}) ({' '.join('s'+c for c in X)} : Bool) :
    {' ∧ '.join(f'Kid b.min.{c} b.max.{c} (b.cellOf {" ".join("s"+e for e in X)}).min.{c} (b.cellOf {" ".join("s"+e for e in X)}).max.{c}' for c in X)} := by
  refine ⟨{', '.join('?_' for _ in X)}⟩
'''
    for c,s in zip(X,sel):
        out+=f'''  · cases s{c}
    · exact h{s}.kid_lo.2.2
    · exact h{s}.kid_hi.2.2
'''
    def conj(f): return ' ∧\n    '.join(f(c) for c in X)
    out+=f'''end

/-- **C92**: every cell of a finite, ordered box whose extent does not overflow is such a box again, inside the box. All
{n} cells exist, in both build profiles. -/
theorem C92_cell{D} (b : {BB} S) {H} (build : Build) :
    (∀ k < {n}, ∃ c, b.cell build k = .ok c) ∧
    ∀ k c, b.cell build k = .ok c → (AllFinite c ∧ LeAll c.min c.max ∧ AllFinite c.diagonal) ∧
      (c.isInside b.center = true) ∧ (∀ q, b.corner build k = .ok q → c.isInside q = true) ∧
      ∀ p, c.isInside p = true → b.isInside p = true := by
  have hi := {BB}.ivs hf hb hd
  refine ⟨fun k hk => ⟨_, {BB}.cell_ok hk⟩, fun k c h => ?_⟩
  have hc := {BB}.cell_eq h
  have kk := {BB}.cell_kids hi {' '.join(f'(k.toNat.testBit {i})' for i,_ in enumerate(X))}
  rw [← hc] at kk
  have ii : {' ∧ '.join(f'Iv c.min.{c} c.max.{c}' for c in X)} := ⟨{', '.join(f'kk{s}.iv hi{s}' for s in sel)}⟩
  have nc : NoNaN b.center := by
    rw [{P}.noNaN]; exact ⟨{', '.join(f'hi{s}.mid_in.1.not_nan' for s in sel)}⟩
  refine ⟨{BB}.of_ivs ii, ?_, fun q hq => ?_, fun p hp => ?_⟩
  · cases hq : b.corner build k with
    | error e => rw [{BB}.cell, hq] at h; cases h
    | ok q =>
      rw [{BB}.cell, hq] at h
      cases h
      rw [{BB}.inside_reals ii]
      exact ⟨{', '.join(f'⟨hi{s}.mid_in.1, by rcases kk{s}.cases with ⟨a, e⟩ | ⟨a, e⟩ <;> rw [a] <;> [exact hi{s}.mid_in.2.1; exact le_rfl], by rcases kk{s}.cases with ⟨a, e⟩ | ⟨a, e⟩ <;> rw [e] <;> [exact le_rfl; exact hi{s}.mid_in.2.2]⟩' for s in sel)}⟩
  · rw [{BB}.cell, hq] at h
    cases h
    have nq : NoNaN q := by
      obtain ⟨h1, h2, h3⟩ := C33_corner{D} b k
      have hr : b.corner build k = b.corner .release k := by
        cases build
        · by_cases hk : k < {n}
          · exact h2 hk
          · rw [h3 hk] at hq; cases hq
        · rfl
      rw [hr, h1] at hq
      cases hq
      rw [{P}.noNaN]
      refine ⟨{', '.join('?_' for _ in X)}⟩
'''
    for c,s in zip(X,sel): out+=f'''      · dsimp only; split_ifs
        · exact hi{s}.fh.not_nan
        · exact hi{s}.fl.not_nan
'''
    out+=f'''    exact (C24_new{D} _ _ nc nq).2.2.1
  · rw [{BB}.inside_reals ii] at hp
    rw [{BB}.inside_reals hi]
    exact ⟨{', '.join(f'⟨hp{s}.1, (kk{s}.in_ hi{s}).1.trans hp{s}.2.1, hp{s}.2.2.trans (kk{s}.in_ hi{s}).2.2⟩' for s in sel)}⟩

/-- **C92**: the cells cover the box. -/
theorem C92_cover{D} (b : {BB} S) {H} (build : Build) (p : {P} S) (hp : b.isInside p = true) :
    ∃ k < {n}, ∃ c, b.cell build k = .ok c ∧ c.isInside p = true := by
  have hi := {BB}.ivs hf hb hd
  have ex : ∀ {' '.join('s'+c for c in X)} : Bool, ∃ k : UInt32, k < {n} ∧ {' ∧ '.join(f'k.toNat.testBit {i} = s{c}' for i,c in enumerate(X))} := by
    intro {' '.join('s'+c for c in X)}
    refine ⟨{' + '.join(f'(if s{c} then {2**i} else 0)' for i,c in enumerate(X))}, ?_⟩
    revert {' '.join('s'+c for c in X)}
    decide
  rw [{BB}.inside_reals hi] at hp
  obtain ⟨k, hk, {', '.join('e'+c for c in X)}⟩ := ex {' '.join(f'(decide (real (mid b.min.{c} b.max.{c}) ≤ real p.{c}))' for c in X)}
  refine ⟨k, hk, _, {BB}.cell_ok hk, ?_⟩
  rw [{', '.join('e'+c for c in X)}]
  have kk := {BB}.cell_kids hi {' '.join(f'(decide (real (mid b.min.{c} b.max.{c}) ≤ real p.{c}))' for c in X)}
  rw [{BB}.inside_reals ⟨{', '.join(f'kk{s}.iv hi{s}' for s in sel)}⟩]
  refine ⟨{', '.join('?_' for _ in X)}⟩
'''
    for c,s in zip(X,sel):
        out+=f'''  · refine ⟨hp{s}.1, ?_⟩
    by_cases h : real (mid b.min.{c} b.max.{c}) ≤ real p.{c}
    · simp only [h, decide_true]
      exact ⟨hi{s}.kid_hi.1.le.trans h, hp{s}.2.2.trans hi{s}.kid_hi.2.1.ge⟩
    · simp only [h, decide_false]
      exact ⟨hi{s}.kid_lo.1.le.trans hp{s}.2.1, (not_le.1 h).le.trans hi{s}.kid_lo.2.1.ge⟩
'''
    out+=f'''
/-- **C92**: two cells that differ in dimension `i` share only points on the center plane of dimension `i`. -/
theorem C92_overlap{D} (b : {BB} S) {H} (build : Build) (k k' : UInt32) (c c' : {BB} S)
    (h : b.cell build k = .ok c) (h' : b.cell build k' = .ok c') (p : {P} S) (hp : c.isInside p = true) (hp' : c'.isInside p = true) :
    {conj(lambda c: f"(k.toNat.testBit {X.index(c)} ≠ k'.toNat.testBit {X.index(c)} → (p.{c} == b.center.{c}) = true)")} := by
  have hi := {BB}.ivs hf hb hd
  have kk := {BB}.cell_kids hi {' '.join(f'(k.toNat.testBit {i})' for i,_ in enumerate(X))}
  have kk' := {BB}.cell_kids hi {' '.join(f"(k'.toNat.testBit {i})" for i,_ in enumerate(X))}
  rw [{BB}.cell_eq h, {BB}.inside_reals ⟨{', '.join(f'kk{s}.iv hi{s}' for s in sel)}⟩] at hp
  rw [{BB}.cell_eq h', {BB}.inside_reals ⟨{', '.join(f"kk'{s}.iv hi{s}" for s in sel)}⟩] at hp'
  refine ⟨{', '.join('fun hne => ?_' for _ in X)}⟩
'''
    for i,(c,s) in enumerate(zip(X,sel)):
        out+=f'''  · refine (obeq_real hp{s}.1 hi{s}.mid_in.1).2 ?_
    have a := hp{s}.2
    have a' := hp'{s}.2
    cases e : k.toNat.testBit {i} <;> cases e' : k'.toNat.testBit {i} <;> rw [e, e'] at hne
    · exact absurd rfl hne
    · rw [e] at a
      rw [e'] at a'
      exact le_antisymm (a.2.trans hi{s}.kid_lo.2.1.le) (hi{s}.kid_hi.1.ge.trans a'.1)
    · rw [e] at a
      rw [e'] at a'
      exact le_antisymm (a'.2.trans hi{s}.kid_lo.2.1.le) (hi{s}.kid_hi.1.ge.trans a.1)
    · exact absurd rfl hne
'''
    out+=f'''
/-- **C92**: the center is strictly inside in every dimension in which some number lies strictly between the bounds, and on
a face in every other. -/
theorem C92_progress{D} (b : {BB} S) {H} :
    {conj(lambda c: f"((∃ m, (b.min.{c} <? m) = true ∧ (m <? b.max.{c}) = true) → (b.min.{c} <? b.center.{c}) = true ∧ (b.center.{c} <? b.max.{c}) = true)")} ∧
    {conj(lambda c: f"(Adjacent b.min.{c} b.max.{c} → (b.center.{c} == b.min.{c}) = true ∨ (b.center.{c} == b.max.{c}) = true)")} := by
  have hi := {BB}.ivs hf hb hd
  refine ⟨{', '.join(f'fun h => ⟨(olt_real hi{s}.fl hi{s}.mid_in.1).2 (hi{s}.mid_strict (not_not.2 h)).1.1, (olt_real hi{s}.mid_in.1 hi{s}.fh).2 (hi{s}.mid_strict (not_not.2 h)).1.2⟩' for s in sel)},
    {', '.join(f'fun h => (hi{s}.mid_adjacent h).imp (obeq_real hi{s}.mid_in.1 hi{s}.fl).2 (obeq_real hi{s}.mid_in.1 hi{s}.fh).2' for s in sel)}⟩

/-- **C92**: after `n` subdivisions the box is ordered, finite and inside the first one, and in every dimension its extent
is at most `(7/8)^n` of the first extent, or no number is left strictly between its bounds. -/
theorem C92_descend{D} (b : {BB} S) {H} (hp : 4 ≤ B.F.p) (build : Build) (ks : List UInt32) (d : {BB} S)
    (h : {BB}.descend build b ks = .ok d) :
    (AllFinite d ∧ LeAll d.min d.max ∧ AllFinite d.diagonal) ∧ (∀ p, d.isInside p = true → b.isInside p = true) ∧
    {conj(lambda c: f"(Adjacent d.min.{c} d.max.{c} ∨ real d.max.{c} - real d.min.{c} ≤ (7 / 8) ^ ks.length * (real b.max.{c} - real b.min.{c}))")} := by
  have hi := {BB}.ivs hf hb hd
  have key := {BB}.descend_kids hi h
  have m{'x'} := key.1.main hi.1
'''.replace("  have mx := key.1.main hi.1\n",''.join(f"  have m{c} := key{s}.main hi{s}\n" for c,s in zip(X,sel)))
    out+=f'''  have ii : {' ∧ '.join(f'Iv d.min.{c} d.max.{c}' for c in X)} := ⟨{', '.join(f'm{c}.1' for c in X)}⟩
  refine ⟨{BB}.of_ivs ii, fun p q => ?_, {', '.join(f'm{c}.2.2.2 hp' for c in X)}⟩
  rw [{BB}.inside_reals ii] at q
  rw [{BB}.inside_reals hi]
  exact ⟨{', '.join(f'⟨q{s}.1, m{c}.2.1.trans q{s}.2.1, q{s}.2.2.trans m{c}.2.2.1⟩' for c,s in zip(X,sel))}⟩

/-- **C92**: the tree has bounded depth: after `6 (emax - emin)` subdivisions (1662 for `f32`, 12588 for `f64`) no number is
left strictly between the bounds of the box, in any dimension, whichever cells were taken. -/
theorem C92_depth{D} (b : {BB} S) {H} (hp : 4 ≤ B.F.p) (build : Build) (ks : List UInt32) (d : {BB} S)
    (h : {BB}.descend build b ks = .ok d) (hn : 6 * (B.F.emax - B.F.emin) ≤ ks.length) :
    {conj(lambda c: f"Adjacent d.min.{c} d.max.{c}")} := by
  have hi := {BB}.ivs hf hb hd
  have key := {BB}.descend_kids hi h
  exact ⟨{', '.join(f'key{s}.depth hi{s} hp hn' for s in sel)}⟩
theorem C92_depth{D}_f32 (b : {BB} F32) {H} (build : Build) (ks : List UInt32) (d : {BB} F32)
    (h : {BB}.descend build b ks = .ok d) (hn : 1662 ≤ ks.length) : {' ∧ '.join(f"Adjacent d.min.{c} d.max.{c}" for c in X)} :=
  C92_depth{D} b hf hb hd (by decide) build ks d h (by show 6 * ((128 : ℤ) - (-149)) ≤ _; omega)
theorem C92_depth{D}_f64 (b : {BB} F64) {H} (build : Build) (ks : List UInt32) (d : {BB} F64)
    (h : {BB}.descend build b ks = .ok d) (hn : 12588 ≤ ks.length) : {' ∧ '.join(f"Adjacent d.min.{c} d.max.{c}" for c in X)} :=
  C92_depth{D} b hf hb hd (by decide) build ks d h (by show 6 * ((1024 : ℤ) - (-1074)) ≤ _; omega)

/-- **C92**: when no number is left between the bounds of a dimension, every point in the box is on one of its two faces. -/
theorem C92_leaf{D} (d : {BB} S) (p : {P} S) (hp : d.isInside p = true) :
    {conj(lambda c: f"(Adjacent d.min.{c} d.max.{c} → (p.{c} == d.min.{c}) = true ∨ (p.{c} == d.max.{c}) = true)")} := by
  rw [isInside{D}_iff] at hp
  exact ⟨{', '.join(f'adjacent_face hp{s}' for s in sel)}⟩

'''
    # descend_kids lemma must come before: insert
    lem=f'''theorem {BB}.descend_kids {{b d : {BB} S}} {{build : Build}} {{ks : List UInt32}} (h : {' ∧ '.join(f'Iv b.min.{c} b.max.{c}' for c in X)})
    (hk : {BB}.descend build b ks = .ok d) : {' ∧ '.join(f'Kids ks.length b.min.{c} b.max.{c} d.min.{c} d.max.{c}' for c in X)} := by
  induction ks generalizing b with
  | nil =>
    cases hk
    exact ⟨{', '.join('Kids.zero _ _' for c in X)}⟩
  | cons k ks ih =>
    rw [{BB}.descend] at hk
    cases hc : b.cell build k with
    | error e => rw [hc] at hk; cases hk
    | ok c =>
      rw [hc] at hk
      have kk := {BB}.cell_kids h {' '.join(f'(k.toNat.testBit {i})' for i,_ in enumerate(X))}
      rw [← {BB}.cell_eq hc] at kk
      have := ih ⟨{', '.join(f'kk{s}.iv h{s}' for s in sel)}⟩ hk
      exact ⟨{', '.join(f'.succ kk{s} this{s}' for s in sel)}⟩

'''
    mark=f'/-- **C92**: after `n` subdivisions the box is ordered, finite and inside the first one, and in every dimension its extent\nis at most'
    i=out.rindex(mark); out=out[:i]+lem+out[i:]
out=out.replace('section\nvariable {b c : BoundingBox2','''theorem adjacent_face {lo hi x : S} (h : In1 lo hi x) (ha : Adjacent lo hi) : (x == lo) = true ∨ (x == hi) = true := by
  obtain ⟨h1, h2⟩ := h
  rw [le_iff] at h1 h2
  by_contra hc
  push_neg at hc
  refine ha ⟨x, lt_iff.2 ⟨h1.1, h1.2.1, lt_of_le_of_ne h1.2.2 fun e => hc.1 (IEEE.beq_iff.2 ⟨h1.2.1, h1.1, e.symm⟩)⟩,
    lt_iff.2 ⟨h2.1, h2.2.1, lt_of_le_of_ne h2.2.2 fun e => hc.2 (IEEE.beq_iff.2 ⟨h2.1, h2.2.1, e⟩)⟩⟩

section
variable {b c : BoundingBox2''',1)
out+=open('/tmp/w/st.lean').read()
out+='''/-! ### The hypotheses are met: the cube `[0, 8]` -/

theorem cube_diag : IsFinite (int32 8 - int32 0) := by
  refine (correct_sub (S := F32) finite_int32 finite_int32).1.2 ?_
  rw [real_int32, real_int32]
  have := overflow32
  norm_num at this ⊢
  linarith
theorem cube8_2 : AllFinite (cube2 0 8).diagonal := Vector2.allFinite.2 ⟨cube_diag, cube_diag⟩
theorem cube8_3 : AllFinite (cube3 0 8).diagonal := Vector3.allFinite.2 ⟨cube_diag, cube_diag, cube_diag⟩
/-- the center of `[0, 8]` is strictly inside: 1 lies between -/
theorem one_between : ∃ m : F32, (int32 0 <? m) = true ∧ (m <? int32 8) = true :=
  ⟨int32 1, (olt_real finite_int32 finite_int32).2 (by show ((0 : ℤ) : ℝ) < ((1 : ℤ) : ℝ); norm_num),
    (olt_real finite_int32 finite_int32).2 (by show ((1 : ℤ) : ℝ) < ((8 : ℤ) : ℝ); norm_num)⟩
example := ((C92_progress2 (cube2 0 8) cube2_finite (cube2_le (by norm_num)) cube8_2).1 one_between)
/-- every list of cell numbers below 8 can be followed, so the bound on the depth is about existing boxes -/
theorem BoundingBox3.descend_ok (b : BoundingBox3 S) (build : Build) (ks : List UInt32) (h : ∀ k ∈ ks, k < 8) :
    ∃ d, BoundingBox3.descend build b ks = .ok d := by
  induction ks generalizing b with
  | nil => exact ⟨b, rfl⟩
  | cons k ks ih =>
    rw [BoundingBox3.descend, BoundingBox3.cell_ok (h k (by simp))]
    exact ih _ fun j hj => h j (by simp [hj])
example : ∃ d, BoundingBox3.descend .debug (cube3 0 8) (List.replicate 2000 5) = .ok d ∧
    Adjacent d.min.x d.max.x ∧ Adjacent d.min.y d.max.y ∧ Adjacent d.min.z d.max.z := by
  obtain ⟨d, hd⟩ := BoundingBox3.descend_ok (cube3 0 8) .debug (List.replicate 2000 5) (by
    intro k hk; rw [List.eq_of_mem_replicate hk]; decide)
  exact ⟨d, hd, C92_depth3_f32 _ cube3_finite (cube3_le (by norm_num)) cube8_3 _ _ d hd (by rw [List.length_replicate]; norm_num)⟩

end VecMath
'''
open('/verif/lean/Verif/Props/FloatOctree.lean','w').write(out)

H='''import Verif.Props.FloatKd
import Verif.Props.FloatExamples2
/-!
# Rays in the plane of a face, in floating point (layer F): C37, and the exception of C80

Generated by tools/gen/face.py.
-/

open Classical
set_option linter.unusedSectionVars false

namespace VecMath
open Scalar IEEE
section
variable {S : Type} [Scalar S] [IEEE S] [Binary S]

/-- Exactly one of the two planes contains the ray: both computed bounds of the slab are the same infinity. -/
theorem slab_one_plane {lo hi o d : S} (fl : IsFinite lo) (fh : IsFinite hi) (fo : IsFinite o) (fd : IsFinite d)
    (h0 : real d = 0) (h : (real o = real lo ∧ real o ≠ real hi) ∨ (real o ≠ real lo ∧ real o = real hi)) :
    ¬ IsNaN (fmin ((lo - o) / d) ((hi - o) / d)) ∧ ¬ IsNaN (fmax ((lo - o) / d) ((hi - o) / d)) ∧
    ((val (fmin ((lo - o) / d) ((hi - o) / d)) = ⊤ ∧ val (fmax ((lo - o) / d) ((hi - o) / d)) = ⊤) ∨
     (val (fmin ((lo - o) / d) ((hi - o) / d)) = ⊥ ∧ val (fmax ((lo - o) / d) ((hi - o) / d)) = ⊥)) := by
  have nan : ∀ {a : S}, IsFinite a → real o = real a → IsNaN ((a - o) / d) := by
    intro a ha h
    have e : real (a - o) = 0 ∧ IsFinite (a - o) := by
      have := sub_finite ha fo
      rw [h, sub_self] at this
      unfold real IsFinite
      rw [this]
      constructor
      · simp
      · simp
    exact nan_div_zero e.2 fd e.1 h0
  have inf : ∀ {a : S}, IsFinite a → real o ≠ real a → ¬ IsNaN ((a - o) / d) ∧
      (val ((a - o) / d) = ⊤ ∨ val ((a - o) / d) = ⊥) := by
    intro a ha h
    have n := isNaN_sub_finite fo ha.not_nan
    obtain ⟨n1, v⟩ := val_inf (den_div_zero' n (val_sub_ne n h) fd h0)
    refine ⟨n1, ?_⟩
    rw [v]; split <;> simp
  rcases h with ⟨h1, h2⟩ | ⟨h1, h2⟩
  · obtain ⟨n, v⟩ := inf fh h2
    have e1 := min_nan_left (b := (hi - o) / d) (nan fl h1)
    have e2 := max_nan_left (b := (hi - o) / d) (nan fl h1)
    rw [e1.isNaN, e2.isNaN, e1.val, e2.val]
    exact ⟨n, n, v.imp (fun h => ⟨h, h⟩) fun h => ⟨h, h⟩⟩
  · obtain ⟨n, v⟩ := inf fl h1
    have e1 := min_nan_right (a := (lo - o) / d) (nan fh h2)
    have e2 := max_nan_right (a := (lo - o) / d) (nan fh h2)
    rw [e1.isNaN, e2.isNaN, e1.val, e2.val]
    exact ⟨n, n, v.imp (fun h => ⟨h, h⟩) fun h => ⟨h, h⟩⟩
theorem real_lt' {a b : S} (ha : IsFinite a) (hb : IsFinite b) : (a <? b) = true ↔ real a < real b := by
  rw [lt_of_not_nan ha.not_nan hb.not_nan, ha.val, hb.val, EReal.coe_lt_coe_iff]
/-- Such a slab leaves only `inf..inf`. -/
theorem degenerate {mn mx s e : S} (ns : ¬ IsNaN s) (ne : ¬ IsNaN e) (h0 : 0 ≤ val s) (h : val s ≤ val e)
    (n1 : ¬ IsNaN mn) (n2 : ¬ IsNaN mx) (hv : (val mn = ⊤ ∧ val mx = ⊤) ∨ (val mn = ⊥ ∧ val mx = ⊥))
    (b1 : ¬ IsNaN mn → val mn ≤ val s) (b2 : ¬ IsNaN mx → val e ≤ val mx) :
    (s == infinity) = true ∧ (e == infinity) = true := by
  rcases hv with ⟨v1, v2⟩ | ⟨v1, v2⟩
  · have := b1 n1
    rw [v1, top_le_iff] at this
    have h' := h
    rw [this, top_le_iff] at h'
    exact ⟨beq_iff.2 ⟨ns, not_nan_infinity, by rw [this]; simp⟩, beq_iff.2 ⟨ne, not_nan_infinity, by rw [h']; simp⟩⟩
  · have := b2 n2
    rw [v2] at this
    have := h0.trans (h.trans this)
    simp at this
end
'''
T='''
/-! ## @ dimensions -/
section
variable {S : Type} [Scalar S] [IEEE S] [Binary S]

/-- What a reported range says about every slab. -/
theorem range_bounds@ {b : BoundingBox@ S} {r : Ray@ S} {j : Range S} (h : Api.intersect b r = some j) :
    ¬ IsNaN j.start ∧ ¬ IsNaN j.stop ∧ 0 ≤ val j.start ∧ val j.start ≤ val j.stop ∧
    (AXB) := by
  change b.intersectRay r = some j at h
  simp only [BoundingBox@.intersectRay] at h
  have s0 : ¬ IsNaN (Scalar.zero : S) := not_nan_zero
  have e0 : ¬ IsNaN (infinity : S) := not_nan_infinity
  have z : (0 : EReal) ≤ val (Scalar.zero : S) := by simp
  split_ifs at h with SPL
  obtain rfl := Option.some.inj h
STEPS
  obtain ⟨n1, n2, hle⟩ := le_iff.1 gN
  exact ⟨n1, n2, POS, hle, AXP⟩

/-- The ray runs, in the dimension `dim`, in the plane of exactly one of the two faces. -/
def InFace@ (b : BoundingBox@ S) (r : Ray@ S) (dim : Dimension@) : Prop :=
  real (r.direction.index dim) = 0 ∧
  ((real (r.origin.index dim) = real (b.min.index dim) ∧ real (r.origin.index dim) ≠ real (b.max.index dim)) ∨
   (real (r.origin.index dim) ≠ real (b.min.index dim) ∧ real (r.origin.index dim) = real (b.max.index dim)))

/-- **C37** in floating point, @D: a ray running in the plane of a face is never reported with a finite range: the result
is none, or (when the other dimensions end at infinity too) the empty range `inf..inf`. -/
theorem C37_float@ (b : BoundingBox@ S) (r : Ray@ S) (fb : AllFinite b) (ho : AllFinite r.origin)
    (hd : AllFinite r.direction) (dim : Dimension@) (h : InFace@ b r dim) :
    Api.intersect b r = (none : Option (Range S)) ∨
    ∃ j : Range S, Api.intersect b r = some j ∧ (j.start == infinity) = true ∧ (j.stop == infinity) = true := by
  cases hj : (Api.intersect b r : Option (Range S)) with
  | none => exact .inl rfl
  | some j =>
    refine .inr ⟨j, rfl, ?_⟩
    obtain ⟨n1, n2, p0, hle, hb⟩ := range_bounds@ hj
    rw [BoundingBox@.allFinite, Point@.allFinite, Point@.allFinite] at fb
    rw [Point@.allFinite] at ho
    rw [Vector@.allFinite] at hd
    obtain ⟨h0, h⟩ := h
    cases dim with
DIMS

/-- **C80**, @D: the exception. A ray running in the cutting plane inside the box is lost: neither part reports it with a
finite range, although it starts strictly inside the box, which reports it from 0 on. -/
theorem C80_in_plane@ (b : BoundingBox@ S) (r : Ray@ S) (dim : Dimension@) (m : S) (fb : AllFinite b)
    (ho : AllFinite r.origin) (hd : AllFinite r.direction) (fm : IsFinite m)
    (hin : ∀ d : Dimension@, (b.min.index d <? r.origin.index d) = true ∧ (r.origin.index d <? b.max.index d) = true)
    (h0 : real (r.direction.index dim) = 0) (hm : real (r.origin.index dim) = real m) :
    (∃ i, Api.intersect b r = some i ∧ (i.start == Scalar.zero) = true) ∧
    ∀ c, c = b.below dim m ∨ c = b.above dim m → Api.intersect c r = (none : Option (Range S)) ∨
      ∃ j : Range S, Api.intersect c r = some j ∧ (j.start == infinity) = true ∧ (j.stop == infinity) = true := by
  refine ⟨C36_inside@ b r hd.noNaN ⟨HIN⟩, ?_⟩
  have fb' := fb
  have ho' := ho
  rw [BoundingBox@.allFinite, Point@.allFinite, Point@.allFinite] at fb'
  rw [Point@.allFinite] at ho'
  have q := hin dim
  rintro c (rfl | rfl)
  · refine C37_float@ _ r ?_ ho hd dim ⟨h0, .inr ?_⟩
    · rw [BoundingBox@.allFinite, Point@.allFinite, Point@.allFinite]
      cases dim
      exacts [FB1]
    · cases dim
      exacts [NE1]
  · refine C37_float@ _ r ?_ ho hd dim ⟨h0, .inl ?_⟩
    · rw [BoundingBox@.allFinite, Point@.allFinite, Point@.allFinite]
      cases dim
      exacts [FB2]
    · cases dim
      exacts [NE2]
end

/-! Concrete cases, @D. -/
/-- Straight up from the middle of the cube. -/
noncomputable def rayUp@ : Ray@ F32 := ⟨⟨UPO⟩, ⟨UPD⟩⟩
theorem rayUp@_finite : AllFinite rayUp@.origin ∧ AllFinite rayUp@.direction :=
  ⟨Point@.allFinite.2 ⟨TRIV⟩, Vector@.allFinite.2 ⟨TRIV⟩⟩
example := C80_in_plane@ (cube@ 1 3) rayUp@ .X (int32 2) cube@_finite rayUp@_finite.1 rayUp@_finite.2 trivial
  (by intro d; cases d <;> exact ⟨int32_lt (by norm_num), int32_lt (by norm_num)⟩)
  (show ((0 : ℤ) : ℝ) = 0 by norm_num) rfl
/-- Cut the cube at `y = 2`, and the upper part at `x = 1`. -/
noncomputable def kd@ : Kd Dimension@ F32 := .cut .Y (int32 2) .cell (.cut .X (int32 1) .cell .cell)
theorem kd@_cuts : kd@.Cuts@ (cube@ 1 3) :=
  ⟨⟨int32_le (by norm_num), int32_le (by norm_num)⟩, trivial, ⟨int32_le (by norm_num), int32_le (by norm_num)⟩, trivial, trivial⟩
theorem kd@_off : kd@.OffCuts@ rayIn@ :=
  ⟨fun h => absurd (show ((DY : ℤ) : ℝ) = 0 from h) (by norm_num), trivial,
    fun h => absurd (show ((DX : ℤ) : ℝ) = 0 from h) (by norm_num), trivial, trivial⟩
example : ∃ c ∈ kd@.cells@ (cube@ 1 3), ∃ j : Range F32, Api.intersect c rayIn@ = some j := by
  obtain ⟨i, hi⟩ := hit@
  obtain ⟨-, h, n, -⟩ := C34_range@ _ _ i hi
  obtain ⟨c, hc, j, hj, -⟩ := C80_kd@ kd@ (cube@ 1 3) rayIn@ (cube@_le (by norm_num)) cube@_finite (off@ _) rayIn@_finite.1
    rayIn@_finite.2 kd@_cuts kd@_off i hi i.start (le_self n) h
  exact ⟨c, hc, j, hj⟩
example := C80_cut@ (cube@ 1 3) rayIn@ .X (int32 2) (cube@_le (by norm_num)) cube@_finite (off@ _) rayIn@_finite.1
  rayIn@_finite.2 (int32_le (by norm_num)) (int32_le (by norm_num)) (fun h => absurd (show ((DX : ℤ) : ℝ) = 0 from h) (by norm_num))
example := C80_cells@ kd@ (cube@ 1 3) (cube@_le (by norm_num)) kd@_cuts
'''
out=H
for n in (2,3):
    ax=['x','y','z'][:n]; sel=(['.1','.2'] if n==2 else ['.1','.2.1','.2.2'])
    S=dict(zip(ax,sel))
    cr=lambda c,a:f'(b.{c}.{a} - r.origin.{a}) / r.direction.{a}'
    mn=lambda a:f'(fmin ({cr("min",a)}) ({cr("max",a)}))'; mx=lambda a:f'(fmax ({cr("min",a)}) ({cr("max",a)}))'
    AXB=' ∧\n     '.join(f'((¬ IsNaN {mn(a)} → val {mn(a)} ≤ val j.start) ∧ (¬ IsNaN {mx(a)} → val j.stop ≤ val {mx(a)}))' for a in ax)
    steps='';
    for i,a in enumerate(ax,1):
        steps+=f'  obtain ⟨s{i}, ls{i}, ms{i}, -⟩ := fmax_step (n := {mn(a)}) s{i-1}\n  obtain ⟨e{i}, le{i}, me{i}, -⟩ := fmin_step (n := {mx(a)}) e{i-1}\n'
    pos='z'
    for i in range(1,n+1): pos=f'({pos}.trans ls{i})'
    def up(i):
        s=f'ms{i} h'; t=f'me{i} h'
        s=f'(ms{i} h)';t=f'(me{i} h)'
        for k in range(i+1,n+1): s=f'({s}.trans ls{k})'; t=f'(le{k}.trans {t})'
        return f'⟨fun h => {s}, fun h => {t}⟩'
    AXP=', '.join(up(i) for i in range(1,n+1))
    dims=''
    for i,a in enumerate(ax):
        dims+=f'''    | {a.upper()} =>
      obtain ⟨q1, q2, q3⟩ := slab_one_plane fb.1{S[a]} fb.2{S[a]} ho{S[a]} hd{S[a]} h0 h
      exact degenerate n1 n2 p0 hle q1 q2 q3 hb{S[a]}.1 hb{S[a]}.2
'''
    hin=', '.join(f'hin .{a.upper()}' for a in ax)
    FB1=', '.join("⟨fb'.1, ⟨"+', '.join('fm' if c==a else "fb'.2"+S[c] for c in ax)+"⟩⟩" for a in ax)
    FB2=', '.join("⟨⟨"+', '.join('fm' if c==a else "fb'.1"+S[c] for c in ax)+"⟩, fb'.2⟩" for a in ax)
    NE1=', '.join(f"⟨((real_lt' fb'.1{S[a]} ho'{S[a]}).1 q.1).ne', hm⟩" for a in ax)
    NE2=', '.join(f"⟨hm, ((real_lt' ho'{S[a]} fb'.2{S[a]}).1 q.2).ne⟩" for a in ax)
    t=T
    for k,v in dict(AXB=AXB,STEPS=steps.rstrip('\n'),POS=pos,AXP=AXP,DIMS=dims.rstrip('\n'),HIN=hin,FB1=FB1,FB2=FB2,NE1=NE1,NE2=NE2,SPL=' '.join(f'g{i}' for i in range(1,n+1)),gN=f'g{n}',
        UPO=', '.join(['int32 2']*n),UPD=', '.join(['int32 0','int32 1','int32 0'][:n]),TRIV=', '.join(['trivial']*n),DX='3' if n==2 else '2',DY='4' if n==2 else '3').items():
        t=re.sub(r'\b'+k+r'\b',lambda m:v,t) if False else t.replace(k,v)
    out+=t.replace('@',str(n))
out+='\nend VecMath\n'
open('/verif/lean/Verif/Props/FloatFace.lean','w').write(out)

L=[]
w=L.append
w('''import Verif.Props.FloatClamp
import Verif.Props.FloatAimEx
import Verif.Props.FloatExamples7
import Verif.Props.RealVector
/-!
# Nearest points in exact arithmetic, balls and boxes, and concrete cases (C97)
-/

open Classical

namespace VecMath
open Scalar IEEE

/-- The angle at the clamped coordinate is not acute. -/
theorem clamp_obtuse {lo hi o q : ℝ} (h1 : lo ≤ q) (h2 : q ≤ hi) :
    (o - min (max o lo) hi) ^ 2 + (min (max o lo) hi - q) ^ 2 ≤ (o - q) ^ 2 := by
  rcases le_total o lo with h | h
  · rw [max_eq_right h, min_eq_left (h1.trans h2)]; nlinarith
  · rw [max_eq_left h]
    rcases le_total o hi with h' | h'
    · rw [min_eq_left h']; nlinarith
    · rw [min_eq_right h']; nlinarith
theorem real_clamp {lo hi x : Ideal} (hx : IsFinite x) (hl : IsFinite lo) (hh : IsFinite hi) :
    IsFinite (fmin (fmax x lo) hi) ∧ real (fmin (fmax x lo) hi) = min (max (real x) (real lo)) (real hi) := by
  obtain ⟨n, v⟩ := val_clamp hx.not_nan hl.not_nan hh.not_nan
  have f : IsFinite (fmin (fmax x lo) hi) := finite_fmin (finite_fmax hx hl) hh
  refine ⟨f, ?_⟩
  rw [f.val, hx.val, hl.val, hh.val] at v
  have mx : ∀ a b : ℝ, ((max a b : ℝ) : EReal) = max (a : EReal) b := fun a b => (Monotone.map_max EReal.coe_strictMono.monotone)
  have mn : ∀ a b : ℝ, ((min a b : ℝ) : EReal) = min (a : EReal) b := fun a b => (Monotone.map_min EReal.coe_strictMono.monotone)
  rw [← mx, ← mn] at v
  exact EReal.coe_injective v
''')
X='xyz'
for n in (2,3):
    C=X[:n]
    def tup(f): return '⟨'+', '.join(f(k) for k in range(n))+'⟩'
    def pr(h,k): return h+('.2'*k)+('.1' if k<n-1 else '')
    w(f'''
/-- **C97**, {n}D, exact arithmetic: the clamped point has the coordinates of `o` cut off at the faces; the squared distances
satisfy `|o - c|² + |c - q|² ≤ |o - q|²` for every point `q` of the box, so that `c` is the only nearest point. -/
theorem C97_real{n} (b : BoundingBox{n} Ideal) (hb : AllFinite b) (wb : LeAll b.min b.max) (o : Point{n} Ideal) (ho : AllFinite o) :
    AllFinite (b.clamp o) ∧ (∀ i, (b.clamp o).toReal i = min (max (o.toReal i) (b.min.toReal i)) (b.max.toReal i)) ∧
    ∀ q : Point{n} Ideal, AllFinite q → b.isInside q = true →
      real (Api.distance o (b.clamp o)) ^ 2 + real (Api.distance (b.clamp o) q) ^ 2 ≤ real (Api.distance o q) ^ 2 ∧
      ((Api.distance o q ≤? (Api.distance o (b.clamp o) : Ideal)) = true → (q == b.clamp o) = true) := by
  have fb := BoundingBox{n}.allFinite.1 hb
  rw [Point{n}.allFinite, Point{n}.allFinite] at fb
  have fo := Point{n}.allFinite.1 ho''')
    for k in range(n):
        w(f"  have c{k} := real_clamp {pr('fo',k)} {pr('fb.1',k)} {pr('fb.2',k)}")
    w(f'''  have fc : AllFinite (b.clamp o) := Point{n}.allFinite.2 {tup(lambda k: f"c{k}.1")}
  have val : ∀ i, (b.clamp o).toReal i = min (max (o.toReal i) (b.min.toReal i)) (b.max.toReal i) := by
    intro i; fin_cases i
    exacts [{', '.join(f"c{k}.2" for k in range(n))}]
  have z : ∀ p q : Point{n} Ideal, AllFinite p → AllFinite q → real (Api.distance p q) ^ 2 = ∑ i, (p.toReal i - q.toReal i) ^ 2 := by
    intro p q hp hq
    rw [(C15_real{n} p q p (p - p) hp hq hp (Vector{n}.fin_subp hp hp)).1, Real.sq_sqrt]
    exact Finset.sum_nonneg fun i _ => sq_nonneg _
  refine ⟨fc, val, fun q hq hin => ?_⟩
  rw [BoundingBox{n}.inside_real hb hq] at hin
  have main : real (Api.distance o (b.clamp o)) ^ 2 + real (Api.distance (b.clamp o) q) ^ 2 ≤ real (Api.distance o q) ^ 2 := by
    rw [z _ _ ho fc, z _ _ fc hq, z _ _ ho hq, ← Finset.sum_add_distrib]
    refine Finset.sum_le_sum fun i _ => ?_
    rw [val i]
    exact clamp_obtuse (hin i).1 (hin i).2
  refine ⟨main, fun hle => ?_⟩
  rw [Ideal.le_real (Point{n}.fin_distance ho hq) (Point{n}.fin_distance ho fc)] at hle
  have h0 : 0 ≤ real (Api.distance o q) := by rw [Point{n}.real_distance ho hq]; exact dist_nonneg
  have h1 : real (Api.distance (b.clamp o) q) ^ 2 ≤ 0 := by nlinarith
  have h2 : real (Api.distance (b.clamp o) q) = 0 := by nlinarith [sq_nonneg (real (Api.distance (b.clamp o) q))]
  rw [Point{n}.real_distance fc hq, dist_eq_zero] at h2
  rw [Point{n}.beq_toReal hq fc]
  have := congrArg (fun e => (WithLp.ofLp e : Fin {n} → ℝ)) h2
  exact this.symm
/-- **C97**, {n}D: a ball and a box. Some point of the box has a computed distance of at most `r` from `o` exactly if the
clamped point has. -/
theorem C97_ball{n} {{S : Type}} [Scalar S] [IEEE S] (b : BoundingBox{n} S) (wb : LeAll b.min b.max) (o : Point{n} S) (ho : AllFinite o) (r : S) :
    (Api.distance o (b.clamp o) ≤? r) = true ↔ ∃ q, b.isInside q = true ∧ (Api.distance o q ≤? r) = true :=
  ⟨fun h => ⟨_, (C97_inside{n} b wb o).1, h⟩, fun ⟨q, hq, h⟩ => le_trans' (C97_nearest_point{n} b o q ho hq).1 h⟩
''')
    o='⟨'+', '.join(f'int32 {v}' for v in (9,8,7)[:n])+'⟩'
    o2='⟨'+', '.join(f'int32 {v}' for v in (2,9,0)[:n])+'⟩'
    o3='⟨'+', '.join(f'int32 {v}' for v in (0,3,5)[:n])+'⟩'
    q='⟨'+', '.join(f'int32 {v}' for v in (2,3,1)[:n])+'⟩'
    nn='⟨'+', '.join(['nan32','int32 8','int32 7'][:n])+'⟩'
    insd=f'''(isInside{n}_iff.2 {tup(lambda k: "⟨int32_le (by norm_num), int32_le (by norm_num)⟩")})'''
    fin=f"(Point{n}.allFinite.2 (by simp [finite_int32]))"
    nonan=f"(Point{n}.noNaN.2 (by simp [finite_int32.not_nan]))"
    w(f'''example := C97_inside{n} (cube{n} 1 3) (cube{n}_le (by norm_num)) {nn}
example := C97_inside{n} (cube{n} 1 3) (cube{n}_le (by norm_num)) {o}
example := (C97_inside{n} (cube{n} 1 3) (cube{n}_le (by norm_num)) {q}).2 {insd}
example := C97_nearest_point{n} (cube{n} 1 3) {o} {q} {fin} {insd}
example := C97_prune{n} (cube{n} 1 3) {o} {o2} {fin} {q} {insd}
example := C97_ball{n} (cube{n} 1 3) (cube{n}_le (by norm_num)) {o} {fin} (int32 10)
example := C97_contract{n} (cube{n} 1 3) cube{n}_finite {o} {o2} {fin} {fin}
/-- A tree of three points. -/
theorem three_points{n} : ∀ p ∈ (Tree.node (.leaf {o}) (.node (.leaf {o2}) (.leaf {o3})) : Tree (Point{n} F32)).leaves, NoNaN p := by
  intro p hp
  simp only [Tree.leaves, List.cons_append, List.nil_append, List.mem_cons, List.not_mem_nil, or_false] at hp
  rcases hp with rfl | rfl | rfl
  all_goals exact {nonan}
example := C97_search{n} {q} {fin} _ three_points{n} (fun a b => RelativeDistance.isCloserTo {q} (b.clamp {q}) (a.clamp {q})) {q}
example := C97_best{n} {q} {fin} _ three_points{n} (fun a b => RelativeDistance.isCloserTo {q} (b.clamp {q}) (a.clamp {q})) {o} {nonan}
''')
w('end VecMath')
open('/verif/lean/Verif/Props/FloatClampEx.lean','w').write('\n'.join(L))

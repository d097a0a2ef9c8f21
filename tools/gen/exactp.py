def gen(D):
    P=f'Point{D}';V=f'Vector{D}';ax='xyz'[:D]
    pj=lambda j: ('.2'*j)+('.1' if j<D-1 else '')
    J=', '.join
    return f'''
/-- **C68**: the difference of two points, and a point plus or minus a vector, {D}D. -/
theorem C68_point{D} (p q : {P} S) (v : {V} S) (hp : AllFinite p) (hq : AllFinite q) (hv : AllFinite v)
    (gp : ∀ i, OnGrid e M (p.toReal i)) (gq : ∀ i, OnGrid e N (q.toReal i)) (gv : ∀ i, OnGrid e N (v.toReal i))
    (hF : Fits S e (M + N)) :
    (AllFinite (p - q : {V} S) ∧ ∀ i, (p - q : {V} S).toReal i = p.toReal i - q.toReal i) ∧
    (AllFinite (p + v) ∧ ∀ i, (p + v).toReal i = p.toReal i + v.toReal i) ∧
    (AllFinite (p - v : {P} S) ∧ ∀ i, (p - v : {P} S).toReal i = p.toReal i - v.toReal i) := by
  rw [{P}.allFinite] at hp hq
  rw [{V}.allFinite] at hv
  have d := fun i => ({'![' + J(f'hp{pj(j)}' for j in range(D)) + ']' if False else '()'})
  clear d
''' + '\n'.join(f'''  have d{x} := (G.of hp{pj(j)} (gp {j})).sub (G.of hq{pj(j)} (gq {j})) hF
  have a{x} := (G.of hp{pj(j)} (gp {j})).add (G.of hv{pj(j)} (gv {j})) hF
  have s{x} := (G.of hp{pj(j)} (gp {j})).sub (G.of hv{pj(j)} (gv {j})) hF''' for j,x in enumerate(ax)) + f'''
  refine ⟨⟨{V}.allFinite.2 ⟨{J(f'd{x}.ex.1' for x in ax)}⟩, fun i => ?_⟩, ⟨{P}.allFinite.2 ⟨{J(f'a{x}.ex.1' for x in ax)}⟩, fun i => ?_⟩,
    ⟨{P}.allFinite.2 ⟨{J(f's{x}.ex.1' for x in ax)}⟩, fun i => ?_⟩⟩ <;> fin_cases i
  exacts [{J(f'{c}{x}.ex.2' for c in 'das' for x in ax)}]
/-- **C68**: a vector times a number, {D}D. -/
theorem C68_scale{D} (v : {V} S) (s : S) (hv : AllFinite v) (hs : IsFinite s) (gv : ∀ i, OnGrid e M (v.toReal i))
    (gs : OnGrid f N (real s)) (hF : Fits S (e + f) (M * N)) :
    AllFinite (v * s) ∧ ∀ i, (v * s).toReal i = v.toReal i * real s := by
  rw [{V}.allFinite] at hv
''' + '\n'.join(f'''  have m{x} := (G.of hv{pj(j)} (gv {j})).mul (G.of hs gs) hF''' for j,x in enumerate(ax)) + f'''
  refine ⟨{V}.allFinite.2 ⟨{J(f'm{x}.ex.1' for x in ax)}⟩, fun i => ?_⟩
  fin_cases i
  exacts [{J(f'm{x}.ex.2' for x in ax)}]
'''
def gen2(D):
    n=D+1
    T=f'Transform{D}'; R=f'Ray{D}'
    last={2:'![0, 0, 1]',3:'![0, 0, 0, 1]'}[D]
    return f'''
/-- **C68**: transformed rays, {D}D. -/
theorem C68_transform_ray{D} (t : {T} S) (r : {R} S) (ht : AllFinite t.forward) (ho : AllFinite r.origin)
    (hd : AllFinite r.direction) (haff : t.forward.toReal {D} = {last})
    (gt : ∀ i j : Fin {D}, OnGrid e M (t.forward.toReal i.castSucc j.castSucc))
    (gs : ∀ i : Fin {D}, OnGrid (e + f) K (t.forward.toReal i.castSucc {D}))
    (go : ∀ i, OnGrid f N (r.origin.toReal i)) (gd : ∀ i, OnGrid f N (r.direction.toReal i))
    (hF : Fits S (e + f) ({D} * (M * N) + K)) :
    (AllFinite (Transform.transform t r : {R} S).origin ∧ ∀ i : Fin {D}, (Transform.transform t r : {R} S).origin.toReal i =
      ∑ j : Fin {D}, t.forward.toReal i.castSucc j.castSucc * r.origin.toReal j + t.forward.toReal i.castSucc {D}) ∧
    (AllFinite (Transform.transform t r : {R} S).direction ∧ ∀ i : Fin {D}, (Transform.transform t r : {R} S).direction.toReal i =
      ∑ j : Fin {D}, t.forward.toReal i.castSucc j.castSucc * r.direction.toReal j) :=
  ⟨C68_transform_point{D} t r.origin ht ho haff gt gs go hF, C68_transform_vector{D} t r.direction ht hd gt gd (hF.mono (by omega))⟩
'''
s='''import Verif.Props.FloatExact
import Verif.Props.FloatExamples11
/-! # C68 for points, scaled vectors and rays. Generated by tools/gen/exactp.py -/
open Classical

namespace VecMath
open Scalar IEEE
section
variable {S : Type} [Scalar S] [IEEE S] [Binary S] {e f : ℤ} {K M N : ℕ}
'''+gen(2)+gen(3)+gen2(2)+gen2(3)+'''end

/-! ## concrete cases: `(3, 4) · 7` and the like -/
example := C68_point2 (e := 0) (M := 9) (N := 9) (⟨int32 3, int32 (-4)⟩ : Point2 F32) ⟨int32 9, int32 1⟩ ⟨int32 5, int32 0⟩
  (Point2.allFinite.2 ⟨trivial, trivial⟩) (Point2.allFinite.2 ⟨trivial, trivial⟩) (Vector2.allFinite.2 ⟨trivial, trivial⟩)
  (by intro i; fin_cases i; exacts [OnGrid.int (n := 3) (by norm_num), OnGrid.int (n := -4) (by norm_num)])
  (by intro i; fin_cases i; exacts [OnGrid.int (n := 9) (by norm_num), OnGrid.int (n := 1) (by norm_num)])
  (by intro i; fin_cases i; exacts [OnGrid.int (n := 5) (by norm_num), OnGrid.int (n := 0) (by norm_num)]) (fits_f32 (by norm_num))
example := C68_scale2 (e := 0) (f := 0) (M := 4) (N := 7) (⟨int32 3, int32 (-4)⟩ : Vector2 F32) (int32 7)
  (Vector2.allFinite.2 ⟨trivial, trivial⟩) trivial
  (by intro i; fin_cases i; exacts [OnGrid.int (n := 3) (by norm_num), OnGrid.int (n := -4) (by norm_num)])
  (OnGrid.int (n := 7) (by norm_num)) (fits_f32 (by norm_num))
example := C68_point3 (e := 0) (M := 9) (N := 9) (⟨int32 3, int32 (-4), int32 2⟩ : Point3 F32) ⟨int32 9, int32 1, int32 6⟩ ⟨int32 5, int32 0, int32 8⟩
  (Point3.allFinite.2 ⟨trivial, trivial, trivial⟩) (Point3.allFinite.2 ⟨trivial, trivial, trivial⟩) (Vector3.allFinite.2 ⟨trivial, trivial, trivial⟩)
  (by intro i; fin_cases i; exacts [OnGrid.int (n := 3) (by norm_num), OnGrid.int (n := -4) (by norm_num), OnGrid.int (n := 2) (by norm_num)])
  (by intro i; fin_cases i; exacts [OnGrid.int (n := 9) (by norm_num), OnGrid.int (n := 1) (by norm_num), OnGrid.int (n := 6) (by norm_num)])
  (by intro i; fin_cases i; exacts [OnGrid.int (n := 5) (by norm_num), OnGrid.int (n := 0) (by norm_num), OnGrid.int (n := 8) (by norm_num)]) (fits_f32 (by norm_num))
example := C68_scale3 (e := 0) (f := 0) (M := 4) (N := 7) (⟨int32 3, int32 (-4), int32 2⟩ : Vector3 F32) (int32 7)
  (Vector3.allFinite.2 ⟨trivial, trivial, trivial⟩) trivial
  (by intro i; fin_cases i; exacts [OnGrid.int (n := 3) (by norm_num), OnGrid.int (n := -4) (by norm_num), OnGrid.int (n := 2) (by norm_num)])
  (OnGrid.int (n := 7) (by norm_num)) (fits_f32 (by norm_num))
example := C68_transform_ray2 (e := 0) (f := 0) (K := 5) (M := 5) (N := 6) shearT.inv worldRay finite_shearInv
  (Point2.allFinite.2 ⟨trivial, trivial⟩) (Vector2.allFinite.2 ⟨trivial, trivial⟩)
  (by rw [show shearT.inv.forward = shearInv from rfl, shearInv_real]; rfl)
  (fun i j => grid_shearInv _ _) (fun i => grid_shearInv _ _)
  (by intro i; fin_cases i; exacts [OnGrid.int (n := 1) (by norm_num), OnGrid.int (n := 6) (by norm_num)])
  (by intro i; fin_cases i; exacts [OnGrid.int (n := 3) (by norm_num), OnGrid.int (n := 1) (by norm_num)]) (fits_f32 (by norm_num))
end VecMath
'''
s='\n'.join(l for l in s.split('\n') if not l.startswith('  have d := fun i => (()') and l!='  clear d')
open('/verif/lean/Verif/Props/FloatExactPoint.lean','w').write(s)

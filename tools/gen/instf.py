out='''import Verif.Props.FloatHit
import Verif.Props.FloatRayImage
import Verif.Props.FloatExamples3
import Verif.Spec.Instance
/-!
# Instancing, in floating point: C93

Generated by tools/gen/instf.py.
-/
open Classical

namespace VecMath
open Scalar IEEE

section
variable {S : Type} [Scalar S] [IEEE S] [Binary S]

theorem NearSlab.shift {lo hi o d : S} {x y e f : ℝ} (h : NearSlab lo hi o d x e) (hy : |x - y| ≤ f) : NearSlab lo hi o d y (e + f) := by
  obtain ⟨h1, h2⟩ := abs_le.1 hy
  exact ⟨by linarith [h.1], by linarith [h.2]⟩
theorem near_shift {c x y e f g : ℝ} (h : |x - c| ≤ e + f) (hy : |x - y| ≤ g) : |y - c| ≤ e + (f + g) := by
  rw [abs_le] at *
  constructor <;> linarith [h.1, h.2, hy.1, hy.2]
theorem NearEntry.shift {lo hi o d : S} {x y e f : ℝ} (h : NearEntry lo hi o d x e) (hy : |x - y| ≤ f) : NearEntry lo hi o d y (e + f) :=
  h.imp (fun h => ⟨h.1, near_shift h.2 hy⟩) (fun h => ⟨h.1, near_shift h.2 hy⟩)
theorem NearExit.shift {lo hi o d : S} {x y e f : ℝ} (h : NearExit lo hi o d x e) (hy : |x - y| ≤ f) : NearExit lo hi o d y (e + f) :=
  h.imp (fun h => ⟨h.1, near_shift h.2 hy⟩) (fun h => ⟨h.1, near_shift h.2 hy⟩)

'''
spec='''import Verif.Spec.Hit
import Verif.Spec.RayImage
/-!
# Vocabulary for instancing

A box placed in the world with a transform `t` is intersected with the ray transformed by the inverse of `t`. All of this
is about one coordinate `i` (a row of the stored inverse matrix).
-/

namespace VecMath
open Scalar IEEE

section
variable {S : Type} [Scalar S] [IEEE S] [Binary S]

'''
for D,M in ((2,'Matrix3x3'),(3,'Matrix4x4')):
    T=f'Transform{D}'; P=f'Point{D}'; R=f'Ray{D}'; BB=f'BoundingBox{D}'
    C='xyz'[:D]
    spec+=f'''/-- Coordinate `i` of the exact point of the ray with parameter `s`, taken back exactly by the stored inverse matrix. -/
noncomputable def {T}.backAt (t : {T} S) (ray : {R} S) (s : S) (i : Fin {D}) : ℝ :=
  imageAt (fun j => t.inverse.toReal i.castSucc j.castSucc) (t.inverse.toReal i.castSucc {D}) ray.origin.toReal ray.direction.toReal (real s)
/-- The rounding error of transforming the ray (origin and direction) and computing the point: C85. -/
noncomputable def {T}.backErr (t : {T} S) (ray : {R} S) (s : S) (i : Fin {D}) : ℝ :=
  ((1 + uro S) ^ {D+2} - 1) * imageSize (fun j => t.inverse.toReal i.castSucc j.castSucc) (t.inverse.toReal i.castSucc {D})
    ray.origin.toReal ray.direction.toReal (real s) + flushRay S {D} (real s)
'''
    def near(K,s): return [f'{K} b.min.{c} b.max.{c} l.origin.{c} l.direction.{c} (t.backAt ray {s} {k}) (atErr l.origin.{c} l.direction.{c} {s} + t.backErr ray {s} {k})' for k,c in enumerate(C)]
    hyp=f'''(t : {T} S) (ht : AllFinite t.inverse) (haff : t.inverse.toReal {D} = ![{', '.join(['0']*D)}, 1]) (b : {BB} S) (hb : LeAll b.min b.max) (ray l : {R} S)
    (ho : AllFinite ray.origin) (hl : l = Transform.transform t.inv ray) (hd : AllFinite l.direction) (hf : RayFinite{D} b l)
    (r : Range S) (h : Api.intersect b l = some r)'''
    w=', '.join
    z=lambda i: ['',][0] if 0 else None
    def proj(k): return 'hat'+('.2'*k+('.1' if k<D-1 else ''))
    sh=[f'(C85_ray{D} t.inv ray s ht haff ho hd hs {k})' for k in range(D)]
    out+=f'''/-! ### {D}D -/

/-- **C93** ({D}D): at every parameter in the reported range, the exact point of the ray, taken back exactly by the stored
inverse, is in the box up to explicit rounding errors. -/
theorem C93_inside{D} {hyp} (s : S) (hs : AllFinite (l.at s)) (h1 : (r.start ≤? s) = true) (h2 : (s ≤? r.stop) = true) :
    {(' ∧'+chr(10)+'    ').join(near('NearSlab','s'))} := by
  have k := C83_computed_inside{D} b l hf hb r h s hs h1 h2
  subst hl
  exact ⟨{w(f"k{'.2'*k+('.1' if k<D-1 else '')}.shift {sh[k]}" for k in range(D))}⟩

/-- **C93** ({D}D): where the range starts the exact point, taken back exactly, is at a face of the box through which the
ray enters it (unless the range starts at the origin of the ray). -/
theorem C93_entry{D} {hyp} (hs : AllFinite (l.at r.start)) :
    real r.start = 0 ∨ {(' ∨'+chr(10)+'    ').join(near('NearEntry','r.start'))} := by
  have k := C83_computed_entry{D} b l hf hb r h hs
  subst hl
  exact k.imp_right {'(Or.imp' if D==3 else '(Or.imp'} (fun k => k.shift {sh[0].replace(' s ',' _ ')}) {'(fun k => k.shift '+sh[1].replace(' s ',' _ ')+'))' if D==2 else '(Or.imp (fun k => k.shift '+sh[1].replace(' s ',' _ ')+') (fun k => k.shift '+sh[2].replace(' s ',' _ ')+')))'}

/-- **C93** ({D}D): where the range ends the exact point, taken back exactly, is at a face through which the ray leaves the
box. -/
theorem C93_exit{D} {hyp} (hs : AllFinite (l.at r.stop)) :
    {(' ∨'+chr(10)+'    ').join(near('NearExit','r.stop'))} := by
  have k := C83_computed_exit{D} b l hf hb r h hs
  subst hl
  exact k.imp (fun k => k.shift {sh[0].replace(' s ',' _ ')}) {'(fun k => k.shift '+sh[1].replace(' s ',' _ ')+')' if D==2 else '(Or.imp (fun k => k.shift '+sh[1].replace(' s ',' _ ')+') (fun k => k.shift '+sh[2].replace(' s ',' _ ')+'))'}

'''
out+='''end
end VecMath
'''
spec+='''end
end VecMath
'''
open('/verif/lean/Verif/Spec/Instance.lean','w').write(spec)
open('/verif/lean/Verif/Props/FloatInstance.lean','w').write(out)

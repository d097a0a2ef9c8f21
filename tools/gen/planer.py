D={2:('Vector2','Point2','BoundingBox2','Dimension2'),3:('Vector3','Point3','BoundingBox3','Dimension3')}
out='''import Verif.Spec.Plane
import Verif.Lemmas.Real
import Verif.Props.FloatPlane
/-!
# Culling boxes by planes in exact real arithmetic (layer R): C110

(Generated by tools/gen.)
-/

namespace VecMath
open Scalar IEEE

/-- One dimension: the far end is the middle plus half the length, along the normal. -/
theorem far_center {n lo hi o : Ideal} (hn : IsFinite n) (hl : IsFinite lo) (hh : IsFinite hi) (ho : IsFinite o) :
    IsFinite (n * ((if (zero ≤? n) = true then hi else lo) - o)) ∧ IsFinite (n * (lo + (hi - lo) * half - o)) ∧ IsFinite (Scalar.abs n * (hi - lo)) ∧
    real (n * ((if (zero ≤? n) = true then hi else lo) - o)) = real (n * (lo + (hi - lo) * half - o)) + real (Scalar.abs n * (hi - lo)) * (1 / 2) := by
  have f1 := Ideal.finite_sub hh hl
  have f2 := Ideal.finite_add hl (Ideal.finite_mul f1 finite_half)
  have f3 := Ideal.finite_sub f2 ho
  have f4 : IsFinite (if (zero ≤? n) = true then hi else lo) := by split <;> assumption
  refine ⟨Ideal.finite_mul hn (Ideal.finite_sub f4 ho), Ideal.finite_mul hn f3, Ideal.finite_mul (finite_abs.2 hn) f1, ?_⟩
  rw [Ideal.real_mul hn (Ideal.finite_sub f4 ho), Ideal.real_mul hn f3, Ideal.real_mul (finite_abs.2 hn) f1, real_abs, Ideal.real_sub f4 ho, Ideal.real_sub f2 ho,
    Ideal.real_add hl (Ideal.finite_mul f1 finite_half), Ideal.real_mul f1 finite_half, Ideal.real_sub hh hl, real_half]
  by_cases h : (zero ≤? n) = true
  · rw [if_pos h]
    rw [Ideal.le_real finite_zero hn, real_zero] at h
    rw [abs_of_nonneg h]; ring
  · rw [if_neg h]
    rw [Ideal.le_real finite_zero hn, real_zero, not_le] at h
    rw [abs_of_neg h]; ring

'''
for n in (2,3):
    V,P,B,Dm=D[n]; c='xyz'[:n]; w=f'{n}D'
    al=lambda h,i: h+('.1' if i==0 else ('.2' if n==2 else ('.2.1' if i==1 else '.2.2')))
    terms='\n'.join(f"  obtain ⟨p{k}, q{k}, r{k}, e{k}⟩ := far_center {al('hn',i)} {al('hb.1',i)} {al('hb.2',i)} {al('ho',i)}" for i,k in enumerate(c))
    comps=', '.join(f'if (zero ≤? n.{k}) = true then b.max.{k} else b.min.{k}' for k in c)
    rc=' <;> '.join(f'rcases h{k} : (zero ≤? n.{k}) with _ | _' for k in c)
    def sm(p): 
        return f'Ideal.finite_add {p}x {p}y' if n==2 else f'Ideal.finite_add (Ideal.finite_add {p}x {p}y) {p}z'
    def rs(p):
        return f'Ideal.real_add {p}x {p}y' if n==2 else f'Ideal.real_add (Ideal.finite_add {p}x {p}y) {p}z, Ideal.real_add {p}x {p}y'
    out+=f'''theorem {B}.corner_far (n : {V} Ideal) (b : {B} Ideal) (build : Build) :
    b.corner build n.farIndex = .ok ⟨{comps}⟩ := by
  unfold {V}.farIndex
  {rc} <;>
    (rw [{B}.corner_small b build (by decide)]; simp (config := {{ decide := true }}) [{Dm}.pos, *])
/-- **C110** ({w}): in exact arithmetic testing the farthest corner and testing the center and the extents are the same test. -/
theorem C110_center{n} (n : {V} Ideal) (o : {P} Ideal) (b : {B} Ideal) (build : Build) (hn : AllFinite n) (ho : AllFinite o) (hb : AllFinite b.min ∧ AllFinite b.max) :
    b.behind build n o = b.behindCenter n o := by
  rw [{P}.allFinite, {P}.allFinite] at hb
  rw [{V}.allFinite] at hn
  rw [{P}.allFinite] at ho
{terms}
  unfold {B}.behind
  rw [{B}.corner_far]
  show ((_ : Ideal) <? zero) = (_ <? zero)
  rw [Bool.eq_iff_iff]
  refine (Ideal.lt_real ({sm('p')}) finite_zero).trans (Iff.trans ?_ (Ideal.lt_real (Ideal.finite_add ({sm('q')}) (Ideal.finite_mul ({sm('r')}) finite_half)) finite_zero).symm)
  rw [Ideal.real_add ({sm('q')}) (Ideal.finite_mul ({sm('r')}) finite_half), Ideal.real_mul ({sm('r')}) finite_half,
    {rs('p')}, {rs('q')}, {rs('r')}, real_half]
  have E : ∀ s t : ℝ, s = t → (s < real (zero : Ideal) ↔ t < real (zero : Ideal)) := fun s t h => by rw [h]
  refine E _ _ ?_
  have := {'congrArg₂ (· + ·) ex ey' if n==2 else 'congrArg₂ (· + ·) (congrArg₂ (· + ·) ex ey) ez'}
  refine this.trans ?_
  ring
'''
out+='''
end VecMath
'''
open('/verif/lean/Verif/Props/RealPlane.lean','w').write(out)

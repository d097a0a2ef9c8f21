out='''import Verif.Props.RealBox

/-!
# C56 for the three axis rotations of space, as equivalences

`Transform3::rotate_x/rotate_y/rotate_z` bound the images of a box's points correctly exactly at the multiples of a
quarter turn; `C56_real_rotate_z` (Props/RealBox) gives the failing direction for one axis only.
-/
set_option linter.unusedVariables false
namespace VecMath
open Scalar IEEE
noncomputable section

'''
for ax in "XYZ":
    l=ax.lower()
    out+=f'''/-- **C56**: `rotate_{l}(a)` maps every point of a finite well-formed box into the box it maps that box to if and only if
`a` is a multiple of a quarter turn (`sin a` or `cos a` is 0). -/
theorem C56_real_rotate3{l} (a : Ideal) (ha : IsFinite a) :
    (∀ (b : BoundingBox3 Ideal) (p : Point3 Ideal), AllFinite b → LeAll b.min b.max → AllFinite p → b.isInside p = true →
      (Transform.transform (Transform3.rotate{ax} a) b : BoundingBox3 Ideal).isInside
        (Transform.transform (Transform3.rotate{ax} a) p : Point3 Ideal) = true) ↔
    Real.sin (real a) = 0 ∨ Real.cos (real a) = 0 := by
  rw [C56_real_iff3 (Transform3.rotate{ax} a) (isRot_rotate{ax} ha).fin (isRot_rotate{ax} ha).affine]
  show (∀ i, (∀ j, 0 ≤ (Matrix4x4.rotate{ax} a).linear i j) ∨ (∀ j, (Matrix4x4.rotate{ax} a).linear i j ≤ 0)) ↔ _
  rw [(isRot_rotate{ax} ha).linear]
  simp only [rod, crossM, Fin.forall_fin_succ]
  simp [Matrix.vecMulVec_apply, Matrix.one_apply]
  generalize Real.sin (real a) = s
  generalize Real.cos (real a) = c
  constructor
  · rintro ⟨h1, h2⟩
    by_contra hne
    push Not at hne
    obtain ⟨hs, hc⟩ := hne
    rcases lt_or_gt_of_ne hs with s' | s' <;> rcases lt_or_gt_of_ne hc with c' | c' <;>
      rcases h1 with h1 | h1 <;> rcases h2 with h2 | h2 <;> obtain ⟨p, q⟩ := h1 <;> obtain ⟨r, t⟩ := h2 <;> linarith
  · rintro (h | h)
    · subst h; rcases le_total 0 c with h | h <;> simp [h]
    · subst h; rcases le_total 0 s with h | h <;> simp [h]

'''
out+='''/-- both sides of the equivalences occur: at half a turn they bound correctly, at an eighth of a turn they do not -/
example : (Real.sin (real (.of Real.pi : Ideal)) = 0 ∨ Real.cos (real (.of Real.pi : Ideal)) = 0) ∧
    ¬ (Real.sin (real (.of (Real.pi / 4) : Ideal)) = 0 ∨ Real.cos (real (.of (Real.pi / 4) : Ideal)) = 0) := by
  constructor
  · left; simp
  · simp

end
end VecMath
'''
open('/verif/lean/Verif/Props/RealBoxRot.lean','w').write(out)

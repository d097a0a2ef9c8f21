import Verif.Props.FloatHit
import Verif.Props.FloatRayImage
import Verif.Props.FloatExamples3
import Verif.Spec.Instance
/-!
# Instancing, in floating point: C93

Generated by tools/gen/instf.py.
-/
open Classical

namespace VecMath
open Scalar IEEE

section
variable {S : Type} [Scalar S] [IEEE S] [Binary S]

theorem NearSlab.shift {lo hi o d : S} {x y e f : ℝ} (h : NearSlab lo hi o d x e) (hy : |x - y| ≤ f) : NearSlab lo hi o d y (e + f) := by
  obtain ⟨h1, h2⟩ := abs_le.1 hy
  exact ⟨by linarith [h.1], by linarith [h.2]⟩
theorem near_shift {c x y e f g : ℝ} (h : |x - c| ≤ e + f) (hy : |x - y| ≤ g) : |y - c| ≤ e + (f + g) := by
  rw [abs_le] at *
  constructor <;> linarith [h.1, h.2, hy.1, hy.2]
theorem NearEntry.shift {lo hi o d : S} {x y e f : ℝ} (h : NearEntry lo hi o d x e) (hy : |x - y| ≤ f) : NearEntry lo hi o d y (e + f) :=
  h.imp (fun h => ⟨h.1, near_shift h.2 hy⟩) (fun h => ⟨h.1, near_shift h.2 hy⟩)
theorem NearExit.shift {lo hi o d : S} {x y e f : ℝ} (h : NearExit lo hi o d x e) (hy : |x - y| ≤ f) : NearExit lo hi o d y (e + f) :=
  h.imp (fun h => ⟨h.1, near_shift h.2 hy⟩) (fun h => ⟨h.1, near_shift h.2 hy⟩)

/-! ### 2D -/

/-- **C93** (2D): at every parameter in the reported range, the exact point of the ray, taken back exactly by the stored
inverse, is in the box up to explicit rounding errors. -/
theorem C93_inside2 (t : Transform2 S) (ht : AllFinite t.inverse) (haff : t.inverse.toReal 2 = ![0, 0, 1]) (b : BoundingBox2 S) (hb : LeAll b.min b.max) (ray l : Ray2 S)
    (ho : AllFinite ray.origin) (hl : l = Transform.transform t.inv ray) (hd : AllFinite l.direction) (hf : RayFinite2 b l)
    (r : Range S) (h : Api.intersect b l = some r) (s : S) (hs : AllFinite (l.at s)) (h1 : (r.start ≤? s) = true) (h2 : (s ≤? r.stop) = true) :
    NearSlab b.min.x b.max.x l.origin.x l.direction.x (t.backAt ray s 0) (atErr l.origin.x l.direction.x s + t.backErr ray s 0) ∧
    NearSlab b.min.y b.max.y l.origin.y l.direction.y (t.backAt ray s 1) (atErr l.origin.y l.direction.y s + t.backErr ray s 1) := by
  have k := C83_computed_inside2 b l hf hb r h s hs h1 h2
  subst hl
  exact ⟨k.1.shift (C85_ray2 t.inv ray s ht haff ho hd hs 0), k.2.shift (C85_ray2 t.inv ray s ht haff ho hd hs 1)⟩

/-- **C93** (2D): where the range starts the exact point, taken back exactly, is at a face of the box through which the
ray enters it (unless the range starts at the origin of the ray). -/
theorem C93_entry2 (t : Transform2 S) (ht : AllFinite t.inverse) (haff : t.inverse.toReal 2 = ![0, 0, 1]) (b : BoundingBox2 S) (hb : LeAll b.min b.max) (ray l : Ray2 S)
    (ho : AllFinite ray.origin) (hl : l = Transform.transform t.inv ray) (hd : AllFinite l.direction) (hf : RayFinite2 b l)
    (r : Range S) (h : Api.intersect b l = some r) (hs : AllFinite (l.at r.start)) :
    real r.start = 0 ∨ NearEntry b.min.x b.max.x l.origin.x l.direction.x (t.backAt ray r.start 0) (atErr l.origin.x l.direction.x r.start + t.backErr ray r.start 0) ∨
    NearEntry b.min.y b.max.y l.origin.y l.direction.y (t.backAt ray r.start 1) (atErr l.origin.y l.direction.y r.start + t.backErr ray r.start 1) := by
  have k := C83_computed_entry2 b l hf hb r h hs
  subst hl
  exact k.imp_right (Or.imp (fun k => k.shift (C85_ray2 t.inv ray _ ht haff ho hd hs 0)) (fun k => k.shift (C85_ray2 t.inv ray _ ht haff ho hd hs 1)))

/-- **C93** (2D): where the range ends the exact point, taken back exactly, is at a face through which the ray leaves the
box. -/
theorem C93_exit2 (t : Transform2 S) (ht : AllFinite t.inverse) (haff : t.inverse.toReal 2 = ![0, 0, 1]) (b : BoundingBox2 S) (hb : LeAll b.min b.max) (ray l : Ray2 S)
    (ho : AllFinite ray.origin) (hl : l = Transform.transform t.inv ray) (hd : AllFinite l.direction) (hf : RayFinite2 b l)
    (r : Range S) (h : Api.intersect b l = some r) (hs : AllFinite (l.at r.stop)) :
    NearExit b.min.x b.max.x l.origin.x l.direction.x (t.backAt ray r.stop 0) (atErr l.origin.x l.direction.x r.stop + t.backErr ray r.stop 0) ∨
    NearExit b.min.y b.max.y l.origin.y l.direction.y (t.backAt ray r.stop 1) (atErr l.origin.y l.direction.y r.stop + t.backErr ray r.stop 1) := by
  have k := C83_computed_exit2 b l hf hb r h hs
  subst hl
  exact k.imp (fun k => k.shift (C85_ray2 t.inv ray _ ht haff ho hd hs 0)) (fun k => k.shift (C85_ray2 t.inv ray _ ht haff ho hd hs 1))

/-! ### 3D -/

/-- **C93** (3D): at every parameter in the reported range, the exact point of the ray, taken back exactly by the stored
inverse, is in the box up to explicit rounding errors. -/
theorem C93_inside3 (t : Transform3 S) (ht : AllFinite t.inverse) (haff : t.inverse.toReal 3 = ![0, 0, 0, 1]) (b : BoundingBox3 S) (hb : LeAll b.min b.max) (ray l : Ray3 S)
    (ho : AllFinite ray.origin) (hl : l = Transform.transform t.inv ray) (hd : AllFinite l.direction) (hf : RayFinite3 b l)
    (r : Range S) (h : Api.intersect b l = some r) (s : S) (hs : AllFinite (l.at s)) (h1 : (r.start ≤? s) = true) (h2 : (s ≤? r.stop) = true) :
    NearSlab b.min.x b.max.x l.origin.x l.direction.x (t.backAt ray s 0) (atErr l.origin.x l.direction.x s + t.backErr ray s 0) ∧
    NearSlab b.min.y b.max.y l.origin.y l.direction.y (t.backAt ray s 1) (atErr l.origin.y l.direction.y s + t.backErr ray s 1) ∧
    NearSlab b.min.z b.max.z l.origin.z l.direction.z (t.backAt ray s 2) (atErr l.origin.z l.direction.z s + t.backErr ray s 2) := by
  have k := C83_computed_inside3 b l hf hb r h s hs h1 h2
  subst hl
  exact ⟨k.1.shift (C85_ray3 t.inv ray s ht haff ho hd hs 0), k.2.1.shift (C85_ray3 t.inv ray s ht haff ho hd hs 1), k.2.2.shift (C85_ray3 t.inv ray s ht haff ho hd hs 2)⟩

/-- **C93** (3D): where the range starts the exact point, taken back exactly, is at a face of the box through which the
ray enters it (unless the range starts at the origin of the ray). -/
theorem C93_entry3 (t : Transform3 S) (ht : AllFinite t.inverse) (haff : t.inverse.toReal 3 = ![0, 0, 0, 1]) (b : BoundingBox3 S) (hb : LeAll b.min b.max) (ray l : Ray3 S)
    (ho : AllFinite ray.origin) (hl : l = Transform.transform t.inv ray) (hd : AllFinite l.direction) (hf : RayFinite3 b l)
    (r : Range S) (h : Api.intersect b l = some r) (hs : AllFinite (l.at r.start)) :
    real r.start = 0 ∨ NearEntry b.min.x b.max.x l.origin.x l.direction.x (t.backAt ray r.start 0) (atErr l.origin.x l.direction.x r.start + t.backErr ray r.start 0) ∨
    NearEntry b.min.y b.max.y l.origin.y l.direction.y (t.backAt ray r.start 1) (atErr l.origin.y l.direction.y r.start + t.backErr ray r.start 1) ∨
    NearEntry b.min.z b.max.z l.origin.z l.direction.z (t.backAt ray r.start 2) (atErr l.origin.z l.direction.z r.start + t.backErr ray r.start 2) := by
  have k := C83_computed_entry3 b l hf hb r h hs
  subst hl
  exact k.imp_right (Or.imp (fun k => k.shift (C85_ray3 t.inv ray _ ht haff ho hd hs 0)) (Or.imp (fun k => k.shift (C85_ray3 t.inv ray _ ht haff ho hd hs 1)) (fun k => k.shift (C85_ray3 t.inv ray _ ht haff ho hd hs 2))))

/-- **C93** (3D): where the range ends the exact point, taken back exactly, is at a face through which the ray leaves the
box. -/
theorem C93_exit3 (t : Transform3 S) (ht : AllFinite t.inverse) (haff : t.inverse.toReal 3 = ![0, 0, 0, 1]) (b : BoundingBox3 S) (hb : LeAll b.min b.max) (ray l : Ray3 S)
    (ho : AllFinite ray.origin) (hl : l = Transform.transform t.inv ray) (hd : AllFinite l.direction) (hf : RayFinite3 b l)
    (r : Range S) (h : Api.intersect b l = some r) (hs : AllFinite (l.at r.stop)) :
    NearExit b.min.x b.max.x l.origin.x l.direction.x (t.backAt ray r.stop 0) (atErr l.origin.x l.direction.x r.stop + t.backErr ray r.stop 0) ∨
    NearExit b.min.y b.max.y l.origin.y l.direction.y (t.backAt ray r.stop 1) (atErr l.origin.y l.direction.y r.stop + t.backErr ray r.stop 1) ∨
    NearExit b.min.z b.max.z l.origin.z l.direction.z (t.backAt ray r.stop 2) (atErr l.origin.z l.direction.z r.stop + t.backErr ray r.stop 2) := by
  have k := C83_computed_exit3 b l hf hb r h hs
  subst hl
  exact k.imp (fun k => k.shift (C85_ray3 t.inv ray _ ht haff ho hd hs 0)) (Or.imp (fun k => k.shift (C85_ray3 t.inv ray _ ht haff ho hd hs 1)) (fun k => k.shift (C85_ray3 t.inv ray _ ht haff ho hd hs 2)))

end
end VecMath

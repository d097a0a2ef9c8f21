import Verif.Spec.Ball
import Verif.Props.FloatMono
import Verif.Props.FloatCorners
import Verif.Lemmas.FloatSlab
import Verif.Lemmas.Num
import Verif.Lemmas.Mono
import Verif.Props.FloatBall
/-! # C121: bounding balls in floating point

(Generated by tools/gen.) -/

open Classical

namespace VecMath
open Scalar IEEE
variable {S : Type} [Scalar S] [IEEE S]

/-- One coordinate: no value of an interval is farther from `c` than the farther end. -/
theorem far1 {lo hi p c : S} (hl : IsFinite lo) (hh : IsFinite hi) (hc : IsFinite c) (h1 : (lo ≤? p) = true) (h2 : (p ≤? hi) = true) :
    Dom ((p - c) * (p - c)) ((lo - c) * (lo - c)) ∨ Dom ((p - c) * (p - c)) ((hi - c) * (hi - c)) := by
  have np : ¬ IsNaN p := (le_iff.1 h1).2.1
  have rf : ∀ {x : S}, ¬ IsNaN x → (x ≤? x) = true := fun h => le_iff.2 ⟨h, h, le_rfl⟩
  rcases le_total (val p) (val c) with h | h
  · left
    have d := (Dom.extent hl hc h1 (le_iff.2 ⟨np, hc.not_nan, h⟩) (rf hc.not_nan)).self_mul
    have e1 := same_sub_sq p c
    have e2 := same_sub_sq lo c
    exact ⟨mt e1.isNaN.1 d.nl, mt e2.isNaN.1 d.nr, by rw [e1.val]; exact d.pos, by rw [e1.val, e2.val]; exact d.le⟩
  · right
    exact (Dom.extent hc hh (rf hc.not_nan) (le_iff.2 ⟨hc.not_nan, np, h⟩) h2).self_mul

/-- Folding a selection by a number: the result is one of the candidates, and none has a larger number. -/
theorem fold_far {P : Type} (f : P → S) (sel : P → P → P) (hsel : ∀ p q, sel p q = if (f p >? f q) then p else q) (ps : List P) (x : P)
    (hx : ¬ IsNaN (f x)) (h : ∀ p ∈ ps, ¬ IsNaN (f p)) :
    (ps.foldl sel x = x ∨ ps.foldl sel x ∈ ps) ∧ val (f x) ≤ val (f (ps.foldl sel x)) ∧ ∀ p ∈ ps, val (f p) ≤ val (f (ps.foldl sel x)) := by
  induction ps generalizing x with
  | nil => simp
  | cons p ps ih =>
    have hp := h p (by simp)
    have key : (sel x p = x ∨ sel x p = p) ∧ val (f x) ≤ val (f (sel x p)) ∧ val (f p) ≤ val (f (sel x p)) := by
      rw [hsel]
      by_cases c : (f p <? f x) = true
      · rw [if_pos c]; exact ⟨.inl rfl, le_rfl, (lt_iff.1 c).2.2.le⟩
      · rw [if_neg c]
        refine ⟨.inr rfl, ?_, le_rfl⟩
        by_contra c'
        exact c (lt_iff.2 ⟨hp, hx, not_le.1 c'⟩)
    have hn : ¬ IsNaN (f (sel x p)) := by rcases key.1 with e | e <;> rw [e] <;> assumption
    obtain ⟨a, b, d⟩ := ih (sel x p) hn (fun q hq => h q (by simp [hq]))
    rw [List.foldl_cons]
    refine ⟨?_, key.2.1.trans b, ?_⟩
    · rcases a with a | a
      · rw [a]; rcases key.1 with e | e <;> rw [e] <;> simp
      · exact .inr (by simp [a])
    · intro q hq
      rcases List.mem_cons.1 hq with rfl | hq
      · exact key.2.2.trans b
      · exact d q hq
/-- The largest of some numbers and a start. -/
theorem foldl_fmax {P : Type} (f : P → S) (ps : List P) (x : S) (hx : ¬ IsNaN x) :
    ¬ IsNaN (ps.foldl (fun r p => fmax r (f p)) x) ∧ val x ≤ val (ps.foldl (fun r p => fmax r (f p)) x) ∧
    (∀ p ∈ ps, ¬ IsNaN (f p) → val (f p) ≤ val (ps.foldl (fun r p => fmax r (f p)) x)) ∧
    ∀ y : EReal, val x ≤ y → (∀ p ∈ ps, ¬ IsNaN (f p) → val (f p) ≤ y) → val (ps.foldl (fun r p => fmax r (f p)) x) ≤ y := by
  induction ps generalizing x with
  | nil => simp [hx]
  | cons p ps ih =>
    obtain ⟨e1, e2, e3, e4⟩ := fmax_step (n := f p) hx
    obtain ⟨a, b, c, d⟩ := ih (fmax x (f p)) e1
    rw [List.foldl_cons]
    refine ⟨a, e2.trans b, ?_, fun y hy hq => d y (e4 y hy (hq p (by simp))) (fun q hq' => hq q (by simp [hq']))⟩
    intro q hq hn
    rcases List.mem_cons.1 hq with rfl | hq
    · exact (e3 hn).trans b
    · exact c q hq hn

/-! ## Dimension 2 -/
theorem Point2.dom_gap {p c : Point2 S} (hp : AllFinite p) (hc : AllFinite c) : Dom (Api.dot (p - c : Vector2 S) (p - c : Vector2 S)) (Api.dot (p - c : Vector2 S) (p - c : Vector2 S)) := by
  rw [Point2.allFinite] at hp hc
  have k : ∀ {a b : S}, IsFinite a → IsFinite b → Dom ((a - b) * (a - b)) ((a - b) * (a - b)) := fun ha hb =>
    Dom.refl (mt isNaN_mul_self.1 (isNaN_sub_finite hb ha.not_nan)) (val_mul_self_nonneg _)
  exact (Dom.add (k hp.1 hc.1) (k hp.2 hc.2))
/-- No point of a box is farther from `c` than all corners. -/
theorem BoundingBox2.far_of_inside (b : BoundingBox2 S) (hb : AllFinite b) (c : Point2 S) (hc : AllFinite c) (p : Point2 S) (hp : b.isInside p = true) :
    Dom (Api.dot (p - c : Vector2 S) (p - c : Vector2 S)) (Api.dot ((⟨b.min.x, b.min.y⟩ : Point2 S) - c : Vector2 S) ((⟨b.min.x, b.min.y⟩ : Point2 S) - c : Vector2 S)) ∨ Dom (Api.dot (p - c : Vector2 S) (p - c : Vector2 S)) (Api.dot ((⟨b.max.x, b.min.y⟩ : Point2 S) - c : Vector2 S) ((⟨b.max.x, b.min.y⟩ : Point2 S) - c : Vector2 S)) ∨ Dom (Api.dot (p - c : Vector2 S) (p - c : Vector2 S)) (Api.dot ((⟨b.min.x, b.max.y⟩ : Point2 S) - c : Vector2 S) ((⟨b.min.x, b.max.y⟩ : Point2 S) - c : Vector2 S)) ∨ Dom (Api.dot (p - c : Vector2 S) (p - c : Vector2 S)) (Api.dot ((⟨b.max.x, b.max.y⟩ : Point2 S) - c : Vector2 S) ((⟨b.max.x, b.max.y⟩ : Point2 S) - c : Vector2 S)) := by
  rw [BoundingBox2.allFinite, Point2.allFinite, Point2.allFinite] at hb
  rw [Point2.allFinite] at hc
  rw [isInside2_iff] at hp
  have h0 := far1 hb.1.1 hb.2.1 hc.1 hp.1.1 hp.1.2
  have h1 := far1 hb.1.2 hb.2.2 hc.2 hp.2.1 hp.2.2
  rcases h0 with a0 | a0 <;> rcases h1 with a1 | a1
  · exact .inl (Dom.add a0 a1)
  · exact .inr (.inr (.inl (Dom.add a0 a1)))
  · exact .inr (.inl (Dom.add a0 a1))
  · exact .inr (.inr (.inr ((Dom.add a0 a1))))
/-- **C121**: the corner of a box that is farthest from a point, as found with the library's own comparison, is at least as far as every point of
the box: the disc with that radius has the whole box, and no smaller disc with this center does. -/
theorem C121_corner2 (build : Build) (b : BoundingBox2 S) (hb : AllFinite b) (wb : LeAll b.min b.max) (c : Point2 S) (hc : AllFinite c) :
    ∃ q, b.farCorner build c = .ok q ∧ (∃ k : UInt32, k < 4 ∧ b.corner build k = .ok q) ∧
      (∀ p, b.isInside p = true → (⟨c, Api.distance c q⟩ : Ball2 S).has p = true) ∧
      ∀ r : S, (∀ p, b.isInside p = true → (⟨c, r⟩ : Ball2 S).has p = true) → (Api.distance c q ≤? r) = true := by
  obtain ⟨h0, h1, h2, h3⟩ := corner_ok2 build b
  have hf : ∀ q ∈ ([⟨b.min.x, b.min.y⟩, ⟨b.max.x, b.min.y⟩, ⟨b.min.x, b.max.y⟩, ⟨b.max.x, b.max.y⟩] : List (Point2 S)), AllFinite q := by
    rw [BoundingBox2.allFinite, Point2.allFinite, Point2.allFinite] at hb
    simp only [List.forall_mem_cons, List.not_mem_nil, IsEmpty.forall_iff, implies_true, and_true, Point2.allFinite]
    tauto
  have hk : ∀ q ∈ ([⟨b.min.x, b.min.y⟩, ⟨b.max.x, b.min.y⟩, ⟨b.min.x, b.max.y⟩, ⟨b.max.x, b.max.y⟩] : List (Point2 S)), ∃ k : UInt32, k < 4 ∧ b.corner build k = .ok q := by
    simp only [List.forall_mem_cons, List.not_mem_nil, IsEmpty.forall_iff, implies_true, and_true]
    exact ⟨⟨0, by decide, h0⟩, ⟨1, by decide, h1⟩, ⟨2, by decide, h2⟩, ⟨3, by decide, h3⟩⟩
  have e : b.farCorner build c = .ok (([⟨b.max.x, b.min.y⟩, ⟨b.min.x, b.max.y⟩, ⟨b.max.x, b.max.y⟩] : List (Point2 S)).foldl (Api.farthest c) ⟨b.min.x, b.min.y⟩) := by
    unfold BoundingBox2.farCorner
    simp only [List.mapM_cons, List.mapM_nil, h0, h1, h2, h3]
    rfl
  obtain ⟨m1, m2, m3⟩ := fold_far (fun q : Point2 S => Api.dot (q - c : Vector2 S) (q - c : Vector2 S)) (Api.farthest c) (fun p q => rfl) [⟨b.max.x, b.min.y⟩, ⟨b.min.x, b.max.y⟩, ⟨b.max.x, b.max.y⟩] ⟨b.min.x, b.min.y⟩
    (Point2.dom_gap (hf _ (by simp)) hc).nl (fun q hq => (Point2.dom_gap (hf q (List.mem_cons_of_mem _ hq)) hc).nl)
  set q := ([⟨b.max.x, b.min.y⟩, ⟨b.min.x, b.max.y⟩, ⟨b.max.x, b.max.y⟩] : List (Point2 S)).foldl (Api.farthest c) ⟨b.min.x, b.min.y⟩ with hq
  have mem : q ∈ ([⟨b.min.x, b.min.y⟩, ⟨b.max.x, b.min.y⟩, ⟨b.min.x, b.max.y⟩, ⟨b.max.x, b.max.y⟩] : List (Point2 S)) := by
    rcases m1 with m | m
    · rw [m]; simp
    · exact List.mem_cons_of_mem _ m
  have top : ∀ p ∈ ([⟨b.min.x, b.min.y⟩, ⟨b.max.x, b.min.y⟩, ⟨b.min.x, b.max.y⟩, ⟨b.max.x, b.max.y⟩] : List (Point2 S)), val (Api.dot (p - c : Vector2 S) (p - c : Vector2 S)) ≤ val (Api.dot (q - c : Vector2 S) (q - c : Vector2 S)) := by
    intro p hp
    rcases List.mem_cons.1 hp with rfl | hp
    · exact m2
    · exact m3 p hp
  refine ⟨q, e, hk q mem, ?_, ?_⟩
  · intro p hp
    have nq := (Point2.dom_gap (hf q mem) hc).nl
    have fin : ∀ x ∈ ([⟨b.min.x, b.min.y⟩, ⟨b.max.x, b.min.y⟩, ⟨b.min.x, b.max.y⟩, ⟨b.max.x, b.max.y⟩] : List (Point2 S)), Dom (Api.dot (p - c : Vector2 S) (p - c : Vector2 S)) (Api.dot (x - c : Vector2 S) (x - c : Vector2 S)) → (⟨c, Api.distance c q⟩ : Ball2 S).has p = true :=
      fun x hx hd => (Dom.sqrt ⟨hd.nl, nq, hd.pos, hd.le.trans (top x hx)⟩).toLe
    rcases b.far_of_inside hb c hc p hp with h | h | h | h
    all_goals exact fin _ (by simp) h
  · intro r hr
    obtain ⟨k, k1, k2⟩ := hk q mem
    exact hr q (corner_inside2 build b wb k1 k2)
/-- **C121**: the disc around `c` through the farthest of some points has all of them, and no disc with this center has all of them and a smaller
radius. -/
theorem C121_points2 (c : Point2 S) (ps : List (Point2 S)) (hc : AllFinite c) (hp : ∀ p ∈ ps, AllFinite p) :
    (∀ p ∈ ps, (Ball2.around c ps).has p = true) ∧
    ∀ r : S, (zero ≤? r) = true → (∀ p ∈ ps, (⟨c, r⟩ : Ball2 S).has p = true) → ((Ball2.around c ps).radius ≤? r) = true := by
  have k : ∀ p ∈ ps, Dom (Api.distance c p : S) (Api.distance c p) := fun p h => (Point2.dom_gap (hp p h) hc).sqrt
  obtain ⟨a, b, d, e⟩ := foldl_fmax (fun p => (Api.distance c p : S)) ps zero finite_zero.not_nan
  refine ⟨fun p h => le_iff.2 ⟨(k p h).nl, a, d p h (k p h).nl⟩, fun r h0 hr => ?_⟩
  exact le_iff.2 ⟨a, (le_iff.1 h0).2.1, e _ (le_iff.1 h0).2.2 fun p h _ => (le_iff.1 (hr p h)).2.2⟩
/-- **C121**: whether two discs overlap does not depend on their order. -/
theorem C121_symm2 (a b : Ball2 S) : a.meets b = b.meets a := by
  have s1 := C15_float_symmetric2 (S := S) a.center b.center
  have s2 : Same (a.radius + b.radius) (b.radius + a.radius) := same_add_comm _ _
  rw [Bool.eq_iff_iff]
  unfold Ball2.meets
  rw [le_iff, le_iff, s1.isNaN, s1.val, s2.isNaN, s2.val]
/-- **C121**: a larger disc has every point that a smaller one with the same center has, and meets every disc with a center that the smaller one meets,
if the radius of that one is finite. -/
theorem C121_grow2 (a : Ball2 S) (r : S) (hr : (a.radius ≤? r) = true) :
    (∀ p, a.has p = true → (⟨a.center, r⟩ : Ball2 S).has p = true) ∧
    ∀ b : Ball2 S, IsFinite b.radius → a.meets b = true → (⟨a.center, r⟩ : Ball2 S).meets b = true := by
  have h := le_iff.1 hr
  refine ⟨fun p hp => le_trans' hp hr, fun b hb hm => ?_⟩
  have m := le_iff.1 hm
  have n1 : ¬ IsNaN (r + b.radius) := fun hc => isNaN_add_finite hb h.2.1 ((same_add_comm _ _).isNaN.1 hc)
  exact le_iff.2 ⟨m.1, n1, m.2.2.trans (val_add_mono h.2.2 le_rfl m.2.1 n1)⟩

/-! ## Dimension 3 -/
theorem Point3.dom_gap {p c : Point3 S} (hp : AllFinite p) (hc : AllFinite c) : Dom (Api.dot (p - c : Vector3 S) (p - c : Vector3 S)) (Api.dot (p - c : Vector3 S) (p - c : Vector3 S)) := by
  rw [Point3.allFinite] at hp hc
  have k : ∀ {a b : S}, IsFinite a → IsFinite b → Dom ((a - b) * (a - b)) ((a - b) * (a - b)) := fun ha hb =>
    Dom.refl (mt isNaN_mul_self.1 (isNaN_sub_finite hb ha.not_nan)) (val_mul_self_nonneg _)
  exact (Dom.add (Dom.add (k hp.1 hc.1) (k hp.2.1 hc.2.1)) (k hp.2.2 hc.2.2))
/-- No point of a box is farther from `c` than all corners. -/
theorem BoundingBox3.far_of_inside (b : BoundingBox3 S) (hb : AllFinite b) (c : Point3 S) (hc : AllFinite c) (p : Point3 S) (hp : b.isInside p = true) :
    Dom (Api.dot (p - c : Vector3 S) (p - c : Vector3 S)) (Api.dot ((⟨b.min.x, b.min.y, b.min.z⟩ : Point3 S) - c : Vector3 S) ((⟨b.min.x, b.min.y, b.min.z⟩ : Point3 S) - c : Vector3 S)) ∨ Dom (Api.dot (p - c : Vector3 S) (p - c : Vector3 S)) (Api.dot ((⟨b.max.x, b.min.y, b.min.z⟩ : Point3 S) - c : Vector3 S) ((⟨b.max.x, b.min.y, b.min.z⟩ : Point3 S) - c : Vector3 S)) ∨ Dom (Api.dot (p - c : Vector3 S) (p - c : Vector3 S)) (Api.dot ((⟨b.min.x, b.max.y, b.min.z⟩ : Point3 S) - c : Vector3 S) ((⟨b.min.x, b.max.y, b.min.z⟩ : Point3 S) - c : Vector3 S)) ∨ Dom (Api.dot (p - c : Vector3 S) (p - c : Vector3 S)) (Api.dot ((⟨b.max.x, b.max.y, b.min.z⟩ : Point3 S) - c : Vector3 S) ((⟨b.max.x, b.max.y, b.min.z⟩ : Point3 S) - c : Vector3 S)) ∨ Dom (Api.dot (p - c : Vector3 S) (p - c : Vector3 S)) (Api.dot ((⟨b.min.x, b.min.y, b.max.z⟩ : Point3 S) - c : Vector3 S) ((⟨b.min.x, b.min.y, b.max.z⟩ : Point3 S) - c : Vector3 S)) ∨ Dom (Api.dot (p - c : Vector3 S) (p - c : Vector3 S)) (Api.dot ((⟨b.max.x, b.min.y, b.max.z⟩ : Point3 S) - c : Vector3 S) ((⟨b.max.x, b.min.y, b.max.z⟩ : Point3 S) - c : Vector3 S)) ∨ Dom (Api.dot (p - c : Vector3 S) (p - c : Vector3 S)) (Api.dot ((⟨b.min.x, b.max.y, b.max.z⟩ : Point3 S) - c : Vector3 S) ((⟨b.min.x, b.max.y, b.max.z⟩ : Point3 S) - c : Vector3 S)) ∨ Dom (Api.dot (p - c : Vector3 S) (p - c : Vector3 S)) (Api.dot ((⟨b.max.x, b.max.y, b.max.z⟩ : Point3 S) - c : Vector3 S) ((⟨b.max.x, b.max.y, b.max.z⟩ : Point3 S) - c : Vector3 S)) := by
  rw [BoundingBox3.allFinite, Point3.allFinite, Point3.allFinite] at hb
  rw [Point3.allFinite] at hc
  rw [isInside3_iff] at hp
  have h0 := far1 hb.1.1 hb.2.1 hc.1 hp.1.1 hp.1.2
  have h1 := far1 hb.1.2.1 hb.2.2.1 hc.2.1 hp.2.1.1 hp.2.1.2
  have h2 := far1 hb.1.2.2 hb.2.2.2 hc.2.2 hp.2.2.1 hp.2.2.2
  rcases h0 with a0 | a0 <;> rcases h1 with a1 | a1 <;> rcases h2 with a2 | a2
  · exact .inl (Dom.add (Dom.add a0 a1) a2)
  · exact .inr (.inr (.inr (.inr (.inl (Dom.add (Dom.add a0 a1) a2)))))
  · exact .inr (.inr (.inl (Dom.add (Dom.add a0 a1) a2)))
  · exact .inr (.inr (.inr (.inr (.inr (.inr (.inl (Dom.add (Dom.add a0 a1) a2)))))))
  · exact .inr (.inl (Dom.add (Dom.add a0 a1) a2))
  · exact .inr (.inr (.inr (.inr (.inr (.inl (Dom.add (Dom.add a0 a1) a2))))))
  · exact .inr (.inr (.inr (.inl (Dom.add (Dom.add a0 a1) a2))))
  · exact .inr (.inr (.inr (.inr (.inr (.inr (.inr ((Dom.add (Dom.add a0 a1) a2))))))))
/-- **C121**: the corner of a box that is farthest from a point, as found with the library's own comparison, is at least as far as every point of
the box: the ball with that radius has the whole box, and no smaller ball with this center does. -/
theorem C121_corner3 (build : Build) (b : BoundingBox3 S) (hb : AllFinite b) (wb : LeAll b.min b.max) (c : Point3 S) (hc : AllFinite c) :
    ∃ q, b.farCorner build c = .ok q ∧ (∃ k : UInt32, k < 8 ∧ b.corner build k = .ok q) ∧
      (∀ p, b.isInside p = true → (⟨c, Api.distance c q⟩ : Ball3 S).has p = true) ∧
      ∀ r : S, (∀ p, b.isInside p = true → (⟨c, r⟩ : Ball3 S).has p = true) → (Api.distance c q ≤? r) = true := by
  obtain ⟨h0, h1, h2, h3, h4, h5, h6, h7⟩ := corner_ok3 build b
  have hf : ∀ q ∈ ([⟨b.min.x, b.min.y, b.min.z⟩, ⟨b.max.x, b.min.y, b.min.z⟩, ⟨b.min.x, b.max.y, b.min.z⟩, ⟨b.max.x, b.max.y, b.min.z⟩, ⟨b.min.x, b.min.y, b.max.z⟩, ⟨b.max.x, b.min.y, b.max.z⟩, ⟨b.min.x, b.max.y, b.max.z⟩, ⟨b.max.x, b.max.y, b.max.z⟩] : List (Point3 S)), AllFinite q := by
    rw [BoundingBox3.allFinite, Point3.allFinite, Point3.allFinite] at hb
    simp only [List.forall_mem_cons, List.not_mem_nil, IsEmpty.forall_iff, implies_true, and_true, Point3.allFinite]
    tauto
  have hk : ∀ q ∈ ([⟨b.min.x, b.min.y, b.min.z⟩, ⟨b.max.x, b.min.y, b.min.z⟩, ⟨b.min.x, b.max.y, b.min.z⟩, ⟨b.max.x, b.max.y, b.min.z⟩, ⟨b.min.x, b.min.y, b.max.z⟩, ⟨b.max.x, b.min.y, b.max.z⟩, ⟨b.min.x, b.max.y, b.max.z⟩, ⟨b.max.x, b.max.y, b.max.z⟩] : List (Point3 S)), ∃ k : UInt32, k < 8 ∧ b.corner build k = .ok q := by
    simp only [List.forall_mem_cons, List.not_mem_nil, IsEmpty.forall_iff, implies_true, and_true]
    exact ⟨⟨0, by decide, h0⟩, ⟨1, by decide, h1⟩, ⟨2, by decide, h2⟩, ⟨3, by decide, h3⟩, ⟨4, by decide, h4⟩, ⟨5, by decide, h5⟩, ⟨6, by decide, h6⟩, ⟨7, by decide, h7⟩⟩
  have e : b.farCorner build c = .ok (([⟨b.max.x, b.min.y, b.min.z⟩, ⟨b.min.x, b.max.y, b.min.z⟩, ⟨b.max.x, b.max.y, b.min.z⟩, ⟨b.min.x, b.min.y, b.max.z⟩, ⟨b.max.x, b.min.y, b.max.z⟩, ⟨b.min.x, b.max.y, b.max.z⟩, ⟨b.max.x, b.max.y, b.max.z⟩] : List (Point3 S)).foldl (Api.farthest c) ⟨b.min.x, b.min.y, b.min.z⟩) := by
    unfold BoundingBox3.farCorner
    simp only [List.mapM_cons, List.mapM_nil, h0, h1, h2, h3, h4, h5, h6, h7]
    rfl
  obtain ⟨m1, m2, m3⟩ := fold_far (fun q : Point3 S => Api.dot (q - c : Vector3 S) (q - c : Vector3 S)) (Api.farthest c) (fun p q => rfl) [⟨b.max.x, b.min.y, b.min.z⟩, ⟨b.min.x, b.max.y, b.min.z⟩, ⟨b.max.x, b.max.y, b.min.z⟩, ⟨b.min.x, b.min.y, b.max.z⟩, ⟨b.max.x, b.min.y, b.max.z⟩, ⟨b.min.x, b.max.y, b.max.z⟩, ⟨b.max.x, b.max.y, b.max.z⟩] ⟨b.min.x, b.min.y, b.min.z⟩
    (Point3.dom_gap (hf _ (by simp)) hc).nl (fun q hq => (Point3.dom_gap (hf q (List.mem_cons_of_mem _ hq)) hc).nl)
  set q := ([⟨b.max.x, b.min.y, b.min.z⟩, ⟨b.min.x, b.max.y, b.min.z⟩, ⟨b.max.x, b.max.y, b.min.z⟩, ⟨b.min.x, b.min.y, b.max.z⟩, ⟨b.max.x, b.min.y, b.max.z⟩, ⟨b.min.x, b.max.y, b.max.z⟩, ⟨b.max.x, b.max.y, b.max.z⟩] : List (Point3 S)).foldl (Api.farthest c) ⟨b.min.x, b.min.y, b.min.z⟩ with hq
  have mem : q ∈ ([⟨b.min.x, b.min.y, b.min.z⟩, ⟨b.max.x, b.min.y, b.min.z⟩, ⟨b.min.x, b.max.y, b.min.z⟩, ⟨b.max.x, b.max.y, b.min.z⟩, ⟨b.min.x, b.min.y, b.max.z⟩, ⟨b.max.x, b.min.y, b.max.z⟩, ⟨b.min.x, b.max.y, b.max.z⟩, ⟨b.max.x, b.max.y, b.max.z⟩] : List (Point3 S)) := by
    rcases m1 with m | m
    · rw [m]; simp
    · exact List.mem_cons_of_mem _ m
  have top : ∀ p ∈ ([⟨b.min.x, b.min.y, b.min.z⟩, ⟨b.max.x, b.min.y, b.min.z⟩, ⟨b.min.x, b.max.y, b.min.z⟩, ⟨b.max.x, b.max.y, b.min.z⟩, ⟨b.min.x, b.min.y, b.max.z⟩, ⟨b.max.x, b.min.y, b.max.z⟩, ⟨b.min.x, b.max.y, b.max.z⟩, ⟨b.max.x, b.max.y, b.max.z⟩] : List (Point3 S)), val (Api.dot (p - c : Vector3 S) (p - c : Vector3 S)) ≤ val (Api.dot (q - c : Vector3 S) (q - c : Vector3 S)) := by
    intro p hp
    rcases List.mem_cons.1 hp with rfl | hp
    · exact m2
    · exact m3 p hp
  refine ⟨q, e, hk q mem, ?_, ?_⟩
  · intro p hp
    have nq := (Point3.dom_gap (hf q mem) hc).nl
    have fin : ∀ x ∈ ([⟨b.min.x, b.min.y, b.min.z⟩, ⟨b.max.x, b.min.y, b.min.z⟩, ⟨b.min.x, b.max.y, b.min.z⟩, ⟨b.max.x, b.max.y, b.min.z⟩, ⟨b.min.x, b.min.y, b.max.z⟩, ⟨b.max.x, b.min.y, b.max.z⟩, ⟨b.min.x, b.max.y, b.max.z⟩, ⟨b.max.x, b.max.y, b.max.z⟩] : List (Point3 S)), Dom (Api.dot (p - c : Vector3 S) (p - c : Vector3 S)) (Api.dot (x - c : Vector3 S) (x - c : Vector3 S)) → (⟨c, Api.distance c q⟩ : Ball3 S).has p = true :=
      fun x hx hd => (Dom.sqrt ⟨hd.nl, nq, hd.pos, hd.le.trans (top x hx)⟩).toLe
    rcases b.far_of_inside hb c hc p hp with h | h | h | h | h | h | h | h
    all_goals exact fin _ (by simp) h
  · intro r hr
    obtain ⟨k, k1, k2⟩ := hk q mem
    exact hr q (corner_inside3 build b wb k1 k2)
/-- **C121**: the ball around `c` through the farthest of some points has all of them, and no ball with this center has all of them and a smaller
radius. -/
theorem C121_points3 (c : Point3 S) (ps : List (Point3 S)) (hc : AllFinite c) (hp : ∀ p ∈ ps, AllFinite p) :
    (∀ p ∈ ps, (Ball3.around c ps).has p = true) ∧
    ∀ r : S, (zero ≤? r) = true → (∀ p ∈ ps, (⟨c, r⟩ : Ball3 S).has p = true) → ((Ball3.around c ps).radius ≤? r) = true := by
  have k : ∀ p ∈ ps, Dom (Api.distance c p : S) (Api.distance c p) := fun p h => (Point3.dom_gap (hp p h) hc).sqrt
  obtain ⟨a, b, d, e⟩ := foldl_fmax (fun p => (Api.distance c p : S)) ps zero finite_zero.not_nan
  refine ⟨fun p h => le_iff.2 ⟨(k p h).nl, a, d p h (k p h).nl⟩, fun r h0 hr => ?_⟩
  exact le_iff.2 ⟨a, (le_iff.1 h0).2.1, e _ (le_iff.1 h0).2.2 fun p h _ => (le_iff.1 (hr p h)).2.2⟩
/-- **C121**: whether two balls overlap does not depend on their order. -/
theorem C121_symm3 (a b : Ball3 S) : a.meets b = b.meets a := by
  have s1 := C15_float_symmetric3 (S := S) a.center b.center
  have s2 : Same (a.radius + b.radius) (b.radius + a.radius) := same_add_comm _ _
  rw [Bool.eq_iff_iff]
  unfold Ball3.meets
  rw [le_iff, le_iff, s1.isNaN, s1.val, s2.isNaN, s2.val]
/-- **C121**: a larger ball has every point that a smaller one with the same center has, and meets every ball with a center that the smaller one meets,
if the radius of that one is finite. -/
theorem C121_grow3 (a : Ball3 S) (r : S) (hr : (a.radius ≤? r) = true) :
    (∀ p, a.has p = true → (⟨a.center, r⟩ : Ball3 S).has p = true) ∧
    ∀ b : Ball3 S, IsFinite b.radius → a.meets b = true → (⟨a.center, r⟩ : Ball3 S).meets b = true := by
  have h := le_iff.1 hr
  refine ⟨fun p hp => le_trans' hp hr, fun b hb hm => ?_⟩
  have m := le_iff.1 hm
  have n1 : ¬ IsNaN (r + b.radius) := fun hc => isNaN_add_finite hb h.2.1 ((same_add_comm _ _).isNaN.1 hc)
  exact le_iff.2 ⟨m.1, n1, m.2.2.trans (val_add_mono h.2.2 le_rfl m.2.1 n1)⟩

end VecMath

out='''import Verif.Spec.Clip
import Verif.Props.RealShadow
import Verif.Props.RealCurve
import Mathlib.Analysis.Convex.Join
/-! # Clipping by planes in exact real arithmetic (layer R): C126 -/

namespace VecMath
open Scalar IEEE

section
variable {k : ℕ}
/-- Where the line from `a` to `b` crosses the plane `n ⬝ᵥ x = d`. -/
noncomputable def crossing (n : Fin k → ℝ) (d : ℝ) (a b : Fin k → ℝ) : Fin k → ℝ :=
  ((n ⬝ᵥ a - d) - (n ⬝ᵥ b - d))⁻¹ • ((d - n ⬝ᵥ b) • a + (n ⬝ᵥ a - d) • b)
variable {n : Fin k → ℝ} {d : ℝ} {K : Set (Fin k → ℝ)}
theorem height_mix {a b : Fin k → ℝ} {s t : ℝ} (h : s + t = 1) : n ⬝ᵥ (s • a + t • b) - d = s * (n ⬝ᵥ a - d) + t * (n ⬝ᵥ b - d) := by
  rw [dotProduct_add, dotProduct_smul, dotProduct_smul, smul_eq_mul, smul_eq_mul]
  linear_combination d * h
theorem cross_aux {x a1 a2 h1 h2 l s t b : ℝ} (st : s + t = 1) (p1 : h1 - l ≠ 0) (p2 : h2 - l ≠ 0) (p : s * h1 + t * h2 - l ≠ 0)
    (hx : x = s * a1 + t * a2) :
    (s * h1 + t * h2 - l)⁻¹ * (-l * x + (s * h1 + t * h2) * b) =
      s * (h1 - l) / (s * h1 + t * h2 - l) * ((h1 - l)⁻¹ * (-l * a1 + h1 * b)) + t * (h2 - l) / (s * h1 + t * h2 - l) * ((h2 - l)⁻¹ * (-l * a2 + h2 * b)) := by
  subst hx
  field_simp
  ring
theorem crossing_apply (a b : Fin k → ℝ) (i : Fin k) :
    crossing n d a b i = ((n ⬝ᵥ a - d) - (n ⬝ᵥ b - d))⁻¹ * (-(n ⬝ᵥ b - d) * a i + (n ⬝ᵥ a - d) * b i) := by
  simp only [crossing, Pi.smul_apply, Pi.add_apply, smul_eq_mul, neg_sub]
theorem crossing_swap (a b : Fin k → ℝ) : crossing n d a b = crossing n d b a := by
  funext i
  rw [crossing_apply, crossing_apply]
  rw [show (n ⬝ᵥ b - d) - (n ⬝ᵥ a - d) = -((n ⬝ᵥ a - d) - (n ⬝ᵥ b - d)) by ring, inv_neg]
  ring
theorem crossing_mix {a1 a2 b : Fin k → ℝ} {s t : ℝ} (hK : Convex ℝ K) (s0 : 0 ≤ s) (t0 : 0 ≤ t) (st : s + t = 1)
    (p : 0 < ((n ⬝ᵥ a1 - d) - (n ⬝ᵥ b - d)) * ((n ⬝ᵥ a2 - d) - (n ⬝ᵥ b - d))) (k1 : crossing n d a1 b ∈ K) (k2 : crossing n d a2 b ∈ K) :
    crossing n d (s • a1 + t • a2) b ∈ K := by
  generalize e1 : n ⬝ᵥ a1 - d = h1 at *
  generalize e2 : n ⬝ᵥ a2 - d = h2 at *
  generalize e3 : n ⬝ᵥ b - d = l at *
  have eh : n ⬝ᵥ (s • a1 + t • a2) - d = s * h1 + t * h2 := by rw [height_mix st, e1, e2]
  have q1 : h1 - l ≠ 0 := fun e => by rw [e, zero_mul] at p; exact lt_irrefl _ p
  have q2 : h2 - l ≠ 0 := fun e => by rw [e, mul_zero] at p; exact lt_irrefl _ p
  have eq : s * h1 + t * h2 - l = s * (h1 - l) + t * (h2 - l) := by linear_combination l * st
  have key : 0 ≤ s * (h1 - l) / (s * h1 + t * h2 - l) ∧ 0 ≤ t * (h2 - l) / (s * h1 + t * h2 - l) ∧ s * h1 + t * h2 - l ≠ 0 := by
    rw [eq]
    rcases pos_and_pos_or_neg_and_neg_of_mul_pos p with ⟨u, v⟩ | ⟨u, v⟩
    · have w : 0 < s * (h1 - l) + t * (h2 - l) := by
        rcases s0.eq_or_lt with e | e
        · rw [← e, zero_add] at st; rw [← e, st]; linarith
        · have := mul_pos e u; have := mul_nonneg t0 v.le; linarith
      exact ⟨div_nonneg (mul_nonneg s0 u.le) w.le, div_nonneg (mul_nonneg t0 v.le) w.le, w.ne'⟩
    · have w : s * (h1 - l) + t * (h2 - l) < 0 := by
        rcases s0.eq_or_lt with e | e
        · rw [← e, zero_add] at st; rw [← e, st]; linarith
        · have := mul_neg_of_pos_of_neg e u; have := mul_nonpos_of_nonneg_of_nonpos t0 v.le; linarith
      exact ⟨div_nonneg_of_nonpos (mul_nonpos_of_nonneg_of_nonpos s0 u.le) w.le, div_nonneg_of_nonpos (mul_nonpos_of_nonneg_of_nonpos t0 v.le) w.le, w.ne⟩
  obtain ⟨c1, c2, c3⟩ := key
  have := hK k1 k2 c1 c2 (by rw [← add_div, ← eq]; exact div_self c3)
  convert this using 1
  funext i
  simp only [Pi.add_apply, Pi.smul_apply, smul_eq_mul, crossing_apply, eh, e1, e2, e3]
  exact cross_aux st q1 q2 c3 rfl
/-- The crossing of a point inside and a point outside lies on the plane and between them. -/
theorem crossing_between {a b : Fin k → ℝ} (ha : d ≤ n ⬝ᵥ a) (hb : n ⬝ᵥ b < d) : n ⬝ᵥ crossing n d a b = d ∧ crossing n d a b ∈ segment ℝ a b := by
  have p : 0 < (n ⬝ᵥ a - d) - (n ⬝ᵥ b - d) := by linarith
  constructor
  · rw [crossing, dotProduct_smul, dotProduct_add, dotProduct_smul, dotProduct_smul, smul_eq_mul, smul_eq_mul, smul_eq_mul, inv_mul_eq_div, div_eq_iff p.ne']
    ring
  · refine ⟨(d - n ⬝ᵥ b) / ((n ⬝ᵥ a - d) - (n ⬝ᵥ b - d)), (n ⬝ᵥ a - d) / ((n ⬝ᵥ a - d) - (n ⬝ᵥ b - d)), div_nonneg (by linarith) p.le,
      div_nonneg (by linarith) p.le, ?_, ?_⟩
    · rw [← add_div, div_eq_one_iff_eq p.ne']; ring
    · rw [crossing, smul_add, smul_smul, smul_smul, inv_mul_eq_div, inv_mul_eq_div]
/-- Between a point inside and a point outside, what is inside lies before the crossing. -/
theorem crossing_before {a b x : Fin k → ℝ} (hK : Convex ℝ K) (ha : d ≤ n ⬝ᵥ a) (hb : n ⬝ᵥ b < d) (hx : d ≤ n ⬝ᵥ x) (hs : x ∈ segment ℝ a b)
    (ka : a ∈ K) (kc : crossing n d a b ∈ K) : x ∈ K := by
  obtain ⟨s, t, s0, t0, st, rfl⟩ := hs
  have hx : 0 ≤ n ⬝ᵥ (s • a + t • b) - d := by linarith
  rw [height_mix st] at hx
  generalize e1 : n ⬝ᵥ a - d = h at *
  generalize e2 : n ⬝ᵥ b - d = l at *
  have h0 : 0 ≤ h := by linarith
  have l0 : l < 0 := by linarith
  rcases h0.eq_or_lt with e | e
  · have : t = 0 := by
      rcases t0.eq_or_lt with e' | e'
      · exact e'.symm
      · rw [← e, mul_zero, zero_add] at hx
        exact absurd hx (not_le.2 (mul_neg_of_pos_of_neg e' l0))
    rw [this, add_zero] at st
    rw [this, st, one_smul, zero_smul, add_zero]
    exact ka
  · have q : 0 < h - l := by linarith
    have m0 : 0 ≤ t * (h - l) / h := div_nonneg (mul_nonneg t0 q.le) e.le
    have m1 : 0 ≤ 1 - t * (h - l) / h := by
      rw [sub_nonneg, div_le_one e]
      nlinarith
    have := hK ka kc m1 m0 (by ring)
    convert this using 1
    funext i
    simp only [Pi.add_apply, Pi.smul_apply, smul_eq_mul, crossing_apply, e1, e2]
    rw [show s = 1 - t by linarith]
    field_simp
    ring
/-- **Clipping a convex hull**: the points inside and the crossings between points inside and points outside span what is left. -/
theorem clip_hull (s : Set (Fin k → ℝ)) (n : Fin k → ℝ) (d : ℝ) :
    convexHull ℝ ({x | x ∈ s ∧ d ≤ n ⬝ᵥ x} ∪ {c | ∃ a ∈ s, ∃ b ∈ s, d ≤ n ⬝ᵥ a ∧ n ⬝ᵥ b < d ∧ c = crossing n d a b}) = convexHull ℝ s ∩ {x | d ≤ n ⬝ᵥ x} := by
  have lin : IsLinearMap ℝ (fun x : Fin k → ℝ => n ⬝ᵥ x) := linear_dot n
  refine Set.Subset.antisymm (convexHull_min ?_ ((convex_convexHull ℝ s).inter (convex_halfSpace_ge lin d))) ?_
  · rintro x (⟨h1, h2⟩ | ⟨a, ha, b, hb, p, q, rfl⟩)
    · exact ⟨subset_convexHull ℝ s h1, h2⟩
    · obtain ⟨c1, c2⟩ := crossing_between p q
      exact ⟨(convex_convexHull ℝ s).segment_subset (subset_convexHull ℝ s ha) (subset_convexHull ℝ s hb) c2, c1.ge⟩
  · rintro x ⟨hx, hd⟩
    set K := convexHull ℝ ({x | x ∈ s ∧ d ≤ n ⬝ᵥ x} ∪ {c | ∃ a ∈ s, ∃ b ∈ s, d ≤ n ⬝ᵥ a ∧ n ⬝ᵥ b < d ∧ c = crossing n d a b}) with eK
    have hK : Convex ℝ K := convex_convexHull ℝ _
    have es : s = {x | x ∈ s ∧ d ≤ n ⬝ᵥ x} ∪ {x | x ∈ s ∧ n ⬝ᵥ x < d} := by
      ext y
      constructor
      · intro h
        rcases le_or_gt d (n ⬝ᵥ y) with w | w
        · exact Or.inl ⟨h, w⟩
        · exact Or.inr ⟨h, w⟩
      · rintro (h | h) <;> exact h.1
    have hA : convexHull ℝ {x | x ∈ s ∧ d ≤ n ⬝ᵥ x} ⊆ K := convexHull_mono Set.subset_union_left
    rcases Set.eq_empty_or_nonempty {x | x ∈ s ∧ n ⬝ᵥ x < d} with hB | hB
    · rw [es, hB, Set.union_empty] at hx
      exact hA hx
    rcases Set.eq_empty_or_nonempty {x | x ∈ s ∧ d ≤ n ⬝ᵥ x} with hA' | hA'
    · rw [es, hA', Set.empty_union] at hx
      have : n ⬝ᵥ x < d := convexHull_min (t := {x | n ⬝ᵥ x < d}) (fun y hy => hy.2) (convex_halfSpace_lt lin d) hx
      exact absurd hd (not_le.2 this)
    rw [es, convexHull_union hA' hB, mem_convexJoin] at hx
    obtain ⟨a, ha, b, hb, hab⟩ := hx
    have la : d ≤ n ⬝ᵥ a := convexHull_min (t := {x | d ≤ n ⬝ᵥ x}) (fun y hy => hy.2) (convex_halfSpace_ge lin d) ha
    have lb : n ⬝ᵥ b < d := convexHull_min (t := {x | n ⬝ᵥ x < d}) (fun y hy => hy.2) (convex_halfSpace_lt lin d) hb
    have step1 : ∀ y, y ∈ s ∧ n ⬝ᵥ y < d → d ≤ n ⬝ᵥ a ∧ crossing n d a y ∈ K := by
      intro y hy
      refine convexHull_min (t := {a | d ≤ n ⬝ᵥ a ∧ crossing n d a y ∈ K}) ?_ ?_ ha
      · intro z hz
        exact ⟨hz.2, subset_convexHull ℝ _ (Or.inr ⟨z, hz.1, y, hy.1, hz.2, hy.2, rfl⟩)⟩
      · rintro u ⟨hu, ku⟩ v ⟨hv, kv⟩ p q p0 q0 pq
        refine ⟨convex_halfSpace_ge lin d hu hv p0 q0 pq, crossing_mix hK p0 q0 pq ?_ ku kv⟩
        have := hy.2
        exact mul_pos (by linarith) (by linarith)
    have step2 : n ⬝ᵥ b < d ∧ crossing n d b a ∈ K := by
      refine convexHull_min (t := {b | n ⬝ᵥ b < d ∧ crossing n d b a ∈ K}) ?_ ?_ hb
      · intro y hy
        exact ⟨hy.2, by rw [crossing_swap]; exact (step1 y hy).2⟩
      · rintro u ⟨hu, ku⟩ v ⟨hv, kv⟩ p q p0 q0 pq
        refine ⟨convex_halfSpace_lt lin d hu hv p0 q0 pq, crossing_mix hK p0 q0 pq ?_ ku kv⟩
        have hu : n ⬝ᵥ u < d := hu
        have hv : n ⬝ᵥ v < d := hv
        exact mul_pos_of_neg_of_neg (by linarith) (by linarith)
    exact crossing_before hK la lb hd hab (hA ha) (by rw [crossing_swap]; exact step2.2)
end
'''
DIM='''
/-! ## Dimension DD -/
section
theorem VectorDD.fin_along {n : VectorDD Ideal} {p : PointDD Ideal} (hn : AllFinite n) (hp : AllFinite p) :
    IsFinite (n.along p) ∧ real (n.along p) = n.toReal ⬝ᵥ p.toReal := by
  have hv : AllFinite (VectorDD.fromPoint p) := VectorDD.allFinite.2 (PointDD.allFinite.1 hp)
  exact ⟨VectorDD.fin_dot hn hv, VectorDD.real_dot hn hv⟩
theorem VectorDD.inside_iff {n : VectorDD Ideal} {d : Ideal} {p : PointDD Ideal} (hn : AllFinite n) (hd : IsFinite d) (hp : AllFinite p) :
    (d ≤? n.along p) = true ↔ real d ≤ n.toReal ⬝ᵥ p.toReal := by
  rw [Ideal.le_real hd (VectorDD.fin_along hn hp).1, (VectorDD.fin_along hn hp).2]
/-- **C126**: a new point is the crossing of the line with the plane. -/
theorem C126_crossingDD (n : VectorDD Ideal) (d : Ideal) (p q : PointDD Ideal) (hn : AllFinite n) (hd : IsFinite d) (hp : AllFinite p) (hq : AllFinite q)
    (kp : (d ≤? n.along p) = true) (kq : (d ≤? n.along q) = false) :
    AllFinite (PointDD.cut n d p q) ∧ (n.along (PointDD.cut n d p q) == d) = true ∧ (PointDD.cut n d p q).toReal ∈ segment ℝ p.toReal q.toReal ∧
      (PointDD.cut n d p q).toReal = crossing n.toReal (real d) p.toReal q.toReal := by
  obtain ⟨fp, ep⟩ := VectorDD.fin_along hn hp
  obtain ⟨fq, eq⟩ := VectorDD.fin_along hn hq
  have kp' := (VectorDD.inside_iff hn hd hp).1 kp
  have kq' : n.toReal ⬝ᵥ q.toReal < real d := by
    rw [← Bool.not_eq_true, VectorDD.inside_iff hn hd hq, not_le] at kq
    exact kq
  have f1 := Ideal.finite_sub hd fp
  have f2 := Ideal.finite_sub fq fp
  have e1 : real (d - n.along p) = real d - n.toReal ⬝ᵥ p.toReal := by rw [Ideal.real_sub hd fp, ep]
  have e2 : real (n.along q - n.along p) = n.toReal ⬝ᵥ q.toReal - n.toReal ⬝ᵥ p.toReal := by rw [Ideal.real_sub fq fp, ep, eq]
  have n0 : real (n.along q - n.along p) ≠ 0 := by rw [e2]; intro e; linarith
  have ft := Ideal.finite_div f1 f2 n0
  have et := Ideal.real_div f1 f2 n0
  have hv := VectorDD.fin_subp hq hp
  have hm := VectorDD.fin_mul hv ft
  have hc : AllFinite (PointDD.cut n d p q) := PointDD.fin_addv hp hm
  have ec : (PointDD.cut n d p q).toReal = crossing n.toReal (real d) p.toReal q.toReal := by
    have := PointDD.toReal_addv hp hm
    rw [show PointDD.cut n d p q = p + (q - p : VectorDD Ideal) * ((d - n.along p) / (n.along q - n.along p)) from rfl, this, VectorDD.toReal_mul hv ft,
      VectorDD.toReal_subp hq hp, et, e1, e2]
    funext i
    rw [crossing_apply]
    simp only [Pi.add_apply, Pi.smul_apply, Pi.sub_apply, smul_eq_mul]
    rw [e2] at n0
    have n1 : (n.toReal ⬝ᵥ p.toReal - real d) - (n.toReal ⬝ᵥ q.toReal - real d) ≠ 0 := by intro e; apply n0; linarith
    generalize n.toReal ⬝ᵥ p.toReal = a at *
    generalize n.toReal ⬝ᵥ q.toReal = b at *
    rw [show b - a = -((a - real d) - (b - real d)) by ring, div_neg, inv_mul_eq_div, eq_div_iff n1]
    field_simp
    ring
  obtain ⟨c1, c2⟩ := crossing_between (n := n.toReal) kp' kq'
  refine ⟨hc, ?_, by rw [ec]; exact c2, ec⟩
  rw [Ideal.beq_real (VectorDD.fin_along hn hc).1 hd, (VectorDD.fin_along hn hc).2, ec, c1]
theorem VectorDD.mem_clip {S : Type} [Scalar S] {n : VectorDD S} {d : S} {ps : List (PointDD S)} {c : PointDD S} : c ∈ n.clip d ps ↔
    (c ∈ ps ∧ (d ≤? n.along c) = true) ∨ ∃ p ∈ ps, ∃ q ∈ ps, (d ≤? n.along p) = true ∧ (d ≤? n.along q) = false ∧ c = PointDD.cut n d p q := by
  simp only [VectorDD.clip, VectorDD.kept, VectorDD.dropped, List.mem_append, List.mem_filter, List.mem_flatMap, List.mem_map, Bool.not_eq_true']
  constructor
  · rintro (h | ⟨p, ⟨h1, h2⟩, q, ⟨h3, h4⟩, rfl⟩)
    · exact Or.inl h
    · exact Or.inr ⟨p, h1, q, h3, h2, h4, rfl⟩
  · rintro (h | ⟨p, h1, q, h3, h2, h4, rfl⟩)
    · exact Or.inl h
    · exact Or.inr ⟨p, ⟨h1, h2⟩, q, ⟨h3, h4⟩, rfl⟩
/-- **C126**: clipping cuts the convex hull of the points by the half-space: nothing more and nothing less is left. -/
theorem C126_clipDD (n : VectorDD Ideal) (d : Ideal) (ps : List (PointDD Ideal)) (hn : AllFinite n) (hd : IsFinite d) (h : ∀ p ∈ ps, AllFinite p) :
    (∀ c ∈ n.clip d ps, AllFinite c) ∧ PointDD.hull (n.clip d ps) = PointDD.hull ps ∩ {x | real d ≤ n.toReal ⬝ᵥ x} := by
  constructor
  · intro c hc
    rcases VectorDD.mem_clip.1 hc with ⟨h1, -⟩ | ⟨p, hp, q, hq, kp, kq, rfl⟩
    · exact h c h1
    · exact (C126_crossingDD n d p q hn hd (h p hp) (h q hq) kp kq).1
  · rw [PointDD.hull, PointDD.hull, ← clip_hull]
    congr 1
    ext x
    constructor
    · rintro ⟨c, hc, rfl⟩
      rcases VectorDD.mem_clip.1 hc with ⟨h1, h2⟩ | ⟨p, hp, q, hq, kp, kq, rfl⟩
      · exact Or.inl ⟨⟨c, h1, rfl⟩, (VectorDD.inside_iff hn hd (h c h1)).1 h2⟩
      · refine Or.inr ⟨_, ⟨p, hp, rfl⟩, _, ⟨q, hq, rfl⟩, (VectorDD.inside_iff hn hd (h p hp)).1 kp, ?_, (C126_crossingDD n d p q hn hd (h p hp) (h q hq) kp kq).2.2.2⟩
        rw [← Bool.not_eq_true, VectorDD.inside_iff hn hd (h q hq), not_le] at kq
        exact kq
    · rintro (⟨⟨c, h1, rfl⟩, h2⟩ | ⟨_, ⟨p, hp, rfl⟩, _, ⟨q, hq, rfl⟩, h1, h2, rfl⟩)
      · exact ⟨c, VectorDD.mem_clip.2 (Or.inl ⟨h1, (VectorDD.inside_iff hn hd (h c h1)).2 h2⟩), rfl⟩
      · have kp := (VectorDD.inside_iff hn hd (h p hp)).2 h1
        have kq : (d ≤? n.along q) = false := by rw [← Bool.not_eq_true, VectorDD.inside_iff hn hd (h q hq), not_le]; exact h2
        exact ⟨_, VectorDD.mem_clip.2 (Or.inr ⟨p, hp, q, hq, kp, kq, rfl⟩), (C126_crossingDD n d p q hn hd (h p hp) (h q hq) kp kq).2.2.2.symm⟩
/-- **C126**: any number of planes, one after the other, cut the convex hull by all half-spaces. -/
theorem C126_clipsDD (planes : List (VectorDD Ideal × Ideal)) (ps : List (PointDD Ideal)) (hl : ∀ l ∈ planes, AllFinite l.1 ∧ IsFinite l.2)
    (h : ∀ p ∈ ps, AllFinite p) :
    (∀ c ∈ PointDD.clips planes ps, AllFinite c) ∧
      PointDD.hull (PointDD.clips planes ps) = PointDD.hull ps ∩ {x | ∀ l ∈ planes, real l.2 ≤ l.1.toReal ⬝ᵥ x} := by
  induction planes generalizing ps with
  | nil => exact ⟨h, by simp [PointDD.clips]⟩
  | cons l planes ih =>
    obtain ⟨f, e⟩ := C126_clipDD l.1 l.2 ps (hl l (by simp)).1 (hl l (by simp)).2 h
    obtain ⟨f', e'⟩ := ih (l.1.clip l.2 ps) (fun l hl' => hl l (by simp [hl'])) f
    refine ⟨f', e'.trans ?_⟩
    rw [e]
    ext x
    simp only [Set.mem_inter_iff, Set.mem_setOf_eq, List.forall_mem_cons]
    tauto
/-- **C126**: nothing is left if and only if the convex hull has no point in common with the half-spaces. -/
theorem C126_emptyDD (planes : List (VectorDD Ideal × Ideal)) (ps : List (PointDD Ideal)) (hl : ∀ l ∈ planes, AllFinite l.1 ∧ IsFinite l.2)
    (h : ∀ p ∈ ps, AllFinite p) :
    PointDD.clips planes ps = [] ↔ ¬ ∃ x ∈ PointDD.hull ps, ∀ l ∈ planes, real l.2 ≤ l.1.toReal ⬝ᵥ x := by
  have e := (C126_clipsDD planes ps hl h).2
  have k : PointDD.clips planes ps = [] ↔ PointDD.hull (PointDD.clips planes ps) = ∅ := by
    rw [PointDD.hull, convexHull_eq_empty]
    constructor
    · intro h; rw [h]; simp
    · intro h
      rcases hc : PointDD.clips planes ps with _ | ⟨c, cs⟩
      · rfl
      · rw [hc] at h
        have : c.toReal ∈ (∅ : Set (Fin DD → ℝ)) := h ▸ ⟨c, by simp, rfl⟩
        exact absurd this (Set.notMem_empty _)
  rw [k, e, Set.eq_empty_iff_forall_notMem]
  simp only [Set.mem_inter_iff, Set.mem_setOf_eq, not_exists]
/-- **C126**: the planes can be taken in any order. -/
theorem C126_orderDD (planes planes' : List (VectorDD Ideal × Ideal)) (ps : List (PointDD Ideal)) (hl : ∀ l ∈ planes, AllFinite l.1 ∧ IsFinite l.2)
    (h : ∀ p ∈ ps, AllFinite p) (hp : ∀ l, l ∈ planes' ↔ l ∈ planes) : PointDD.hull (PointDD.clips planes' ps) = PointDD.hull (PointDD.clips planes ps) := by
  rw [(C126_clipsDD planes ps hl h).2, (C126_clipsDD planes' ps (fun l hl' => hl l ((hp l).1 hl')) h).2]
  simp only [hp]
end
'''
for d in '23': out+=DIM.replace('DD',d)
out+='\nend VecMath\n'
open('/tmp/d/RealClip.lean','w').write(out)

import Verif.Spec.Frame
import Verif.Props.RealShadow
import Mathlib.LinearAlgebra.CrossProduct
/-! # Which axes are enough (layer R): C125 -/

namespace VecMath
open Scalar IEEE
section
theorem turn_aux {a b c d : ℝ} (h : d ≠ 0) : a + b / -d * c = (a * -d - b * -c) / -d := by
  field_simp
  ring
/-- Turn an axis until the first of finitely many vectors is perpendicular to it. -/
theorem turn_until {k : ℕ} {n m : Fin k → ℝ} {U : Set (Fin k → ℝ)} (hU : U.Finite) (h : ∀ u ∈ U, 0 ≤ n ⬝ᵥ u) (hm : ∃ u ∈ U, m ⬝ᵥ u < 0) :
    ∃ s : ℝ, (∀ u ∈ U, 0 ≤ (n + s • m) ⬝ᵥ u) ∧ ∃ u ∈ U, (n + s • m) ⬝ᵥ u = 0 ∧ m ⬝ᵥ u < 0 := by
  obtain ⟨v, hv, hv'⟩ := hm
  obtain ⟨u, ⟨hu, hu'⟩, hmin⟩ := Set.exists_min_image (U ∩ {u | m ⬝ᵥ u < 0}) (fun u => n ⬝ᵥ u / -(m ⬝ᵥ u)) (hU.inter_of_left _) ⟨v, hv, hv'⟩
  have hu' : m ⬝ᵥ u < 0 := hu'
  have e : ∀ x, (n + (n ⬝ᵥ u / -(m ⬝ᵥ u)) • m) ⬝ᵥ x = n ⬝ᵥ x + n ⬝ᵥ u / -(m ⬝ᵥ u) * m ⬝ᵥ x := fun x => by
    rw [add_dotProduct, smul_dotProduct, smul_eq_mul]
  refine ⟨n ⬝ᵥ u / -(m ⬝ᵥ u), fun x hx => ?_, u, hu, ?_, hu'⟩
  · rw [e]
    by_cases hx' : m ⬝ᵥ x < 0
    · have a := hmin x ⟨hx, hx'⟩
      rw [div_le_div_iff₀ (by linarith) (by linarith)] at a
      have p : 0 < -(m ⬝ᵥ u) := by linarith
      rw [turn_aux hu'.ne]
      exact div_nonneg (by linarith) p.le
    · have := mul_nonneg (div_nonneg (h u hu) (by linarith : 0 ≤ -(m ⬝ᵥ u))) (not_lt.1 hx')
      linarith [h x hx]
  · rw [e]
    have : m ⬝ᵥ u ≠ 0 := hu'.ne
    field_simp
    ring
/-- The same, if some vector is not perpendicular to the direction of turning. -/
theorem turn_some {k : ℕ} {n w m : Fin k → ℝ} {U : Set (Fin k → ℝ)} (hU : U.Finite) (h : ∀ u ∈ U, 0 ≤ n ⬝ᵥ u) (hm : ∃ u ∈ U, m ⬝ᵥ u ≠ 0) (mw : m ⬝ᵥ w = 0) :
    ∃ n' : Fin k → ℝ, (∀ u ∈ U, 0 ≤ n' ⬝ᵥ u) ∧ n' ⬝ᵥ w = n ⬝ᵥ w ∧ (∀ x, m ⬝ᵥ x = 0 → n' ⬝ᵥ x = n ⬝ᵥ x) ∧ ∃ u ∈ U, n' ⬝ᵥ u = 0 ∧ m ⬝ᵥ u ≠ 0 := by
  obtain ⟨v, hv, hv'⟩ := hm
  rcases lt_or_gt_of_ne hv' with hl | hl
  · obtain ⟨s, a, u, hu, b, c⟩ := turn_until (m := m) hU h ⟨v, hv, hl⟩
    have e : ∀ x, m ⬝ᵥ x = 0 → (n + s • m) ⬝ᵥ x = n ⬝ᵥ x := fun x hx => by rw [add_dotProduct, smul_dotProduct, hx, smul_zero, add_zero]
    exact ⟨_, a, e w mw, e, u, hu, b, c.ne⟩
  · obtain ⟨s, a, u, hu, b, c⟩ := turn_until (m := -m) hU h ⟨v, hv, by rw [neg_dotProduct]; linarith⟩
    have e : ∀ x, m ⬝ᵥ x = 0 → (n + s • -m) ⬝ᵥ x = n ⬝ᵥ x := fun x hx => by rw [add_dotProduct, smul_dotProduct, neg_dotProduct, hx, neg_zero, smul_zero, add_zero]
    refine ⟨_, a, e w mw, e, u, hu, b, ?_⟩
    rw [neg_dotProduct] at c
    intro h0; rw [h0] at c; linarith
/-- The differences of points of one set. -/
def Edge {k : ℕ} (s t : Set (Fin k → ℝ)) (u : Fin k → ℝ) : Prop := (∃ p ∈ s, ∃ q ∈ s, u = q - p) ∨ (∃ p ∈ t, ∃ q ∈ t, u = q - p)
/-- Where to start turning. -/
theorem turn_start {k : ℕ} {s t : Set (Fin k → ℝ)} (hs : s.Finite) (ht : t.Finite) (s0 : s.Nonempty) (t0 : t.Nonempty)
    (h : Disjoint (convexHull ℝ s) (convexHull ℝ t)) : ∃ (n w : Fin k → ℝ) (U : Set (Fin k → ℝ)), U.Finite ∧ (∀ u ∈ U, Edge s t u) ∧ (∀ u ∈ U, 0 ≤ n ⬝ᵥ u) ∧
      0 < n ⬝ᵥ w ∧ (∀ n' : Fin k → ℝ, (∀ u ∈ U, 0 ≤ n' ⬝ᵥ u) → 0 < n' ⬝ᵥ w → ∀ x ∈ s, ∀ y ∈ t, n' ⬝ᵥ x < n' ⬝ᵥ y) ∧
      (∀ m : Fin k → ℝ, (∀ u ∈ U, m ⬝ᵥ u = 0) → ∀ x ∈ s, ∀ y ∈ s, m ⬝ᵥ (y - x) = 0) := by
  obtain ⟨n, hn⟩ := hulls_apart hs ht h
  obtain ⟨p, hp, mp⟩ := Set.exists_max_image s (fun x => n ⬝ᵥ x) hs s0
  obtain ⟨q, hq, mq⟩ := Set.exists_min_image t (fun x => n ⬝ᵥ x) ht t0
  refine ⟨n, q - p, ((fun x => p - x) '' s) ∪ ((fun y => y - q) '' t), (hs.image _).union (ht.image _), ?_, ?_, ?_, ?_, ?_⟩
  · rintro _ (⟨x, hx, rfl⟩ | ⟨y, hy, rfl⟩)
    · exact Or.inl ⟨x, hx, p, hp, rfl⟩
    · exact Or.inr ⟨q, hq, y, hy, rfl⟩
  · rintro _ (⟨x, hx, rfl⟩ | ⟨y, hy, rfl⟩)
    · rw [dotProduct_sub]; linarith [mp x hx]
    · rw [dotProduct_sub]; linarith [mq y hy]
  · rw [dotProduct_sub]; linarith [hn p (subset_convexHull ℝ s hp) q (subset_convexHull ℝ t hq)]
  · intro n' h1 h2 x hx y hy
    have a := h1 _ (Or.inl ⟨x, hx, rfl⟩)
    have b := h1 _ (Or.inr ⟨y, hy, rfl⟩)
    simp only [dotProduct_sub] at a b h2
    linarith
  · intro m hm x hx y hy
    have a := hm _ (Or.inl ⟨x, hx, rfl⟩)
    have b := hm _ (Or.inl ⟨y, hy, rfl⟩)
    simp only [dotProduct_sub] at a b ⊢
    linarith
/-- The sign of an axis does not matter. -/
theorem turn_sign {k : ℕ} {s t : Set (Fin k → ℝ)} {n m : Fin k → ℝ} {c : ℝ} (e : n = c • m) (h : ∀ x ∈ s, ∀ y ∈ t, n ⬝ᵥ x < n ⬝ᵥ y) :
    (∀ x ∈ s, ∀ y ∈ t, m ⬝ᵥ x < m ⬝ᵥ y) ∨ (∀ x ∈ s, ∀ y ∈ t, m ⬝ᵥ y < m ⬝ᵥ x) := by
  subst e
  simp only [smul_dotProduct, smul_eq_mul] at h
  rcases lt_trichotomy c 0 with c0 | c0 | c0
  · right; intro x hx y hy; exact (mul_lt_mul_left_of_neg c0).1 (h x hx y hy)
  · left; intro x hx y hy; have := h x hx y hy; rw [c0] at this; simp at this
  · left; intro x hx y hy; exact (mul_lt_mul_iff_right₀ c0).1 (h x hx y hy)
/-- In the plane: if the points are not on a line, a perpendicular of an edge tells them apart. -/
theorem plane_edges {s t : Set (Fin 2 → ℝ)} (hs : s.Finite) (ht : t.Finite) (t0 : t.Nonempty) {a b c : Fin 2 → ℝ} (ha : a ∈ s) (hb : b ∈ s) (hc : c ∈ s)
    (hd : (b - a) 0 * (c - a) 1 - (b - a) 1 * (c - a) 0 ≠ 0) (h : Disjoint (convexHull ℝ s) (convexHull ℝ t)) :
    ∃ u, Edge s t u ∧ ((∀ x ∈ s, ∀ y ∈ t, ![-u 1, u 0] ⬝ᵥ x < ![-u 1, u 0] ⬝ᵥ y) ∨ (∀ x ∈ s, ∀ y ∈ t, ![-u 1, u 0] ⬝ᵥ y < ![-u 1, u 0] ⬝ᵥ x)) := by
  obtain ⟨n, w, U, hU, hE, hn, hw, hfin, hspan⟩ := turn_start hs ht ⟨a, ha⟩ t0 h
  have w0 : w 0 ^ 2 + w 1 ^ 2 ≠ 0 := by
    intro e
    have e0 : w 0 = 0 := by nlinarith [sq_nonneg (w 0), sq_nonneg (w 1)]
    have e1 : w 1 = 0 := by nlinarith [sq_nonneg (w 0), sq_nonneg (w 1)]
    simp [dotProduct, Fin.sum_univ_two, e0, e1] at hw
  have hm : ∃ u ∈ U, ![-w 1, w 0] ⬝ᵥ u ≠ 0 := by
    by_contra hcon
    push Not at hcon
    have p := hspan _ hcon a ha b hb
    have q := hspan _ hcon a ha c hc
    simp only [dotProduct, Fin.sum_univ_two, Matrix.cons_val_zero, Matrix.cons_val_one] at p q
    apply hd
    have k0 : w 0 * ((b - a) 0 * (c - a) 1 - (b - a) 1 * (c - a) 0) = 0 := by linear_combination (b - a) 0 * q - (c - a) 0 * p
    have k1 : w 1 * ((b - a) 0 * (c - a) 1 - (b - a) 1 * (c - a) 0) = 0 := by linear_combination (b - a) 1 * q - (c - a) 1 * p
    have : (w 0 ^ 2 + w 1 ^ 2) * ((b - a) 0 * (c - a) 1 - (b - a) 1 * (c - a) 0) = 0 := by linear_combination w 0 * k0 + w 1 * k1
    exact (mul_eq_zero.1 this).resolve_left w0
  obtain ⟨n', g, gw, -, u, hu, pu, mu⟩ := turn_some (w := w) hU hn hm (by simp [dotProduct, Fin.sum_univ_two]; ring)
  refine ⟨u, hE u hu, ?_⟩
  have u0 : u 0 ^ 2 + u 1 ^ 2 ≠ 0 := by
    intro e
    have e0 : u 0 = 0 := by nlinarith [sq_nonneg (u 0), sq_nonneg (u 1)]
    have e1 : u 1 = 0 := by nlinarith [sq_nonneg (u 0), sq_nonneg (u 1)]
    simp [dotProduct, Fin.sum_univ_two, e0, e1] at mu
  refine turn_sign (n := n') (c := (n' 1 * u 0 - n' 0 * u 1) / (u 0 ^ 2 + u 1 ^ 2)) ?_ (hfin n' g (by rw [gw]; exact hw))
  simp only [dotProduct, Fin.sum_univ_two] at pu
  funext i
  fin_cases i
  · simp only [Fin.zero_eta, Pi.smul_apply, Matrix.cons_val_zero, smul_eq_mul]
    rw [div_mul_eq_mul_div, eq_div_iff u0]
    linear_combination u 0 * pu
  · change n' 1 = (n' 1 * u 0 - n' 0 * u 1) / (u 0 ^ 2 + u 1 ^ 2) * u 0
    rw [div_mul_eq_mul_div, eq_div_iff u0]
    linear_combination u 1 * pu
/-- In space: if the points are not in a plane, the cross product of two edges tells them apart. -/
theorem space_edges {s t : Set (Fin 3 → ℝ)} (hs : s.Finite) (ht : t.Finite) (t0 : t.Nonempty) {a b c d : Fin 3 → ℝ} (ha : a ∈ s) (hb : b ∈ s) (hc : c ∈ s)
    (hd : d ∈ s) (hD : crossProduct (b - a) (c - a) ⬝ᵥ (d - a) ≠ 0) (h : Disjoint (convexHull ℝ s) (convexHull ℝ t)) :
    ∃ u v, Edge s t u ∧ Edge s t v ∧ ((∀ x ∈ s, ∀ y ∈ t, crossProduct u v ⬝ᵥ x < crossProduct u v ⬝ᵥ y) ∨
      (∀ x ∈ s, ∀ y ∈ t, crossProduct u v ⬝ᵥ y < crossProduct u v ⬝ᵥ x)) := by
  obtain ⟨n, w, U, hU, hE, hn, hw, hfin, hspan⟩ := turn_start hs ht ⟨a, ha⟩ t0 h
  have full : ∀ m : Fin 3 → ℝ, m ≠ 0 → ∃ u ∈ U, m ⬝ᵥ u ≠ 0 := by
    intro m m0
    by_contra hcon
    push Not at hcon
    have p := hspan _ hcon a ha b hb
    have q := hspan _ hcon a ha c hc
    have r := hspan _ hcon a ha d hd
    revert hD p q r
    generalize b - a = B
    generalize c - a = C
    generalize d - a = D
    intro hD p q r
    simp only [cross_apply, dotProduct, Fin.sum_univ_three, Matrix.cons_val_zero, Matrix.cons_val_one, Matrix.cons_val] at hD p q r
    apply m0
    funext i
    have k : m i * ((B 1 * C 2 - B 2 * C 1) * D 0 + (B 2 * C 0 - B 0 * C 2) * D 1 + (B 0 * C 1 - B 1 * C 0) * D 2) = 0 := by
      fin_cases i
      · change m 0 * _ = 0
        linear_combination (C 1 * D 2 - C 2 * D 1) * p + (D 1 * B 2 - D 2 * B 1) * q + (B 1 * C 2 - B 2 * C 1) * r
      · change m 1 * _ = 0
        linear_combination (C 2 * D 0 - C 0 * D 2) * p + (D 2 * B 0 - D 0 * B 2) * q + (B 2 * C 0 - B 0 * C 2) * r
      · change m 2 * _ = 0
        linear_combination (C 0 * D 1 - C 1 * D 0) * p + (D 0 * B 1 - D 1 * B 0) * q + (B 0 * C 1 - B 1 * C 0) * r
    exact (mul_eq_zero.1 k).resolve_right hD
  have flip : ∀ x y z : Fin 3 → ℝ, crossProduct x y ⬝ᵥ z = -(crossProduct x z ⬝ᵥ y) := fun x y z => by
    simp only [cross_apply, dotProduct, Fin.sum_univ_three, Matrix.cons_val_zero, Matrix.cons_val_one, Matrix.cons_val]; ring
  have turn : ∀ x y z : Fin 3 → ℝ, crossProduct x y ⬝ᵥ z = crossProduct y z ⬝ᵥ x := fun x y z => by
    simp only [cross_apply, dotProduct, Fin.sum_univ_three, Matrix.cons_val_zero, Matrix.cons_val_one, Matrix.cons_val]; ring
  have self : ∀ x y : Fin 3 → ℝ, crossProduct x y ⬝ᵥ x = 0 := fun x y => by
    simp only [cross_apply, dotProduct, Fin.sum_univ_three, Matrix.cons_val_zero, Matrix.cons_val_one, Matrix.cons_val]; ring
  have self' : ∀ x y : Fin 3 → ℝ, crossProduct x y ⬝ᵥ y = 0 := fun x y => by
    simp only [cross_apply, dotProduct, Fin.sum_univ_three, Matrix.cons_val_zero, Matrix.cons_val_one, Matrix.cons_val]; ring
  have he : ∃ e, crossProduct w e ≠ 0 := by
    by_contra hcon
    push Not at hcon
    have w0 : w = 0 := by
      have e0 := hcon ![1, 0, 0]
      have e1 := hcon ![0, 1, 0]
      have p1 := congrFun e0 1; have p2 := congrFun e0 2; have p0 := congrFun e1 2
      simp [cross_apply] at p0 p1 p2
      funext i; fin_cases i
      · exact p0
      · exact p2
      · exact p1
    rw [w0, dotProduct_zero] at hw
    exact lt_irrefl _ hw
  obtain ⟨e, he⟩ := he
  obtain ⟨n1, g1, w1, -, u, hu, pu, mu⟩ := turn_some (w := w) hU hn (full _ he) (self w e)
  have m2 : crossProduct w u ≠ 0 := by
    intro k
    rw [flip, k, zero_dotProduct, neg_zero] at mu
    exact mu rfl
  obtain ⟨n2, g2, w2, keep, v, hv, pv, mv⟩ := turn_some (w := w) hU g1 (full _ m2) (self w u)
  have qu := (keep u (self' w u)).trans pu
  rw [turn] at mv
  refine ⟨u, v, hE u hu, hE v hv, ?_⟩
  generalize hx : crossProduct u v = x at mv
  have x0 : x ⬝ᵥ x ≠ 0 := by
    intro k
    rw [dotProduct_self_eq_zero] at k
    rw [k, zero_dotProduct] at mv
    exact mv rfl
  refine turn_sign (n := n2) (c := n2 ⬝ᵥ x / x ⬝ᵥ x) ?_ (hfin n2 g2 (by rw [w2, w1]; exact hw))
  funext i
  rw [Pi.smul_apply, smul_eq_mul, div_mul_eq_mul_div, eq_div_iff x0]
  subst hx
  simp only [dotProduct, Fin.sum_univ_three] at pv qu
  simp only [cross_apply, dotProduct, Fin.sum_univ_three, Matrix.cons_val_zero, Matrix.cons_val_one, Matrix.cons_val]
  generalize ex : u 1 * v 2 - u 2 * v 1 = x0
  generalize ey : u 2 * v 0 - u 0 * v 2 = y0
  generalize ez : u 0 * v 1 - u 1 * v 0 = z0
  have cx : n2 1 * z0 - n2 2 * y0 = 0 := by rw [← ez, ← ey]; linear_combination u 0 * pv - v 0 * qu
  have cy : n2 2 * x0 - n2 0 * z0 = 0 := by rw [← ez, ← ex]; linear_combination u 1 * pv - v 1 * qu
  have cz : n2 0 * y0 - n2 1 * x0 = 0 := by rw [← ex, ← ey]; linear_combination u 2 * pv - v 2 * qu
  fin_cases i
  · change n2 0 * _ = _ * x0
    linear_combination y0 * cz - z0 * cy
  · change n2 1 * _ = _ * y0
    linear_combination z0 * cx - x0 * cz
  · change n2 2 * _ = _ * z0
    linear_combination x0 * cy - y0 * cx
end

/-! ## The library -/
section
theorem Vector2.toReal_turned {v : Vector2 Ideal} (h : AllFinite v) : AllFinite v.turned ∧ v.turned.toReal = ![-v.toReal 1, v.toReal 0] := by
  have h := Vector2.allFinite.1 h
  refine ⟨Vector2.allFinite.2 ⟨IEEE.finite_neg.2 h.2, h.1⟩, ?_⟩
  funext i; fin_cases i
  · exact IEEE.real_neg _
  · rfl
theorem lift_hulls {k : ℕ} {n : Fin k → ℝ} {s t : Set (Fin k → ℝ)} (h : (∀ x ∈ s, ∀ y ∈ t, n ⬝ᵥ x < n ⬝ᵥ y) ∨ (∀ x ∈ s, ∀ y ∈ t, n ⬝ᵥ y < n ⬝ᵥ x)) :
    (∀ x ∈ convexHull ℝ s, ∀ y ∈ convexHull ℝ t, n ⬝ᵥ x < n ⬝ᵥ y) ∨ (∀ x ∈ convexHull ℝ s, ∀ y ∈ convexHull ℝ t, n ⬝ᵥ y < n ⬝ᵥ x) :=
  h.imp hull_lt fun h x hx y hy => hull_lt (fun y hy x hx => h x hx y hy) y hy x hx
/-- **C125**: to find an axis in the plane it is enough to try the perpendiculars of the differences of points of the same set (among them the edges of
the convex hulls), unless the points of the first set lie on a line. -/
theorem C125_edges2 (ps qs : List (Point2 Ideal)) (hq : qs ≠ []) (h : ∀ p, p ∈ ps ∨ p ∈ qs → AllFinite p) (a b c : Point2 Ideal) (ha : a ∈ ps) (hb : b ∈ ps)
    (hc : c ∈ ps) (hd : (Api.dot (Vector2.turned (b - a : Vector2 Ideal)) (c - a : Vector2 Ideal) == (zero : Ideal)) = false) :
    Disjoint (Point2.hull ps) (Point2.hull qs) ↔
      ∃ p q : Point2 Ideal, (p ∈ ps ∧ q ∈ ps ∨ p ∈ qs ∧ q ∈ qs) ∧ (Vector2.turned (q - p : Vector2 Ideal)).separates ps qs = true := by
  have hp : ps ≠ [] := List.ne_nil_of_mem ha
  obtain ⟨q0, hq0⟩ := List.exists_mem_of_ne_nil _ hq
  have fin : ∀ p q : Point2 Ideal, p ∈ ps ∧ q ∈ ps ∨ p ∈ qs ∧ q ∈ qs → AllFinite p ∧ AllFinite q := by
    rintro p q (⟨k, k'⟩ | ⟨k, k'⟩)
    · exact ⟨h p (Or.inl k), h q (Or.inl k')⟩
    · exact ⟨h p (Or.inr k), h q (Or.inr k')⟩
  constructor
  · intro k
    have fb := Vector2.fin_subp (h b (Or.inl hb)) (h a (Or.inl ha))
    have fc := Vector2.fin_subp (h c (Or.inl hc)) (h a (Or.inl ha))
    have hd' : (b.toReal - a.toReal) 0 * (c.toReal - a.toReal) 1 - (b.toReal - a.toReal) 1 * (c.toReal - a.toReal) 0 ≠ 0 := by
      obtain ⟨r1, r2⟩ := Vector2.real_turned fb fc
      rw [← Bool.not_eq_true, Ideal.beq_real r1 finite_zero, r2, real_zero, Vector2.toReal_subp (h b (Or.inl hb)) (h a (Or.inl ha)),
        Vector2.toReal_subp (h c (Or.inl hc)) (h a (Or.inl ha))] at hd
      intro e
      apply hd
      rw [perp]
      linarith
    obtain ⟨u, hu, w⟩ := plane_edges (Point2.hull_finite ps) (Point2.hull_finite qs) ⟨_, q0, hq0, rfl⟩ ⟨a, ha, rfl⟩ ⟨b, hb, rfl⟩ ⟨c, hc, rfl⟩ hd' k
    obtain ⟨p, q, hm, e⟩ : ∃ p q : Point2 Ideal, (p ∈ ps ∧ q ∈ ps ∨ p ∈ qs ∧ q ∈ qs) ∧ u = q.toReal - p.toReal := by
      rcases hu with ⟨_, ⟨p, hp, rfl⟩, _, ⟨q, hq, rfl⟩, e⟩ | ⟨_, ⟨p, hp, rfl⟩, _, ⟨q, hq, rfl⟩, e⟩
      · exact ⟨p, q, Or.inl ⟨hp, hq⟩, e⟩
      · exact ⟨p, q, Or.inr ⟨hp, hq⟩, e⟩
    obtain ⟨fp, fq⟩ := fin p q hm
    obtain ⟨ft, et⟩ := Vector2.toReal_turned (Vector2.fin_subp fq fp)
    refine ⟨p, q, hm, (C125_hulls2 _ ps qs hp hq ft h).2 ?_⟩
    rw [et, Vector2.toReal_subp fq fp, ← e]
    exact lift_hulls w
  · rintro ⟨p, q, hm, k⟩
    obtain ⟨fp, fq⟩ := fin p q hm
    exact (C125_axis2 ps qs hp hq h).2 ⟨_, (Vector2.toReal_turned (Vector2.fin_subp fq fp)).1, k⟩
/-- **C125**: to find an axis in space it is enough to try the cross products of two differences of points, each from the same set (among them the
normals of the faces and the cross products of two edges of the convex hulls), unless the points of the first set lie in a plane. -/
theorem C125_edges3 (ps qs : List (Point3 Ideal)) (hq : qs ≠ []) (h : ∀ p, p ∈ ps ∨ p ∈ qs → AllFinite p) (a b c d : Point3 Ideal) (ha : a ∈ ps) (hb : b ∈ ps)
    (hc : c ∈ ps) (hd : d ∈ ps) (hD : (Api.dot (Api.cross (b - a : Vector3 Ideal) (c - a : Vector3 Ideal)) (d - a : Vector3 Ideal) == (zero : Ideal)) = false) :
    Disjoint (Point3.hull ps) (Point3.hull qs) ↔
      ∃ p q r s : Point3 Ideal, (p ∈ ps ∧ q ∈ ps ∨ p ∈ qs ∧ q ∈ qs) ∧ (r ∈ ps ∧ s ∈ ps ∨ r ∈ qs ∧ s ∈ qs) ∧
        (Api.cross (q - p : Vector3 Ideal) (s - r : Vector3 Ideal)).separates ps qs = true := by
  have hp : ps ≠ [] := List.ne_nil_of_mem ha
  obtain ⟨q0, hq0⟩ := List.exists_mem_of_ne_nil _ hq
  have fin : ∀ p q : Point3 Ideal, p ∈ ps ∧ q ∈ ps ∨ p ∈ qs ∧ q ∈ qs → AllFinite p ∧ AllFinite q := by
    rintro p q (⟨k, k'⟩ | ⟨k, k'⟩)
    · exact ⟨h p (Or.inl k), h q (Or.inl k')⟩
    · exact ⟨h p (Or.inr k), h q (Or.inr k')⟩
  constructor
  · intro k
    have fa := h a (Or.inl ha)
    have fb := Vector3.fin_subp (h b (Or.inl hb)) fa
    have fc := Vector3.fin_subp (h c (Or.inl hc)) fa
    have fd := Vector3.fin_subp (h d (Or.inl hd)) fa
    have hD' : crossProduct (b.toReal - a.toReal) (c.toReal - a.toReal) ⬝ᵥ (d.toReal - a.toReal) ≠ 0 := by
      rw [← Bool.not_eq_true, Ideal.beq_real (Vector3.fin_dot (Vector3.fin_cross fb fc) fd) finite_zero, Vector3.real_dot (Vector3.fin_cross fb fc) fd, real_zero,
        Vector3.toReal_cross fb fc, Vector3.toReal_subp (h b (Or.inl hb)) fa, Vector3.toReal_subp (h c (Or.inl hc)) fa,
        Vector3.toReal_subp (h d (Or.inl hd)) fa] at hD
      exact hD
    obtain ⟨u, v, hu, hv, w⟩ := space_edges (Point3.hull_finite ps) (Point3.hull_finite qs) ⟨_, q0, hq0, rfl⟩ ⟨a, ha, rfl⟩ ⟨b, hb, rfl⟩ ⟨c, hc, rfl⟩ ⟨d, hd, rfl⟩ hD' k
    have pick : ∀ u, Edge {x | ∃ p ∈ ps, x = p.toReal} {x | ∃ p ∈ qs, x = p.toReal} u →
        ∃ p q : Point3 Ideal, (p ∈ ps ∧ q ∈ ps ∨ p ∈ qs ∧ q ∈ qs) ∧ u = q.toReal - p.toReal := by
      rintro u (⟨_, ⟨p, hp, rfl⟩, _, ⟨q, hq, rfl⟩, e⟩ | ⟨_, ⟨p, hp, rfl⟩, _, ⟨q, hq, rfl⟩, e⟩)
      · exact ⟨p, q, Or.inl ⟨hp, hq⟩, e⟩
      · exact ⟨p, q, Or.inr ⟨hp, hq⟩, e⟩
    obtain ⟨p, q, hm, e⟩ := pick u hu
    obtain ⟨r, s, hm', e'⟩ := pick v hv
    obtain ⟨fp, fq⟩ := fin p q hm
    obtain ⟨fr, fs⟩ := fin r s hm'
    have f1 := Vector3.fin_subp fq fp
    have f2 := Vector3.fin_subp fs fr
    refine ⟨p, q, r, s, hm, hm', (C125_hulls3 _ ps qs hp hq (Vector3.fin_cross f1 f2) h).2 ?_⟩
    rw [Vector3.toReal_cross f1 f2, Vector3.toReal_subp fq fp, Vector3.toReal_subp fs fr, ← e, ← e']
    exact lift_hulls w
  · rintro ⟨p, q, r, s, hm, hm', k⟩
    obtain ⟨fp, fq⟩ := fin p q hm
    obtain ⟨fr, fs⟩ := fin r s hm'
    exact (C125_axis3 ps qs hp hq h).2 ⟨_, Vector3.fin_cross (Vector3.fin_subp fq fp) (Vector3.fin_subp fs fr), k⟩
end

/-! ## The hypotheses are met -/
section
/-- A point with real coordinates. -/
noncomputable def ipt2 (x y : ℝ) : Point2 Ideal := ⟨Ideal.of x, Ideal.of y⟩
/-- A point with real coordinates. -/
noncomputable def ipt3 (x y z : ℝ) : Point3 Ideal := ⟨Ideal.of x, Ideal.of y, Ideal.of z⟩
theorem fin_ipt2 {x y : ℝ} : AllFinite (ipt2 x y) := Point2.allFinite.2 ⟨Ideal.finite_of _, Ideal.finite_of _⟩
theorem fin_ipt3 {x y z : ℝ} : AllFinite (ipt3 x y z) := Point3.allFinite.2 ⟨Ideal.finite_of _, Ideal.finite_of _, Ideal.finite_of _⟩
theorem real_ipt2 {x y : ℝ} : (ipt2 x y).toReal = ![x, y] := by ext i; fin_cases i <;> exact Ideal.real_of _
theorem real_ipt3 {x y z : ℝ} : (ipt3 x y z).toReal = ![x, y, z] := by ext i; fin_cases i <;> exact Ideal.real_of _
/-- A triangle and a point beyond its long side: one of the sides tells them apart. -/
example : ∃ p q : Point2 Ideal, (p ∈ [ipt2 0 0, ipt2 1 0, ipt2 0 1] ∧ q ∈ [ipt2 0 0, ipt2 1 0, ipt2 0 1] ∨ p ∈ [ipt2 1 1] ∧ q ∈ [ipt2 1 1]) ∧
    (Vector2.turned (q - p : Vector2 Ideal)).separates [ipt2 0 0, ipt2 1 0, ipt2 0 1] [ipt2 1 1] = true := by
  refine (C125_edges2 [ipt2 0 0, ipt2 1 0, ipt2 0 1] [ipt2 1 1] (by simp) ?_ (ipt2 0 0) (ipt2 1 0) (ipt2 0 1) (by simp) (by simp) (by simp) ?_).1 ?_
  · simp only [List.mem_cons, List.not_mem_nil, or_false]
    rintro p ((rfl | rfl | rfl) | rfl) <;> exact fin_ipt2
  · obtain ⟨r1, r2⟩ := Vector2.real_turned (Vector2.fin_subp (fin_ipt2 (x := 1) (y := 0)) (fin_ipt2 (x := 0) (y := 0)))
      (Vector2.fin_subp (fin_ipt2 (x := 0) (y := 1)) (fin_ipt2 (x := 0) (y := 0)))
    rw [← Bool.not_eq_true, Ideal.beq_real r1 finite_zero, r2, real_zero, Vector2.toReal_subp fin_ipt2 fin_ipt2, Vector2.toReal_subp fin_ipt2 fin_ipt2,
      real_ipt2, real_ipt2, real_ipt2]
    simp [perp]
  · rw [Set.disjoint_left]
    intro x hx hy
    refine lt_irrefl _ (hull_lt (n := ![1, 1]) ?_ x hx x hy)
    simp only [List.mem_cons, List.not_mem_nil, or_false]
    rintro _ ⟨p, (rfl | rfl | rfl), rfl⟩ _ ⟨q, rfl, rfl⟩ <;> rw [real_ipt2, real_ipt2] <;> simp [dotProduct, Fin.sum_univ_two] <;> norm_num
/-- A tetrahedron and a point beyond one of its faces. -/
example : ∃ p q r s : Point3 Ideal, (p ∈ [ipt3 0 0 0, ipt3 1 0 0, ipt3 0 1 0, ipt3 0 0 1] ∧ q ∈ [ipt3 0 0 0, ipt3 1 0 0, ipt3 0 1 0, ipt3 0 0 1] ∨
      p ∈ [ipt3 1 1 1] ∧ q ∈ [ipt3 1 1 1]) ∧ (r ∈ [ipt3 0 0 0, ipt3 1 0 0, ipt3 0 1 0, ipt3 0 0 1] ∧ s ∈ [ipt3 0 0 0, ipt3 1 0 0, ipt3 0 1 0, ipt3 0 0 1] ∨
      r ∈ [ipt3 1 1 1] ∧ s ∈ [ipt3 1 1 1]) ∧
    (Api.cross (q - p : Vector3 Ideal) (s - r : Vector3 Ideal)).separates [ipt3 0 0 0, ipt3 1 0 0, ipt3 0 1 0, ipt3 0 0 1] [ipt3 1 1 1] = true := by
  refine (C125_edges3 [ipt3 0 0 0, ipt3 1 0 0, ipt3 0 1 0, ipt3 0 0 1] [ipt3 1 1 1] (by simp) ?_ (ipt3 0 0 0) (ipt3 1 0 0) (ipt3 0 1 0) (ipt3 0 0 1)
    (by simp) (by simp) (by simp) (by simp) ?_).1 ?_
  · simp only [List.mem_cons, List.not_mem_nil, or_false]
    rintro p ((rfl | rfl | rfl | rfl) | rfl) <;> exact fin_ipt3
  · have fb := Vector3.fin_subp (fin_ipt3 (x := 1) (y := 0) (z := 0)) (fin_ipt3 (x := 0) (y := 0) (z := 0))
    have fc := Vector3.fin_subp (fin_ipt3 (x := 0) (y := 1) (z := 0)) (fin_ipt3 (x := 0) (y := 0) (z := 0))
    have fd := Vector3.fin_subp (fin_ipt3 (x := 0) (y := 0) (z := 1)) (fin_ipt3 (x := 0) (y := 0) (z := 0))
    rw [← Bool.not_eq_true, Ideal.beq_real (Vector3.fin_dot (Vector3.fin_cross fb fc) fd) finite_zero, Vector3.real_dot (Vector3.fin_cross fb fc) fd, real_zero,
      Vector3.toReal_cross fb fc, Vector3.toReal_subp fin_ipt3 fin_ipt3, Vector3.toReal_subp fin_ipt3 fin_ipt3, Vector3.toReal_subp fin_ipt3 fin_ipt3,
      real_ipt3, real_ipt3, real_ipt3, real_ipt3]
    simp [cross_apply, dotProduct, Fin.sum_univ_three]
  · rw [Set.disjoint_left]
    intro x hx hy
    refine lt_irrefl _ (hull_lt (n := ![1, 1, 1]) ?_ x hx x hy)
    simp only [List.mem_cons, List.not_mem_nil, or_false]
    rintro _ ⟨p, (rfl | rfl | rfl | rfl), rfl⟩ _ ⟨q, rfl, rfl⟩ <;> rw [real_ipt3, real_ipt3] <;> simp [dotProduct, Fin.sum_univ_three] <;> norm_num
end

end VecMath

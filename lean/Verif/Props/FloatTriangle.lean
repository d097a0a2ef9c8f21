import Verif.Props.RealTriangle
import Verif.Props.FloatExact
import Verif.Props.FloatFoot
import Verif.Props.FloatSide
/-!
# Rays and triangles in floating point (layer F): C113
-/

open Classical
set_option linter.unusedSectionVars false

namespace VecMath
open Scalar IEEE

section any
variable {S : Type} [Scalar S] [IEEE S]
theorem div_zero_not_fin {a b : S} (hb : IsFinite b) (h : real b = 0) : ¬ IsFinite (a / b) := by
  have key : den (a / b) = .nan ∨ ∃ t, den (a / b) = .inf t := by
    rw [den_div]
    unfold IsFinite at hb
    unfold real at h
    induction den a using Val.cases_inf_fin with
    | hn => left; simp
    | hi s => right; exact ⟨_, Rounding.div_inf_fin _ s hb⟩
    | hf x hx =>
      rw [Rounding.div_fin _ hx hb, if_pos h]
      split
      · exact .inl rfl
      · exact .inr ⟨_, rfl⟩
  unfold IsFinite
  rcases key with e | ⟨t, e⟩ <;> rw [e] <;> simp
theorem part_le {u v w : S} (hv : (zero ≤? v) = true) (h : (u + v ≤? w) = true) : (u ≤? w) = true := by
  obtain ⟨-, nv, lv⟩ := le_iff.1 hv
  obtain ⟨ns, nw, ls⟩ := le_iff.1 h
  have nu := (nan_of_add ns).1
  have e : num (u + zero) = num u := IEEE.num_add_zero u
  have nz : ¬ IsNaN (u + zero) := by rw [isNaN_iff_num, e, ← isNaN_iff_num]; exact nu
  refine le_iff.2 ⟨nu, nw, le_trans ?_ ls⟩
  have := val_add_mono (le_refl (val u)) lv nz ns
  rwa [val_num (u + zero), e, ← val_num] at this
theorem num_add_comm' (a b : S) : num (a + b) = num (b + a) := (same_add_comm a b).num
theorem part_le' {u v w : S} (hu : (zero ≤? u) = true) (h : (u + v ≤? w) = true) : (v ≤? w) = true := by
  obtain ⟨ns, nw, ls⟩ := le_iff.1 h
  have e := num_add_comm' u v
  refine part_le hu (le_iff.2 ⟨?_, nw, ?_⟩)
  · rw [isNaN_iff_num, ← e, ← isNaN_iff_num]; exact ns
  · rwa [val_num, ← e, ← val_num]
theorem fin_of_unit {u : S} (h0 : (zero ≤? u) = true) (h1 : (u ≤? one) = true) : IsFinite u ∧ 0 ≤ real u ∧ real u ≤ 1 := by
  obtain ⟨-, nu, l0⟩ := le_iff.1 h0
  obtain ⟨-, -, l1⟩ := le_iff.1 h1
  rw [finite_zero.val, real_zero] at l0
  rw [finite_one.val, real_one] at l1
  have f : IsFinite u := by
    rw [finite_iff]
    refine ⟨nu, fun h => ?_, fun h => ?_⟩
    · rw [h] at l1; exact absurd l1 (not_le.2 (EReal.coe_lt_top _))
    · rw [h] at l0; exact absurd l0 (not_le.2 (EReal.bot_lt_coe _))
  rw [f.val, EReal.coe_le_coe_iff] at l0 l1
  exact ⟨f, l0, l1⟩
theorem Ray3.hitTriangle_some {r : Ray3 S} {k : Triangle S} {t u v : S} (h : r.hitTriangle k = some (t, u, v)) :
    (t = r.triT k / r.triDet k ∧ u = r.triU k / r.triDet k ∧ v = r.triV k / r.triDet k) ∧
    (zero ≤? u) = true ∧ (zero ≤? v) = true ∧ (u + v ≤? one) = true ∧ (zero ≤? t) = true := by
  unfold Ray3.hitTriangle at h
  simp only at h
  split at h
  · rename_i hc
    obtain ⟨rfl, rfl, rfl⟩ : _ = t ∧ _ = u ∧ _ = v := by simpa using h
    simp only [Bool.and_eq_true] at hc
    exact ⟨⟨rfl, rfl, rfl⟩, hc.1.1.1, hc.1.1.2, hc.1.2, hc.2⟩
  · cases h
/-- **C113**: for every ray and triangle whatsoever, in any arithmetic of the family, a reported distance is a number that is not negative,
and the reported weights are finite numbers from 0 to 1. -/
theorem C113_any (r : Ray3 S) (k : Triangle S) (t u v : S) (h : r.hitTriangle k = some (t, u, v)) :
    (zero ≤? t) = true ∧ (IsFinite u ∧ 0 ≤ real u ∧ real u ≤ 1) ∧ (IsFinite v ∧ 0 ≤ real v ∧ real v ≤ 1) := by
  obtain ⟨-, h1, h2, h3, h4⟩ := Ray3.hitTriangle_some h
  exact ⟨h4, fin_of_unit h1 (part_le h2 h3), fin_of_unit h2 (part_le' h1 h3)⟩
/-- **C113**: nothing is reported when the computed determinant is a zero, or any of the numbers computed is NaN. -/
theorem C113_none (r : Ray3 S) (k : Triangle S)
    (h : (IsFinite (r.triDet k) ∧ real (r.triDet k) = 0) ∨ IsNaN (r.triDet k) ∨ IsNaN (r.triU k) ∨ IsNaN (r.triV k) ∨ IsNaN (r.triT k)) :
    r.hitTriangle k = none ∧ r.hitsTriangle k = false := by
  constructor
  · rw [Option.eq_none_iff_forall_ne_some]
    rintro ⟨t, u, v⟩ e
    obtain ⟨h1, h2, h3⟩ := C113_any r k t u v e
    obtain ⟨⟨rfl, rfl, rfl⟩, -⟩ := Ray3.hitTriangle_some e
    rcases h with h | h | h | h | h
    · exact div_zero_not_fin h.1 h.2 h2.1
    · exact h2.1.not_nan (isNaN_div_right h)
    · exact h2.1.not_nan (isNaN_div_left h)
    · exact h3.1.not_nan (isNaN_div_left h)
    · exact (le_iff.1 h1).2.1 (isNaN_div_left h)
  · rw [Bool.eq_false_iff]
    unfold Ray3.hitsTriangle
    simp only [ne_eq, Bool.or_eq_true, Bool.and_eq_true, lt_iff, le_iff]
    rcases h with h | h | h | h | h
    · have : val (r.triDet k) = val (zero : S) := by rw [h.1.val, finite_zero.val, h.2, real_zero]
      rw [this]; simp
    all_goals tauto
end any

section grid
variable {S : Type} [Scalar S] [IEEE S] [Binary S] {e f : ℤ} {M N : ℕ}
/-- The decision from the four numbers. -/
theorem Ray3.hits_real {r : Ray3 S} {k : Triangle S} (hf : r.TriFinite k) : r.hitsTriangle k = true ↔
    (0 < real (r.triDet k) ∧ 0 ≤ real (r.triU k) ∧ 0 ≤ real (r.triV k) ∧ real (r.triU k + r.triV k) ≤ real (r.triDet k) ∧ 0 ≤ real (r.triT k)) ∨
    (real (r.triDet k) < 0 ∧ real (r.triU k) ≤ 0 ∧ real (r.triV k) ≤ 0 ∧ real (r.triDet k) ≤ real (r.triU k + r.triV k) ∧ real (r.triT k) ≤ 0) := by
  obtain ⟨fD, fT, fUV⟩ := hf
  obtain ⟨fU, fV⟩ := finite_of_add fUV
  unfold Ray3.hitsTriangle
  simp only [Bool.or_eq_true, Bool.and_eq_true, olt_real finite_zero fD, olt_real fD finite_zero, ole_real finite_zero fU, ole_real fU finite_zero,
    ole_real finite_zero fV, ole_real fV finite_zero, ole_real finite_zero fT, ole_real fT finite_zero, ole_real fUV fD, ole_real fD fUV, real_zero]
  tauto
theorem G.triple {p q w : Vector3 S} {P Q W : Fin 3 → ℝ} {A B C : ℕ} {a b c : ℤ} (px : G a A p.x (P 0)) (py : G a A p.y (P 1)) (pz : G a A p.z (P 2))
    (qx : G b B q.x (Q 0)) (qy : G b B q.y (Q 1)) (qz : G b B q.z (Q 2)) (wx : G c C w.x (W 0)) (wy : G c C w.y (W 1)) (wz : G c C w.z (W 2))
    (h1 : Fits S (b + c) (2 * (B * C))) (h2 : Fits S (a + (b + c)) (3 * (A * (2 * (B * C))))) :
    G (a + (b + c)) (3 * (A * (2 * (B * C)))) (Api.dot p (Api.cross q w : Vector3 S)) (P ⬝ᵥ crossProduct Q W) := by
  have x := G.two qy qz wz wy h1
  have y := G.two qz qx wx wz h1
  have z := G.two qx qy wy wx h1
  refine (G.dot3 px py pz x y z h2).congr ?_
  rw [cross_apply]
  simp [dotProduct, Fin.sum_univ_three]
/-- **C113**: on a grid (for instance integer coordinates) that fits the format, `hitsTriangle` is right about every ray and every triangle, however
thin or far away: it says whether they have a point in common, and it says no when they are parallel. -/
theorem C113_grid (r : Ray3 S) (k : Triangle S) (hr : AllFinite r) (hk : k.Finite) (go : ∀ i, OnGrid e N (r.origin.toReal i)) (gd : ∀ i, OnGrid f M (r.direction.toReal i))
    (ga : ∀ i, OnGrid e N (k.a.toReal i)) (gb : ∀ i, OnGrid e N (k.b.toReal i)) (gc : ∀ i, OnGrid e N (k.c.toReal i))
    (h1 : Fits S e (2 * N)) (h2 : Fits S (f + e) (4 * (M * N))) (h3 : Fits S (e + e) (8 * (N * N))) (h4 : Fits S (f + (e + e)) (48 * (M * (N * N)))) (h5 : Fits S (e + (e + e)) (48 * (N * (N * N)))) :
    r.hitsTriangle k = true ↔
      (¬ Parallel3 r.direction.toReal k.a.toReal k.b.toReal k.c.toReal ∧ Meets r.origin.toReal r.direction.toReal k.a.toReal k.b.toReal k.c.toReal) := by
  rw [Ray3.allFinite, Point3.allFinite, Vector3.allFinite] at hr
  obtain ⟨⟨o1, o2, o3⟩, d1, d2, d3⟩ := hr
  obtain ⟨ha, hb, hc⟩ := hk
  rw [Point3.allFinite] at ha hb hc
  have h1 : Fits S e (N + N) := h1.mono (by omega)
  have df : ∀ {p q : Point3 S}, (IsFinite p.x ∧ IsFinite p.y ∧ IsFinite p.z) → (IsFinite q.x ∧ IsFinite q.y ∧ IsFinite q.z) → (∀ i, OnGrid e N (p.toReal i)) → (∀ i, OnGrid e N (q.toReal i)) →
      G e (N + N) (p.x - q.x) ((p.toReal - q.toReal) 0) ∧ G e (N + N) (p.y - q.y) ((p.toReal - q.toReal) 1) ∧ G e (N + N) (p.z - q.z) ((p.toReal - q.toReal) 2) :=
    fun hp hq gp gq => ⟨(G.of hp.1 (gp 0)).sub (G.of hq.1 (gq 0)) h1, (G.of hp.2.1 (gp 1)).sub (G.of hq.2.1 (gq 1)) h1, (G.of hp.2.2 (gp 2)).sub (G.of hq.2.2 (gq 2)) h1⟩
  obtain ⟨ox, oy, oz⟩ := df ⟨o1, o2, o3⟩ ha go ga
  obtain ⟨bx, b_, bz⟩ := df hb ha gb ga
  obtain ⟨cx, cy, cz⟩ := df hc ha gc ga
  have dx : G f M r.direction.x (r.direction.toReal 0) := G.of d1 (gd 0)
  have dy : G f M r.direction.y (r.direction.toReal 1) := G.of d2 (gd 1)
  have dz : G f M r.direction.z (r.direction.toReal 2) := G.of d3 (gd 2)
  have e1 : 2 * (M * (N + N)) = 4 * (M * N) := by ring
  have e2 : 3 * ((N + N) * (2 * (M * (N + N)))) = 24 * (M * (N * N)) := by ring
  have e3 : 2 * ((N + N) * (N + N)) = 8 * (N * N) := by ring
  have e4 : 3 * (M * (2 * ((N + N) * (N + N)))) = 24 * (M * (N * N)) := by ring
  have e5 : 3 * ((N + N) * (2 * ((N + N) * (N + N)))) = 48 * (N * (N * N)) := by ring
  have x1 : e + (f + e) = f + (e + e) := by ring
  have F2 : Fits S (f + e) (2 * (M * (N + N))) := by rw [e1]; exact h2
  have F3 : Fits S (e + e) (2 * ((N + N) * (N + N))) := by rw [e3]; exact h3
  have F4 : Fits S (e + (f + e)) (3 * ((N + N) * (2 * (M * (N + N))))) := by rw [e2, x1]; exact h4.mono (by omega)
  have F4' : Fits S (f + (e + e)) (3 * (M * (2 * ((N + N) * (N + N))))) := by rw [e4]; exact h4.mono (by omega)
  have F5 : Fits S (e + (e + e)) (3 * ((N + N) * (2 * ((N + N) * (N + N))))) := by rw [e5]; exact h5
  have gD : G _ _ (r.triDet k) (detR r.direction.toReal k.a.toReal k.b.toReal k.c.toReal) :=
    G.triple (p := (k.b - k.a : Vector3 S)) (w := (k.c - k.a : Vector3 S)) bx b_ bz dx dy dz cx cy cz F2 F4
  have gU : G _ _ (r.triU k) (numU r.origin.toReal r.direction.toReal k.a.toReal k.c.toReal) :=
    G.triple (p := (r.origin - k.a : Vector3 S)) (w := (k.c - k.a : Vector3 S)) ox oy oz dx dy dz cx cy cz F2 F4
  have gV : G _ _ (r.triV k) (numV r.origin.toReal r.direction.toReal k.a.toReal k.b.toReal) :=
    G.triple (q := (r.origin - k.a : Vector3 S)) (w := (k.b - k.a : Vector3 S)) dx dy dz ox oy oz bx b_ bz F3 F4'
  have gT : G _ _ (r.triT k) (numT r.origin.toReal k.a.toReal k.b.toReal k.c.toReal) :=
    G.triple (p := (k.c - k.a : Vector3 S)) (q := (r.origin - k.a : Vector3 S)) (w := (k.b - k.a : Vector3 S)) cx cy cz ox oy oz bx b_ bz F3 F5
  have gUV := ((gU.exp x1).add gV (h4.mono (by omega))).ex
  rw [Ray3.hits_real ⟨gD.ex.1, gT.ex.1, gUV.1⟩, gD.ex.2, gU.ex.2, gV.ex.2, gT.ex.2, gUV.2]
  by_cases h : detR r.direction.toReal k.a.toReal k.b.toReal k.c.toReal = 0
  · have := (det_parallel _ _ _ _).1 h
    simp [h, this]
  · have n : ¬ Parallel3 r.direction.toReal k.a.toReal k.b.toReal k.c.toReal := fun k => h ((det_parallel _ _ _ _).2 k)
    rw [meets_signs _ _ _ _ _ h]
    simp only [n, not_false_eq_true, true_and]
theorem Parallel3.turn {d a b c : Fin 3 → ℝ} (h : Parallel3 d a b c) : Parallel3 d b c a := by
  obtain ⟨x, y, z, h0, h⟩ := h
  refine ⟨x, z, -y - z, ?_, ?_⟩
  · by_contra k
    push Not at k
    obtain ⟨k1, k2, k3⟩ := k
    rcases h0 with h0 | h0 | h0
    · exact h0 k1
    · exact h0 (by linarith)
    · exact h0 k2
  · rw [← h]; module
theorem Parallel3.swap {d a b c : Fin 3 → ℝ} (h : Parallel3 d a b c) : Parallel3 d a c b := by
  obtain ⟨x, y, z, h0, h⟩ := h
  exact ⟨x, z, y, by tauto, by rw [← h]; module⟩
/-- **C113**: on such a grid the answer does not depend on the order in which the corners are given. -/
theorem C113_order (r : Ray3 S) (k : Triangle S) (hr : AllFinite r) (hk : k.Finite) (go : ∀ i, OnGrid e N (r.origin.toReal i)) (gd : ∀ i, OnGrid f M (r.direction.toReal i))
    (ga : ∀ i, OnGrid e N (k.a.toReal i)) (gb : ∀ i, OnGrid e N (k.b.toReal i)) (gc : ∀ i, OnGrid e N (k.c.toReal i))
    (h1 : Fits S e (2 * N)) (h2 : Fits S (f + e) (4 * (M * N))) (h3 : Fits S (e + e) (8 * (N * N))) (h4 : Fits S (f + (e + e)) (48 * (M * (N * N)))) (h5 : Fits S (e + (e + e)) (48 * (N * (N * N)))) :
    r.hitsTriangle ⟨k.b, k.c, k.a⟩ = r.hitsTriangle k ∧ r.hitsTriangle ⟨k.a, k.c, k.b⟩ = r.hitsTriangle k := by
  constructor
  · rw [Bool.eq_iff_iff, C113_grid r k hr hk go gd ga gb gc h1 h2 h3 h4 h5, C113_grid r ⟨k.b, k.c, k.a⟩ hr ⟨hk.2.1, hk.2.2, hk.1⟩ go gd gb gc ga h1 h2 h3 h4 h5]
    exact ⟨fun h => ⟨fun p => h.1 p.turn, h.2.turn.turn⟩, fun h => ⟨fun p => h.1 p.turn.turn, h.2.turn⟩⟩
  · rw [Bool.eq_iff_iff, C113_grid r k hr hk go gd ga gb gc h1 h2 h3 h4 h5, C113_grid r ⟨k.a, k.c, k.b⟩ hr ⟨hk.1, hk.2.2, hk.2.1⟩ go gd ga gc gb h1 h2 h3 h4 h5]
    exact ⟨fun h => ⟨fun p => h.1 p.swap, h.2.swap⟩, fun h => ⟨fun p => h.1 p.swap, h.2.swap⟩⟩
end grid

section near
variable {S : Type} [Scalar S] [IEEE S] [Binary S]
theorem Approx.pair {a b c d : S} {k l : ℕ} {x y z w : ℝ} (ha : Approx k 0 a x |x|) (hb : Approx l 0 b y |y|) (hc : Approx k 0 c z |z|) (hd : Approx l 0 d w |w|)
    (h : IsFinite (a * b - c * d)) : Approx (k + l + 2) (2 * (1 + uro S) * tiny S) (a * b - c * d) (x * y - z * w) (|x| * |y| + |z| * |w|) := by
  obtain ⟨h1, h2⟩ := finite_of_sub h
  refine ((ha.mul hb h1).sub (hc.mul hd h2) h).mono (by omega) (le_of_eq ?_)
  ring
theorem Approx.term {a c : S} {k l : ℕ} {x y A M : ℝ} (ha : Approx k 0 a x |x|) (hk : k ≤ 1) (hx : |x| ≤ M) (hc : Approx l (2 * (1 + uro S) * tiny S) c y A) (h : IsFinite (a * c)) :
    Approx (k + l + 1) ((1 + uro S) ^ 3 * (2 * M + 1) * tiny S) (a * c) (x * y) (|x| * A) := by
  refine (ha.mul hc h).mono le_rfl ?_
  have hu := uro_pos (S := S)
  have ht := tiny_pos (S := S)
  have w1 : (1 + uro S) ^ k ≤ 1 + uro S := by
    have := pow_le_pow_right₀ (show 1 ≤ 1 + uro S by linarith) hk
    simpa using this
  have w3 : 1 ≤ (1 + uro S) ^ 3 := one_le_pow (S := S) 3
  have M0 := (abs_nonneg x).trans hx
  have a1 : (1 + uro S) ^ k * |x| ≤ (1 + uro S) * M := mul_le_mul w1 hx (abs_nonneg _) (by linarith)
  have a2 := mul_le_mul_of_nonneg_right a1 (show 0 ≤ (1 + uro S) * (2 * (1 + uro S) * tiny S) by positivity)
  have a3 := mul_le_mul_of_nonneg_right w3 ht.le
  have e1 : (1 + uro S) * ((1 + uro S) ^ k * |x| * (2 * (1 + uro S) * tiny S) + (1 + uro S) ^ l * A * 0 + 0 * (2 * (1 + uro S) * tiny S)) + tiny S =
    (1 + uro S) ^ k * |x| * ((1 + uro S) * (2 * (1 + uro S) * tiny S)) + tiny S := by ring
  have e2 : (1 + uro S) ^ 3 * (2 * M + 1) * tiny S = (1 + uro S) * M * ((1 + uro S) * (2 * (1 + uro S) * tiny S)) + (1 + uro S) ^ 3 * tiny S := by ring
  rw [e1, e2]; linarith
theorem Approx.triple {p q w : Vector3 S} {P Q W : Fin 3 → ℝ} {a b c : ℕ} {M : ℝ} (ha : a ≤ 1) (hs : a + b + c ≤ 3)
    (px : Approx a 0 p.x (P 0) |P 0|) (py : Approx a 0 p.y (P 1) |P 1|) (pz : Approx a 0 p.z (P 2) |P 2|)
    (qx : Approx b 0 q.x (Q 0) |Q 0|) (qy : Approx b 0 q.y (Q 1) |Q 1|) (qz : Approx b 0 q.z (Q 2) |Q 2|)
    (wx : Approx c 0 w.x (W 0) |W 0|) (wy : Approx c 0 w.y (W 1) |W 1|) (wz : Approx c 0 w.z (W 2) |W 2|)
    (hM : ∀ i, |P i| ≤ M) (h : IsFinite (Api.dot p (Api.cross q w : Vector3 S))) :
    |real (Api.dot p (Api.cross q w : Vector3 S)) - P ⬝ᵥ crossProduct Q W| ≤ triErr S M P Q W := by
  have h : IsFinite (p.x * (q.y * w.z - q.z * w.y) + p.y * (q.z * w.x - q.x * w.z) + p.z * (q.x * w.y - q.y * w.x)) := h
  obtain ⟨h12, h3⟩ := finite_of_add h
  obtain ⟨h1, h2⟩ := finite_of_add h12
  have t1 := Approx.term px ha (hM 0) (Approx.pair qy wz qz wy (finite_of_mul h1).2) h1
  have t2 := Approx.term py ha (hM 1) (Approx.pair qz wx qx wz (finite_of_mul h2).2) h2
  have t3 := Approx.term pz ha (hM 2) (Approx.pair qx wy qy wx (finite_of_mul h3).2) h3
  have ht := tiny_pos (S := S)
  have hu := uro_pos (S := S)
  have M0 := (abs_nonneg (P 0)).trans (hM 0)
  have T0 : 0 ≤ (1 + uro S) ^ 3 * (2 * M + 1) * tiny S := by positivity
  have s := Approx.acc T0 (by omega) (Approx.acc T0 le_rfl t1.start t2 h12) t3 h
  have s := s.mono (l := 8) (t := 3 * (1 + uro S) ^ 5 * (2 * M + 1) * tiny S) (by omega) (le_of_eq (by push_cast; ring))
  have s := s.2
  unfold triErr
  have e : P ⬝ᵥ crossProduct Q W = P 0 * (Q 1 * W 2 - Q 2 * W 1) + P 1 * (Q 2 * W 0 - Q 0 * W 2) + P 2 * (Q 0 * W 1 - Q 1 * W 0) := by
    rw [cross_apply]; simp [dotProduct, Fin.sum_univ_three]
  rw [e]
  exact s
/-- **C113**: without overflow the four numbers computed differ from the exact ones by at most eight roundings relative to the sum of the
absolute values of the six terms, and the underflow. `M` bounds the direction and the differences of the points. -/
theorem C113_error (r : Ray3 S) (k : Triangle S) (hf : r.TriFinite k) (M : ℝ) (hd : ∀ i, |r.direction.toReal i| ≤ M) (ho : ∀ i, |(r.origin.toReal - k.a.toReal) i| ≤ M)
    (hb : ∀ i, |(k.b.toReal - k.a.toReal) i| ≤ M) (hc : ∀ i, |(k.c.toReal - k.a.toReal) i| ≤ M) :
    |real (r.triDet k) - detR r.direction.toReal k.a.toReal k.b.toReal k.c.toReal| ≤ triErr S M (k.b.toReal - k.a.toReal) r.direction.toReal (k.c.toReal - k.a.toReal) ∧
    |real (r.triU k) - numU r.origin.toReal r.direction.toReal k.a.toReal k.c.toReal| ≤ triErr S M (r.origin.toReal - k.a.toReal) r.direction.toReal (k.c.toReal - k.a.toReal) ∧
    |real (r.triV k) - numV r.origin.toReal r.direction.toReal k.a.toReal k.b.toReal| ≤ triErr S M r.direction.toReal (r.origin.toReal - k.a.toReal) (k.b.toReal - k.a.toReal) ∧
    |real (r.triT k) - numT r.origin.toReal k.a.toReal k.b.toReal k.c.toReal| ≤ triErr S M (k.c.toReal - k.a.toReal) (r.origin.toReal - k.a.toReal) (k.b.toReal - k.a.toReal) := by
  obtain ⟨fD, fT, fUV⟩ := hf
  obtain ⟨fU, fV⟩ := finite_of_add fUV
  have fac : ∀ {p q w : Vector3 S}, IsFinite (Api.dot p (Api.cross q w : Vector3 S)) → (IsFinite p.x ∧ IsFinite p.y ∧ IsFinite p.z) ∧ (IsFinite q.x ∧ IsFinite q.y ∧ IsFinite q.z) ∧ (IsFinite w.x ∧ IsFinite w.y ∧ IsFinite w.z) := by
    intro p q w h
    have h : IsFinite (p.x * (q.y * w.z - q.z * w.y) + p.y * (q.z * w.x - q.x * w.z) + p.z * (q.x * w.y - q.y * w.x)) := h
    obtain ⟨h12, h3⟩ := finite_of_add h
    obtain ⟨h1, h2⟩ := finite_of_add h12
    have a := finite_of_sub (finite_of_mul h1).2
    have b := finite_of_sub (finite_of_mul h2).2
    exact ⟨⟨(finite_of_mul h1).1, (finite_of_mul h2).1, (finite_of_mul h3).1⟩, ⟨(finite_of_mul b.2).1, (finite_of_mul a.1).1, (finite_of_mul a.2).1⟩,
      ⟨(finite_of_mul b.1).2, (finite_of_mul a.2).2, (finite_of_mul a.1).2⟩⟩
  have dx : Approx 0 0 r.direction.x (r.direction.toReal 0) |r.direction.toReal 0| := Approx.exact _
  have dy : Approx 0 0 r.direction.y (r.direction.toReal 1) |r.direction.toReal 1| := Approx.exact _
  have dz : Approx 0 0 r.direction.z (r.direction.toReal 2) |r.direction.toReal 2| := Approx.exact _
  obtain ⟨⟨b1, b2, b3⟩, -, ⟨c1, c2, c3⟩⟩ := fac fD
  obtain ⟨⟨o1, o2, o3⟩, -, -⟩ := fac fU
  have bx : Approx 1 0 (k.b - k.a : Vector3 S).x ((k.b.toReal - k.a.toReal) 0) |(k.b.toReal - k.a.toReal) 0| := approx_diff b1
  have b_ : Approx 1 0 (k.b - k.a : Vector3 S).y ((k.b.toReal - k.a.toReal) 1) |(k.b.toReal - k.a.toReal) 1| := approx_diff b2
  have bz : Approx 1 0 (k.b - k.a : Vector3 S).z ((k.b.toReal - k.a.toReal) 2) |(k.b.toReal - k.a.toReal) 2| := approx_diff b3
  have cx : Approx 1 0 (k.c - k.a : Vector3 S).x ((k.c.toReal - k.a.toReal) 0) |(k.c.toReal - k.a.toReal) 0| := approx_diff c1
  have cy : Approx 1 0 (k.c - k.a : Vector3 S).y ((k.c.toReal - k.a.toReal) 1) |(k.c.toReal - k.a.toReal) 1| := approx_diff c2
  have cz : Approx 1 0 (k.c - k.a : Vector3 S).z ((k.c.toReal - k.a.toReal) 2) |(k.c.toReal - k.a.toReal) 2| := approx_diff c3
  have ox : Approx 1 0 (r.origin - k.a : Vector3 S).x ((r.origin.toReal - k.a.toReal) 0) |(r.origin.toReal - k.a.toReal) 0| := approx_diff o1
  have oy : Approx 1 0 (r.origin - k.a : Vector3 S).y ((r.origin.toReal - k.a.toReal) 1) |(r.origin.toReal - k.a.toReal) 1| := approx_diff o2
  have oz : Approx 1 0 (r.origin - k.a : Vector3 S).z ((r.origin.toReal - k.a.toReal) 2) |(r.origin.toReal - k.a.toReal) 2| := approx_diff o3
  refine ⟨Approx.triple (by norm_num) (by norm_num) bx b_ bz dx dy dz cx cy cz hb fD, Approx.triple (by norm_num) (by norm_num) ox oy oz dx dy dz cx cy cz ho fU,
    Approx.triple (by norm_num) (by norm_num) dx dy dz ox oy oz bx b_ bz hd fV, Approx.triple (by norm_num) (by norm_num) cx cy cz ox oy oz bx b_ bz hc fT⟩
theorem sign_keep {c x E : ℝ} (h : |c - x| ≤ E) (hx : E < |x|) : (0 < c ↔ 0 < x) ∧ (c < 0 ↔ x < 0) ∧ (0 ≤ c ↔ 0 ≤ x) ∧ (c ≤ 0 ↔ x ≤ 0) := by
  rw [abs_le] at h
  rcases lt_abs.1 hx with k | k <;> refine ⟨⟨fun _ => ?_, fun _ => ?_⟩, ⟨fun _ => ?_, fun _ => ?_⟩, ⟨fun _ => ?_, fun _ => ?_⟩, ⟨fun _ => ?_, fun _ => ?_⟩⟩ <;> linarith
/-- **C113**: the test without division is right about every ray and triangle for which none of the exact quantities that decide is within its error
bound of zero. -/
theorem C113_clear (r : Ray3 S) (k : Triangle S) (hf : r.TriFinite k) (M : ℝ) (hd : ∀ i, |r.direction.toReal i| ≤ M) (ho : ∀ i, |(r.origin.toReal - k.a.toReal) i| ≤ M)
    (hb : ∀ i, |(k.b.toReal - k.a.toReal) i| ≤ M) (hc : ∀ i, |(k.c.toReal - k.a.toReal) i| ≤ M) (D U V T eD eU eV eT : ℝ)
    (rD : D = (k.b.toReal - k.a.toReal) ⬝ᵥ crossProduct r.direction.toReal (k.c.toReal - k.a.toReal))
    (rU : U = (r.origin.toReal - k.a.toReal) ⬝ᵥ crossProduct r.direction.toReal (k.c.toReal - k.a.toReal))
    (rV : V = r.direction.toReal ⬝ᵥ crossProduct (r.origin.toReal - k.a.toReal) (k.b.toReal - k.a.toReal))
    (rT : T = (k.c.toReal - k.a.toReal) ⬝ᵥ crossProduct (r.origin.toReal - k.a.toReal) (k.b.toReal - k.a.toReal))
    (hD : eD = triErr S M (k.b.toReal - k.a.toReal) r.direction.toReal (k.c.toReal - k.a.toReal))
    (hU : eU = triErr S M (r.origin.toReal - k.a.toReal) r.direction.toReal (k.c.toReal - k.a.toReal))
    (hV : eV = triErr S M r.direction.toReal (r.origin.toReal - k.a.toReal) (k.b.toReal - k.a.toReal))
    (hT : eT = triErr S M (k.c.toReal - k.a.toReal) (r.origin.toReal - k.a.toReal) (k.b.toReal - k.a.toReal))
    (cD : eD < |D|) (cU : eU < |U|) (cV : eV < |V|) (cT : eT < |T|) (cW : eD + (1 + uro S) * (eU + eV) + uro S * |U + V| < |D - (U + V)|) :
    r.hitsTriangle k = true ↔ Meets r.origin.toReal r.direction.toReal k.a.toReal k.b.toReal k.c.toReal := by
  obtain ⟨xD, xU, xV, xT⟩ := C113_error r k hf M hd ho hb hc
  have rD : D = detR r.direction.toReal k.a.toReal k.b.toReal k.c.toReal := rD
  have rU : U = numU r.origin.toReal r.direction.toReal k.a.toReal k.c.toReal := rU
  have rV : V = numV r.origin.toReal r.direction.toReal k.a.toReal k.b.toReal := rV
  have rT : T = numT r.origin.toReal k.a.toReal k.b.toReal k.c.toReal := rT
  rw [← rD, ← hD] at xD
  rw [← rU, ← hU] at xU
  rw [← rV, ← hV] at xV
  rw [← rT, ← hT] at xT
  have D0 : D ≠ 0 := by
    rintro h
    rw [h, abs_zero] at cD
    linarith [(abs_nonneg _).trans xD]
  rw [Ray3.hits_real hf, meets_signs _ _ _ _ _ (rD ▸ D0), ← rD, ← rU, ← rV, ← rT]
  have xW := err_add_of hf.2.2 xU xV
  have xS : |(real (r.triDet k) - real (r.triU k + r.triV k)) - (D - (U + V))| ≤ eD + (1 + uro S) * (eU + eV) + uro S * |U + V| := by
    have := abs_sub (real (r.triDet k) - D) (real (r.triU k + r.triV k) - (U + V))
    rw [show (real (r.triDet k) - real (r.triU k + r.triV k)) - (D - (U + V)) = (real (r.triDet k) - D) - (real (r.triU k + r.triV k) - (U + V)) by ring]
    linarith
  obtain ⟨a1, a2, -, -⟩ := sign_keep xD cD
  obtain ⟨-, -, b1, b2⟩ := sign_keep xU cU
  obtain ⟨-, -, c1, c2⟩ := sign_keep xV cV
  obtain ⟨-, -, d1, d2⟩ := sign_keep xT cT
  obtain ⟨-, -, w1, w2⟩ := sign_keep xS cW
  rw [sub_nonneg, sub_nonneg] at w1
  rw [sub_nonpos, sub_nonpos] at w2
  rw [a1, a2, b1, b2, c1, c2, d1, d2, w1, w2]
end near
end VecMath

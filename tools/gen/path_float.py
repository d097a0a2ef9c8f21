out='''import Verif.Spec.Path
import Verif.Spec.Grid
import Verif.Props.RealPath
import Verif.Props.FloatEnclose
import Verif.Props.FloatError
import Verif.Lemmas.Grid
import Verif.Lemmas.Round
/-! # C122: polylines in floating point

(Generated by tools/gen.) -/

open Classical

namespace VecMath
open Scalar IEEE

section
variable {S : Type} [Scalar S] [IEEE S]
/-- Adding a number that is not negative. -/
theorem add_up {x d : S} (hx : Dom x x) (hd : Dom d d) : Dom x (x + d) ∧ Dom d (x + d) := by
  have n := (hx.add hd).nl
  have e1 : num (x + zero) = num x := num_add_zero x
  have e2 : num (zero + d) = num d := num_zero_add d
  have n1 : ¬ IsNaN (x + zero) := fun h => hx.nl ((isNaN_num.trans (by rw [e1]; exact isNaN_num.symm)).1 h)
  have n2 : ¬ IsNaN (zero + d) := fun h => hd.nl ((isNaN_num.trans (by rw [e2]; exact isNaN_num.symm)).1 h)
  have z : val (zero : S) = 0 := val_zero
  refine ⟨⟨hx.nl, n, hx.pos, ?_⟩, ⟨hd.nl, n, hd.pos, ?_⟩⟩
  · rw [val_num, ← e1, ← val_num]; exact val_add_mono le_rfl (by rw [z]; exact hd.pos) n1 n
  · rw [val_num, ← e2, ← val_num]; exact val_add_mono (by rw [z]; exact hx.pos) le_rfl n2 n
/-- A sum of numbers that are not negative is at least the start and every term. -/
theorem sum_up (ds : List S) (x : S) (hx : Dom x x) (h : ∀ d ∈ ds, Dom d d) :
    Dom x (ds.foldl (· + ·) x) ∧ ∀ d ∈ ds, Dom d (ds.foldl (· + ·) x) := by
  induction ds generalizing x with
  | nil => exact ⟨hx, by simp⟩
  | cons d ds ih =>
    obtain ⟨a1, a2⟩ := add_up hx (h d (by simp))
    obtain ⟨b1, b2⟩ := ih (x + d) (Dom.refl a1.nr (a1.pos.trans a1.le)) fun e he => h e (by simp [he])
    have tr : ∀ {y : S}, Dom y (x + d) → Dom y (ds.foldl (· + ·) (x + d)) := fun q => ⟨q.nl, b1.nr, q.pos, q.le.trans b1.le⟩
    rw [List.foldl_cons]
    refine ⟨tr a1, fun e he => ?_⟩
    rcases List.mem_cons.1 he with rfl | he
    · exact tr a2
    · exact b2 e he
end

section
variable {S : Type} [Scalar S] [IEEE S] [Binary S]
/-- The rounding error of a sum of numbers that are not negative. -/
theorem sum_within {k j : ℕ} (hk : k ≤ j) (ds : List S) (rs : List ℝ) (x : S) (r : ℝ) (hr : 0 ≤ r) (hx : Within S j (real x) r)
    (hd : List.Forall₂ (fun d y => 0 ≤ y ∧ Within S k (real d) y) ds rs) (hf : IsFinite (ds.foldl (· + ·) x)) :
    Within S (j + ds.length) (real (ds.foldl (· + ·) x)) (r + rs.sum) := by
  induction hd generalizing x r j with
  | nil => simpa using hx
  | @cons d y ds rs h _ ih =>
    rw [List.foldl_cons] at hf ⊢
    have f1 : IsFinite (x + d) := finite_of_fold ds (x + d) hf
    have w := Within.add f1 hx (h.2.mono h.1 hk) hr h.1
    have := ih (j := 1 + j) (by omega) (x + d) (r + y) (add_nonneg hr h.1) w hf
    rw [List.sum_cons, List.length_cons, show j + (ds.length + 1) = 1 + j + ds.length by omega, ← add_assoc r y]
    exact this
/-- Adding up multiples of a power of two with room for the sum. -/
theorem sum_exact {e : ℤ} {N : ℕ} (hF : Fits S e N) (ds : List S) (x : S) (hx : IsFinite x) (gx : ∃ M, OnGrid e M (real x)) (x0 : 0 ≤ real x)
    (h : ∀ d ∈ ds, IsFinite d ∧ 0 ≤ real d ∧ ∃ M, OnGrid e M (real d)) (hN : real x + (ds.map real).sum ≤ N * 2 ^ e) :
    Exactly (ds.foldl (· + ·) x) (real x + (ds.map real).sum) := by
  induction ds generalizing x with
  | nil => exact ⟨hx, by simp⟩
  | cons d ds ih =>
    obtain ⟨fd, d0, M, gd⟩ := h d (by simp)
    obtain ⟨K, gx⟩ := gx
    rw [List.map_cons, List.sum_cons] at hN
    have s0 : 0 ≤ (ds.map real).sum := by
      refine List.sum_nonneg fun y hy => ?_
      obtain ⟨d', hd', rfl⟩ := List.mem_map.1 hy
      exact (h d' (by simp [hd'])).2.1
    have g : OnGrid e N (real x + real d) := by
      obtain ⟨m, hm, em⟩ := gx.add gd
      refine ⟨m, ?_, em⟩
      have p2 : (0 : ℝ) < 2 ^ e := by positivity
      have b : |(m : ℝ)| * 2 ^ e ≤ N * 2 ^ e := by
        rw [← abs_of_pos p2, ← abs_mul, ← em, abs_of_nonneg (add_nonneg x0 d0), abs_of_pos p2]; linarith
      have := le_of_mul_le_mul_right b p2
      rw [← Int.cast_abs] at this
      exact_mod_cast this
    have c := (correct_add hx fd).grid g hF
    have := ih (x + d) c.1 ⟨N, by rw [c.2]; exact g⟩ (by rw [c.2]; exact add_nonneg x0 d0) (fun d' hd' => h d' (by simp [hd']))
      (by rw [c.2]; linarith)
    rw [c.2] at this
    rw [List.foldl_cons, List.map_cons, List.sum_cons, ← add_assoc]
    exact this
end
'''
for n in (2,3):
    P=f'Point{n}'; cs='xyz'[:n]; V=f'Vector{n}'; K=n+1
    norm=lambda p,q: ' ∧ '.join(f'Normal S (real ({q}.{c} - {p}.{c}) ^ 2)' for c in cs)
    out+=f'''
/-! ## Dimension {n} -/
section
variable {{S : Type}} [Scalar S] [IEEE S]
theorem {P}.dom_distance {{p q : {P} S}} (hp : AllFinite p) (hq : AllFinite q) : Dom (Api.distance p q : S) (Api.distance p q) :=
  ({P}.dom_gap hq hp).sqrt
theorem {P}.dom_legs {{ps : List ({P} S)}} (h : ∀ p ∈ ps, AllFinite p) : ∀ d ∈ legs (Api.distance : {P} S → {P} S → S) ps, Dom d d := by
  intro d hd
  obtain ⟨p, hp, q, hq, rfl⟩ := mem_legs _ ps hd
  exact {P}.dom_distance (h p hp) (h q hq)
/-- **C122**: the computed length of a path through finite points is a number, it is not negative, it is at least the computed length of every leg,
and walking on never makes it smaller. -/
theorem C122_grow{n} (ps qs : List ({P} S)) (h : ∀ p ∈ ps ++ qs, AllFinite p) :
    ¬ IsNaN ({P}.pathLength ps) ∧ (zero ≤? {P}.pathLength ps) = true ∧
    (∀ d ∈ legs (Api.distance : {P} S → {P} S → S) ps, (d ≤? {P}.pathLength ps) = true) ∧
    ({P}.pathLength ps ≤? {P}.pathLength (ps ++ qs)) = true := by
  have z : Dom (zero : S) zero := Dom.refl finite_zero.not_nan val_zero.ge
  have hps : ∀ p ∈ ps, AllFinite p := fun p hp => h p (List.mem_append_left _ hp)
  obtain ⟨a, b⟩ := sum_up _ zero z ({P}.dom_legs hps)
  refine ⟨a.nr, a.toLe, fun d hd => (b d hd).toLe, ?_⟩
  cases qs with
  | nil => rw [List.append_nil]; exact le_iff.2 ⟨a.nr, a.nr, le_rfl⟩
  | cons q qs =>
    obtain ⟨es, he⟩ : ∃ es, legs (Api.distance : {P} S → {P} S → S) (ps ++ q :: qs) = legs Api.distance ps ++ es := by
      rcases List.eq_nil_or_concat ps with rfl | ⟨as, p, rfl⟩
      · exact ⟨_, rfl⟩
      · refine ⟨legs Api.distance (p :: q :: qs), ?_⟩
        rw [List.concat_eq_append, List.append_assoc]
        exact legs_join _ as p (q :: qs)
    unfold {P}.pathLength
    rw [he, List.foldl_append]
    have hd := {P}.dom_legs h
    rw [he] at hd
    exact (sum_up es _ (Dom.refl a.nr (a.pos.trans a.le)) fun d hd' => hd d (List.mem_append_right _ hd')).1.toLe
/-- **C122**: backwards, a path has the same legs, in the opposite order. -/
theorem C122_back_legs{n} (ps : List ({P} S)) :
    List.Forall₂ Same (legs (Api.distance : {P} S → {P} S → S) ps.reverse) (legs (Api.distance : {P} S → {P} S → S) ps).reverse := by
  rw [legs_reverse, List.forall₂_reverse_iff]
  induction ps with
  | nil => exact .nil
  | cons p ps ih =>
    cases ps with
    | nil => exact .nil
    | cons q ps => exact .cons (C15_float_symmetric{n} _ _) ih
end
section
variable {{S : Type}} [Scalar S] [IEEE S] [Binary S]
/-- No square of a coordinate difference underflows. -/
def {P}.NoUnderflow (p q : {P} S) : Prop := {norm('p','q')}
theorem {P}.within_distance {{p q : {P} S}} (h : IsFinite (Api.distance p q)) (hu : p.NoUnderflow q) :
    Within S {K} (real (Api.distance p q)) (euclid p.toReal q.toReal) := by
  have := C60_distance{n} p q h {' '.join(['hu.1','hu.2'] if n==2 else ['hu.1','hu.2.1','hu.2.2'])}
  have e : euclid p.toReal q.toReal = √({' + '.join(f'(real q.{c} - real p.{c}) ^ 2' for c in cs)}) := by
    unfold euclid
    congr 1
    simp [{P}.toReal, Fin.sum_univ_succ{', add_assoc' if n==3 else ''}]
  rwa [e]
/-- **C122**: the computed length of a path with m legs, if it is finite and no square underflows, is within {K} + m roundings of the length of the path. -/
theorem C122_error{n} (ps : List ({P} S)) (h : IsFinite ({P}.pathLength ps)) (hu : ∀ u ∈ legs {P}.NoUnderflow ps, u) :
    Within S ({K} + (ps.length - 1)) (real ({P}.pathLength ps)) (legs (fun p q => euclid p.toReal q.toReal) ps).sum := by
  have hl : (legs (Api.distance : {P} S → {P} S → S) ps).length = ps.length - 1 := by simp [legs]
  have hfin : ∀ d ∈ legs (Api.distance : {P} S → {P} S → S) ps, IsFinite d := fun d hd => finite_of_term _ zero h d hd
  have key : List.Forall₂ (fun d y => 0 ≤ y ∧ Within S {K} (real d) y) (legs (Api.distance : {P} S → {P} S → S) ps)
      (legs (fun p q => euclid p.toReal q.toReal) ps) := by
    clear h hl
    induction ps with
    | nil => exact .nil
    | cons p ps ih =>
      cases ps with
      | nil => exact .nil
      | cons q ps =>
        rw [legs_cons] at hu hfin ⊢
        rw [legs_cons]
        refine .cons ⟨Real.sqrt_nonneg _, {P}.within_distance (hfin _ (by simp)) (hu _ (by simp))⟩ ?_
        exact ih (fun u hu' => hu u (by simp [hu'])) (fun d hd => hfin d (by simp [hd]))
  have w0 : Within S {K} (real (zero : S)) 0 := by rw [real_zero]; simp [Within]
  have := sum_within le_rfl _ _ zero 0 le_rfl w0 key h
  rwa [zero_add, hl] at this
/-- **C122**: the computed distance between the first and the last vertex of a path exceeds the computed length of the path by at most the roundings of
both. -/
theorem C122_float_direct{n} (p q : {P} S) (ps : List ({P} S)) (h : IsFinite ({P}.pathLength (p :: (ps ++ [q])))) (h' : IsFinite (Api.distance p q))
    (hu : ∀ u ∈ legs {P}.NoUnderflow (p :: (ps ++ [q])), u) (hu' : p.NoUnderflow q) :
    (1 - uro S) ^ ({K} + (ps.length + 1)) * real (Api.distance p q) ≤ (1 + uro S) ^ {K} * real ({P}.pathLength (p :: (ps ++ [q]))) := by
  have a := (C122_error{n} _ h hu).1
  have b := ({P}.within_distance h' hu').2
  have c : euclid p.toReal q.toReal ≤ (legs (fun p q => euclid p.toReal q.toReal) (p :: (ps ++ [q]))).sum := by
    have e : ∀ x y : {P} S, euclid x.toReal y.toReal = dist (WithLp.toLp 2 x.toReal : EuclideanSpace ℝ (Fin {n})) (WithLp.toLp 2 y.toReal) := by
      intro x y
      rw [dist_comm, EuclideanSpace.dist_eq]
      unfold euclid
      simp [Real.dist_eq, sq_abs]
    have := legs_direct (WithLp.toLp 2 p.toReal : EuclideanSpace ℝ (Fin {n})) (WithLp.toLp 2 q.toReal) (ps.map fun x => WithLp.toLp 2 x.toReal)
    rw [← List.map_singleton (f := fun x : {P} S => (WithLp.toLp 2 x.toReal : EuclideanSpace ℝ (Fin {n}))) (a := q), ← List.map_append, ← List.map_cons (f := fun x : {P} S => (WithLp.toLp 2 x.toReal : EuclideanSpace ℝ (Fin {n}))), legs_map, ← e] at this
    simpa only [← e] using this
  have l : (p :: (ps ++ [q])).length - 1 = ps.length + 1 := by simp
  rw [l] at a
  have u0 := uro_pos (S := S)
  have u1 := uro_le (S := S)
  have p1 : 0 ≤ (1 - uro S) ^ ({K} + (ps.length + 1)) := pow_nonneg (by linarith) _
  have p2 : 0 ≤ (1 + uro S) ^ {K} := pow_nonneg (by linarith) _
  calc _ ≤ (1 - uro S) ^ ({K} + (ps.length + 1)) * ((1 + uro S) ^ {K} * euclid p.toReal q.toReal) := mul_le_mul_of_nonneg_left b p1
    _ ≤ (1 - uro S) ^ ({K} + (ps.length + 1)) * ((1 + uro S) ^ {K} * _) := mul_le_mul_of_nonneg_left (mul_le_mul_of_nonneg_left c p2) p1
    _ = (1 + uro S) ^ {K} * ((1 - uro S) ^ ({K} + (ps.length + 1)) * _) := by ring
    _ ≤ _ := mul_le_mul_of_nonneg_left a p2
/-- **C122**: if the computed length of every leg is a multiple of a power of two with room for the sum, the computed length of the path is the exact sum. -/
theorem C122_exact{n} {{e : ℤ}} {{N : ℕ}} (hF : Fits S e N) (ps : List ({P} S)) (h : ∀ p ∈ ps, AllFinite p)
    (hd : ∀ d ∈ legs (Api.distance : {P} S → {P} S → S) ps, IsFinite d ∧ ∃ M, OnGrid e M (real d))
    (hN : ((legs (Api.distance : {P} S → {P} S → S) ps).map real).sum ≤ N * 2 ^ e) :
    Exactly ({P}.pathLength ps) ((legs (Api.distance : {P} S → {P} S → S) ps).map real).sum := by
  have := sum_exact hF (legs (Api.distance : {P} S → {P} S → S) ps) zero finite_zero ⟨0, by rw [real_zero]; exact OnGrid.zero⟩ real_zero.ge
    (fun d hd' => ⟨(hd d hd').1, by
      have := ({P}.dom_legs h d hd').pos
      rw [(hd d hd').1.val] at this
      exact_mod_cast this, (hd d hd').2⟩) (by rw [real_zero, zero_add]; exact hN)
  rwa [real_zero, zero_add] at this
end
'''
out=out.replace('''/-- The rounding error of a sum''','''/-- A finite sum has finite parts. -/
theorem finite_of_fold (ds : List S) (x : S) (h : IsFinite (ds.foldl (· + ·) x)) : IsFinite x := by
  induction ds generalizing x with
  | nil => exact h
  | cons d ds ih => exact (finite_of_add (ih (x + d) h)).1
theorem finite_of_term (ds : List S) (x : S) (h : IsFinite (ds.foldl (· + ·) x)) : ∀ d ∈ ds, IsFinite d := by
  induction ds generalizing x with
  | nil => simp
  | cons d ds ih =>
    intro e he
    rcases List.mem_cons.1 he with rfl | he
    · exact (finite_of_add (finite_of_fold ds (x + e) h)).2
    · exact ih (x + d) h e he
/-- The rounding error of a sum''',1)
out+='\nend VecMath\n'
open('/verif/lean/Verif/Props/FloatPath.lean','w').write(out)

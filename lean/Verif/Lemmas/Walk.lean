import Verif.Spec.Walk
import Verif.Spec.Basic
import Verif.Lemmas.Grid
import Verif.Lemmas.Num
import Verif.Lemmas.Mono
/-! # Histories of additions in one coordinate -/

open Classical
namespace VecMath
open Scalar IEEE

section
variable {V W P Q : Type}
theorem moved_map (g : V → W) (f : W → ℝ) (l : List (Step V)) : moved f (l.map (Step.map g)) = moved (fun v => f (g v)) l := by
  unfold moved
  rw [List.map_map]
  congr 1
  apply List.map_congr_left
  intro s _
  cases s <;> rfl
theorem travelled_map (g : V → W) (f : W → ℝ) (l : List (Step V)) :
    travelled f (l.map (Step.map g)) = travelled (fun v => f (g v)) l := by
  unfold travelled
  rw [List.map_map]
  congr 1
  apply List.map_congr_left
  intro s _
  cases s <;> rfl
/-- a coordinate of a walk is the walk of the coordinate -/
theorem walk_coord [HAdd P V P] [HSub P V P] [HAdd Q W Q] [HSub Q W Q] (c : P → Q) (g : V → W)
    (h1 : ∀ p v, c (p + v) = c p + g v) (h2 : ∀ p v, c (p - v) = c p - g v) (p : P) (l : List (Step V)) :
    c (walk p l) = walk (c p) (l.map (Step.map g)) := by
  induction l generalizing p with
  | nil => rfl
  | cons s l ih =>
    show c (walk (Step.take p s) l) = walk (Step.take (c p) (s.map g)) (l.map (Step.map g))
    rw [ih]
    cases s
    · show walk (c (p + _)) _ = _; rw [h1]; rfl
    · show walk (c (p - _)) _ = _; rw [h2]; rfl
theorem travelled_nonneg (f : V → ℝ) (l : List (Step V)) : 0 ≤ travelled f l :=
  List.sum_nonneg (by intro x hx; obtain ⟨s, -, rfl⟩ := List.mem_map.1 hx; exact abs_nonneg _)
end

variable {S : Type} [Scalar S] [IEEE S]

theorem Step.finite_of_take {a : S} {s : Step S} (h : IsFinite (Step.take a s)) : IsFinite a := by
  cases s
  · exact (finite_of_add h).1
  · exact (finite_of_sub h).1
theorem finite_of_walk {a : S} {l : List (Step S)} (h : IsFinite (walk a l)) : IsFinite a := by
  induction l generalizing a with
  | nil => exact h
  | cons s l ih => exact Step.finite_of_take (ih (a := Step.take a s) h)

section
variable [Binary S]
theorem Step.err_take {a : S} {s : Step S} (h : IsFinite (Step.take a s)) :
    |real (Step.take a s) - (real a + s.signed real)| ≤ uro S * (|real a| + |s.signed real|) := by
  have hu := uro_pos (S := S)
  cases s with
  | plus v =>
    refine (err_add h).trans (mul_le_mul_of_nonneg_left (abs_add_le _ _) hu.le)
  | minus v =>
    have := err_sub h
    simp only [Step.take, Step.signed, ← sub_eq_add_neg, abs_neg]
    exact this.trans (mul_le_mul_of_nonneg_left (abs_sub _ _) hu.le)

/-- The error of a history of `n` additions. -/
theorem walk_err {a : S} {l : List (Step S)} (h : IsFinite (walk a l)) :
    |real (walk a l) - (real a + moved real l)| ≤ ((1 + uro S) ^ l.length - 1) * (|real a| + travelled real l) := by
  have hu := uro_pos (S := S)
  induction l generalizing a with
  | nil => simp [walk, moved]
  | cons s l ih =>
    have h' : IsFinite (walk (Step.take a s) l) := h
    have e1 := ih h'
    have e2 := Step.err_take (finite_of_walk h')
    have hT := travelled_nonneg real l
    have em : moved real (s :: l) = s.signed real + moved real l := by simp [moved]
    have et : travelled real (s :: l) = |s.signed real| + travelled real l := by simp [travelled]
    rw [show walk a (s :: l) = walk (Step.take a s) l from rfl, em, et, List.length_cons]
    set b := real (Step.take a s)
    set x := s.signed real
    set g := (1 + uro S) ^ l.length - 1 with hg
    have hg0 : 0 ≤ g := by have := one_le_pow₀ (M₀ := ℝ) (a := 1 + uro S) (n := l.length) (by linarith); linarith
    have eb : |b| ≤ (1 + uro S) * (|real a| + |x|) := by
      have h1 := abs_add_le (b - (real a + x)) (real a + x)
      rw [sub_add_cancel] at h1
      have := abs_add_le (real a) x
      linarith
    have t : |real (walk (Step.take a s) l) - (real a + (x + moved real l))| ≤
        |real (walk (Step.take a s) l) - (b + moved real l)| + |b - (real a + x)| := by
      have := abs_add_le (real (walk (Step.take a s) l) - (b + moved real l)) (b - (real a + x))
      refine le_trans (le_of_eq ?_) this
      congr 1; ring
    have eg : (1 + uro S) ^ (l.length + 1) - 1 = g * (1 + uro S) + uro S := by rw [hg, pow_succ]; ring
    rw [eg]
    have m := mul_le_mul_of_nonneg_left (add_le_add eb le_rfl : |b| + travelled real l ≤ (1 + uro S) * (|real a| + |x|) + travelled real l) hg0
    have p1 : 0 ≤ g * (uro S * travelled real l) := by positivity
    have p2 : 0 ≤ uro S * travelled real l := by positivity
    nlinarith

/-- On a grid with room for the whole way, a history is exact, whatever its length. -/
theorem walk_grid {e : ℤ} {N : ℕ} {a : S} {l : List (Step S)} (ha : IsFinite a) (hl : ∀ s ∈ l, IsFinite s.vec)
    (ga : ∃ M, OnGrid e M (real a)) (gl : ∀ s ∈ l, ∃ M, OnGrid e M (real s.vec))
    (hF : Fits S e N) (hN : |real a| + travelled real l ≤ N * 2 ^ e) : Exactly (walk a l) (real a + moved real l) := by
  induction l generalizing a with
  | nil => simp [walk, moved, Exactly, ha]
  | cons s l ih =>
    have em : moved real (s :: l) = s.signed real + moved real l := by simp [moved]
    have et : travelled real (s :: l) = |s.signed real| + travelled real l := by simp [travelled]
    rw [et] at hN
    have hT := travelled_nonneg real l
    have restrict : ∀ {x : ℝ}, (∃ M, OnGrid e M x) → |x| ≤ N * 2 ^ e → OnGrid e N x := by
      rintro x ⟨M, n, -, rfl⟩ hx
      refine ⟨n, ?_, rfl⟩
      rw [abs_mul, abs_of_pos (Fmt.z_pos e)] at hx
      have := le_of_mul_le_mul_right hx (Fmt.z_pos e)
      exact_mod_cast this
    have gs : ∃ M, OnGrid e M (real a + s.signed real) := by
      obtain ⟨M, h1⟩ := ga
      obtain ⟨M', h2⟩ := gl s (by simp)
      cases s with
      | plus v => exact ⟨_, h1.add h2⟩
      | minus v => exact ⟨_, h1.add h2.neg⟩
    have hs : |real a + s.signed real| ≤ N * 2 ^ e := (abs_add_le _ _).trans (by linarith)
    have hx : Exactly (Step.take a s) (real a + s.signed real) := by
      cases s with
      | plus v =>
        exact (correct_add ha (hl (.plus v) (by simp))).grid (restrict gs hs) hF
      | minus v =>
        have := restrict gs hs
        simp only [Step.signed, ← sub_eq_add_neg] at this ⊢
        exact (correct_sub ha (hl (.minus v) (by simp))).grid this hF
    have := ih (a := Step.take a s) hx.1 (fun t ht => hl t (by simp [ht])) (by rw [hx.2]; exact gs) (fun t ht => gl t (by simp [ht]))
      (by rw [hx.2]; have := abs_add_le (real a) (s.signed real); linarith)
    rw [hx.2] at this
    rw [em]
    exact ⟨this.1, by rw [show walk a (s :: l) = walk (Step.take a s) l from rfl, this.2]; ring⟩
/-- Steps that do not go down never lead down. -/
theorem walk_mono {a : S} {l : List (Step S)} (h : IsFinite (walk a l)) (hl : ∀ s ∈ l, 0 ≤ s.signed real) :
    real a ≤ real (walk a l) := by
  induction l generalizing a with
  | nil => exact le_rfl
  | cons s l ih =>
    have h' : IsFinite (walk (Step.take a s) l) := h
    have e1 := ih h' (fun t ht => hl t (by simp [ht]))
    have hs := hl s (by simp)
    have ht := finite_of_walk h'
    refine le_trans ?_ e1
    have ha := Step.finite_of_take ht
    have c : Correct (Step.take a s) (real a + s.signed real) := by
      cases s with
      | plus v => exact correct_add ha (finite_of_add ht).2
      | minus v =>
        simp only [Step.signed, ← sub_eq_add_neg]
        exact correct_sub ha (finite_of_sub ht).2
    by_contra hc
    push Not at hc
    have := (c.2 ht).2 _ (inFormat ha)
    rw [abs_of_nonpos (by linarith), abs_of_nonpos (by linarith)] at this
    linarith
/-- Steps that do not go up never lead up. -/
theorem walk_anti {a : S} {l : List (Step S)} (h : IsFinite (walk a l)) (hl : ∀ s ∈ l, s.signed real ≤ 0) :
    real (walk a l) ≤ real a := by
  induction l generalizing a with
  | nil => exact le_rfl
  | cons s l ih =>
    have h' : IsFinite (walk (Step.take a s) l) := h
    have e1 := ih h' (fun t ht => hl t (by simp [ht]))
    have hs := hl s (by simp)
    have ht := finite_of_walk h'
    refine le_trans e1 ?_
    have ha := Step.finite_of_take ht
    have c : Correct (Step.take a s) (real a + s.signed real) := by
      cases s with
      | plus v => exact correct_add ha (finite_of_add ht).2
      | minus v =>
        simp only [Step.signed, ← sub_eq_add_neg]
        exact correct_sub ha (finite_of_sub ht).2
    by_contra hc
    push Not at hc
    have := (c.2 ht).2 _ (inFormat ha)
    rw [abs_of_nonneg (by linarith), abs_of_nonneg (by linarith)] at this
    linarith
end

/-- The mean of `n` numbers: `n - 1` additions and a division. -/
theorem mean_err [Binary S] {a n : S} {l : List (Step S)} (hn : Exactly n (l.length + 1)) (h : IsFinite (walk a l))
    (hq : IsFinite (walk a l / n)) :
    |real (walk a l / n) - (real a + moved real l) / (l.length + 1)| ≤
      ((1 + uro S) ^ (l.length + 1) - 1) * ((|real a| + travelled real l) / (l.length + 1)) + tiny S := by
  have hu := uro_pos (S := S)
  have e := walk_err h
  have hp : (0 : ℝ) < l.length + 1 := by positivity
  have e2 := err_div h hn.1 (by rw [hn.2]; exact hp.ne') hq
  rw [hn.2] at e2
  set x := real (walk a l)
  set X := real a + moved real l
  set T := |real a| + travelled real l with hT
  set N : ℝ := l.length + 1
  set g := (1 + uro S) ^ l.length - 1 with hg
  have hXT : |X| ≤ T := by
    have h1 : |moved real l| ≤ travelled real l := by
      unfold moved travelled
      clear * -
      induction l with
      | nil => simp
      | cons s l ih => simp only [List.map_cons, List.sum_cons]; exact (abs_add_le _ _).trans (by linarith)
    exact (abs_add_le _ _).trans (by linarith)
  have hx : |x| ≤ (1 + g) * T := by
    have := abs_add_le (x - X) X
    rw [sub_add_cancel] at this
    linarith
  have h1 : |x / N - X / N| ≤ g * (T / N) := by
    rw [← sub_div, abs_div, abs_of_pos hp, ← mul_div_assoc]
    exact div_le_div_of_nonneg_right e hp.le
  have h2 : |x / N| ≤ (1 + g) * (T / N) := by
    rw [abs_div, abs_of_pos hp, ← mul_div_assoc]
    exact div_le_div_of_nonneg_right hx hp.le
  have t := abs_sub_le (real (walk a l / n)) (x / N) (X / N)
  have m := mul_le_mul_of_nonneg_left h2 hu.le
  have eg : (1 + uro S) ^ (l.length + 1) - 1 = g + uro S * (1 + g) := by rw [hg, pow_succ]; ring
  rw [eg]
  nlinarith

/-- A step that does not move, repeated, never moves. -/
theorem walk_stuck {a v : S} (h : (a + v == a) = true) (n : ℕ) : (walk a (List.replicate n (Step.plus v)) == a) = true := by
  have na : ¬ IsNaN a := fun hc => (nan_of_add (beq_iff_num.1 h).2).1 hc
  have key : ∀ b : S, num b = num a → num (walk b (List.replicate n (Step.plus v))) = num a := by
    induction n with
    | zero => intro b hb; exact hb
    | succ n ih =>
      intro b hb
      show num (walk (b + v) (List.replicate n (Step.plus v))) = num a
      exact ih _ ((num_add_congr hb rfl).trans (num_of_beq h))
  exact beq_of_num' (key a rfl) na
end VecMath

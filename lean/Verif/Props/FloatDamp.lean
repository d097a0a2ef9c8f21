import Verif.Lemmas.Damp
import Verif.Props.FloatMono
import Verif.Props.FloatAxis
/-!
# Layer F: histories of `*=` and `/=` (C100)
-/

open Classical

namespace VecMath
open Scalar IEEE

section
variable {S : Type} [Scalar S] [IEEE S] [Binary S] {x : S} {l : List (Factor S)}
theorem rescale_zero (hx : IsFinite x) (h0 : real x = 0) (h : ∀ f ∈ l, f.Ok) : IsFinite (rescale x l) ∧ real (rescale x l) = 0 := by
  induction l generalizing x with
  | nil => exact ⟨hx, h0⟩
  | cons f l ih =>
    have hf := h f (by simp)
    obtain ⟨h1, h2⟩ := Factor.step hx hf (by rw [h0, zero_mul, abs_zero, ← real_zero (S := S)]; exact (le_abs_self _).trans_lt (finite_lt_overflow finite_zero))
    rw [h0, zero_mul, (Binary.F S).rnd_zero] at h2
    exact ih h1 h2 (fun g hg => h g (by simp [hg]))
theorem rescale_exact' (hx : IsFinite x) (h : ∀ f ∈ l, f.Ok ∧ ∃ j : ℤ, f.exact = 2 ^ j)
    (hr : real x = 0 ∨ ∀ l', l' <+: l → l' ≠ [] → minNormal S ≤ |real x * total l'| ∧ |real x * total l'| < overflowAt S) :
    Exactly (rescale x l) (real x * total l) := by
  rcases hr with h0 | hr
  · have := rescale_zero hx h0 (fun f hf => (h f hf).1)
    rw [h0, zero_mul]
    exact this
  · exact rescale_exact hx h hr
theorem abs_rescale_le (hx : IsFinite x) (h : ∀ f ∈ l, f.Ok ∧ |f.exact| ≤ 1) : (Scalar.abs (rescale x l) ≤? Scalar.abs x) = true := by
  obtain ⟨h1, h2⟩ := rescale_shrinks hx h
  rwa [le_iff_real (finite_abs.2 h1) (finite_abs.2 hx), real_abs, real_abs]
end

section
variable {S : Type} [Scalar S]
theorem rescale_index_Vector2 (v : Vector2 S) (l : List (Factor S)) (d : Dimension2) : (v.rescale l).index d = rescale (v.index d) l := by
  induction l generalizing v with
  | nil => rfl
  | cons f l ih =>
    cases f with
    | times s => refine (ih (v.mulAssign s)).trans ?_; cases d <;> rfl
    | over s => refine (ih (v.divAssign s)).trans ?_; cases d <;> rfl
variable [IEEE S]
theorem fin_Vector2 {v : Vector2 S} (hv : AllFinite v) (d : Dimension2) : IsFinite (v.index d) := by
  rw [Vector2.allFinite] at hv
  cases d
  exacts [hv.1, hv.2]
variable [Binary S] (v : Vector2 S) (l : List (Factor S)) (hv : AllFinite v)
include hv
/-- **C100**, `Vector2`: factors of at most 1 in magnitude never let a component grow, and never produce anything but finite
numbers. -/
theorem C100_shrinks_Vector2 (h : ∀ f ∈ l, f.Ok ∧ |f.exact| ≤ 1) (d : Dimension2) :
    IsFinite ((v.rescale l).index d) ∧ (Scalar.abs ((v.rescale l).index d) ≤? Scalar.abs (v.index d)) = true := by
  rw [rescale_index_Vector2]
  exact ⟨(rescale_shrinks (fin_Vector2 hv d) h).1, abs_rescale_le (fin_Vector2 hv d) h⟩
/-- **C100**, `Vector2`: factors above one half never extinguish a component: it stays positive, or negative, for ever. -/
theorem C100_keeps_Vector2 (h : ∀ f ∈ l, f.Ok ∧ 1 / 2 < f.exact ∧ f.exact ≤ 1) (d : Dimension2) :
    (0 < real (v.index d) → 0 < real ((v.rescale l).index d)) ∧ (real (v.index d) < 0 → real ((v.rescale l).index d) < 0) := by
  rw [rescale_index_Vector2]
  exact rescale_keeps (fin_Vector2 hv d) h
/-- **C100**, `Vector2`: damping by the same factor between one half and 1 ends in a value that does not change any more. -/
theorem C100_stuck_Vector2 (f : Factor S) (hf : f.Ok) (h1 : 1 / 2 < f.exact) (h2 : f.exact ≤ 1) :
    ∃ N, ∀ n, N ≤ n → ∀ d, real ((v.rescale (List.replicate n f)).index d) = real ((v.rescale (List.replicate N f)).index d) := by
  have H : ∀ d, ∃ M, ∀ n, M ≤ n → real (rescale (v.index d) (List.replicate n f)) = real (rescale (v.index d) (List.replicate M f)) :=
    fun d => rescale_stuck (fin_Vector2 hv d) hf h1 h2
  choose M hM using H
  refine ⟨M .X + M .Y, fun n hn d => ?_⟩
  have hle : M d ≤ M .X + M .Y := by cases d <;> omega
  rw [rescale_index_Vector2, rescale_index_Vector2]
  exact (hM d n (hle.trans hn)).trans (hM d _ hle).symm
/-- **C100**, `Vector2`: factors of at most one half extinguish every component after `emax - emin + 1` updates. -/
theorem C100_vanishes_Vector2 (h : ∀ f ∈ l, f.Ok ∧ |f.exact| ≤ 1 / 2)
    (hl : (Binary.F S).emax - (Binary.F S).emin + 1 ≤ l.length) (d : Dimension2) : ((v.rescale l).index d == zero) = true := by
  rw [rescale_index_Vector2]
  exact isZero_iff.1 (rescale_vanishes (fin_Vector2 hv d) h (k := (Binary.F S).emax) (by have := Fl.bound (Binary.F S); omega)
    (inFormat (fin_Vector2 hv d)).2.le hl)
/-- **C100**, `Vector2`: powers of two are exact as long as the exact value is in range. -/
theorem C100_exact_Vector2 (h : ∀ f ∈ l, f.Ok ∧ ∃ j : ℤ, f.exact = 2 ^ j) (d : Dimension2)
    (hr : real (v.index d) = 0 ∨ ∀ l', l' <+: l → l' ≠ [] →
      minNormal S ≤ |real (v.index d) * total l'| ∧ |real (v.index d) * total l'| < overflowAt S) :
    Exactly ((v.rescale l).index d) (real (v.index d) * total l) := by
  rw [rescale_index_Vector2]
  exact rescale_exact' (fin_Vector2 hv d) h hr
/-- **C100**, `Vector2`: there and back by powers of two. -/
theorem C100_back_Vector2 (h : ∀ f ∈ l, f.Ok ∧ ∃ j : ℤ, f.exact = 2 ^ j) (ht : total l = 1)
    (hr : ∀ d, real (v.index d) = 0 ∨ ∀ l', l' <+: l → l' ≠ [] →
      minNormal S ≤ |real (v.index d) * total l'| ∧ |real (v.index d) * total l'| < overflowAt S) :
    (v.rescale l == v) = true := by
  have H : ∀ d, (((v.rescale l).index d) == v.index d) = true := by
    intro d
    have := C100_exact_Vector2 v l hv h d (hr d)
    rw [ht, mul_one] at this
    exact beq_iff.2 ⟨this.1.not_nan, (fin_Vector2 hv d).not_nan, by rw [this.1.val, (fin_Vector2 hv d).val, this.2]⟩
  exact Vector2.beq_iff.2 ⟨H .X, H .Y⟩
/-- **C100**, `Vector2`: without underflow and overflow, `n` updates lead to the exact product but for a factor between
`(1 + u)^-n` and `(1 - u)^-n`. -/
theorem C100_accurate_Vector2 (h : ∀ f ∈ l, f.Ok) (d : Dimension2)
    (hr : ∀ l', l' <+: l → l' ≠ [] → IsFinite ((v.rescale l').index d) ∧ minNormal S ≤ |real ((v.rescale l').index d)|) :
    ∃ θ : ℝ, real ((v.rescale l).index d) = θ * (real (v.index d) * total l) ∧ 1 / (1 + uro S) ^ l.length ≤ θ ∧ θ ≤ 1 / (1 - uro S) ^ l.length := by
  simp only [rescale_index_Vector2] at hr ⊢
  exact rescale_accurate (fin_Vector2 hv d) h hr
/-- **C100**, `Vector2`: factors of at most 1 in magnitude never let the computed length grow. -/
theorem C100_length_Vector2 (h : ∀ f ∈ l, f.Ok ∧ |f.exact| ≤ 1) : (Api.length (v.rescale l) ≤? Api.length v) = true := by
  refine C69_length2 _ _ (Vector2.leAll.2 ?_)
  exact ⟨(C100_shrinks_Vector2 v l hv h .X).2, (C100_shrinks_Vector2 v l hv h .Y).2⟩
end

section
variable {S : Type} [Scalar S]
theorem rescale_index_Vector3 (v : Vector3 S) (l : List (Factor S)) (d : Dimension3) : (v.rescale l).index d = rescale (v.index d) l := by
  induction l generalizing v with
  | nil => rfl
  | cons f l ih =>
    cases f with
    | times s => refine (ih (v.mulAssign s)).trans ?_; cases d <;> rfl
    | over s => refine (ih (v.divAssign s)).trans ?_; cases d <;> rfl
variable [IEEE S]
theorem fin_Vector3 {v : Vector3 S} (hv : AllFinite v) (d : Dimension3) : IsFinite (v.index d) := by
  rw [Vector3.allFinite] at hv
  cases d
  exacts [hv.1, hv.2.1, hv.2.2]
variable [Binary S] (v : Vector3 S) (l : List (Factor S)) (hv : AllFinite v)
include hv
/-- **C100**, `Vector3`: factors of at most 1 in magnitude never let a component grow, and never produce anything but finite
numbers. -/
theorem C100_shrinks_Vector3 (h : ∀ f ∈ l, f.Ok ∧ |f.exact| ≤ 1) (d : Dimension3) :
    IsFinite ((v.rescale l).index d) ∧ (Scalar.abs ((v.rescale l).index d) ≤? Scalar.abs (v.index d)) = true := by
  rw [rescale_index_Vector3]
  exact ⟨(rescale_shrinks (fin_Vector3 hv d) h).1, abs_rescale_le (fin_Vector3 hv d) h⟩
/-- **C100**, `Vector3`: factors above one half never extinguish a component: it stays positive, or negative, for ever. -/
theorem C100_keeps_Vector3 (h : ∀ f ∈ l, f.Ok ∧ 1 / 2 < f.exact ∧ f.exact ≤ 1) (d : Dimension3) :
    (0 < real (v.index d) → 0 < real ((v.rescale l).index d)) ∧ (real (v.index d) < 0 → real ((v.rescale l).index d) < 0) := by
  rw [rescale_index_Vector3]
  exact rescale_keeps (fin_Vector3 hv d) h
/-- **C100**, `Vector3`: damping by the same factor between one half and 1 ends in a value that does not change any more. -/
theorem C100_stuck_Vector3 (f : Factor S) (hf : f.Ok) (h1 : 1 / 2 < f.exact) (h2 : f.exact ≤ 1) :
    ∃ N, ∀ n, N ≤ n → ∀ d, real ((v.rescale (List.replicate n f)).index d) = real ((v.rescale (List.replicate N f)).index d) := by
  have H : ∀ d, ∃ M, ∀ n, M ≤ n → real (rescale (v.index d) (List.replicate n f)) = real (rescale (v.index d) (List.replicate M f)) :=
    fun d => rescale_stuck (fin_Vector3 hv d) hf h1 h2
  choose M hM using H
  refine ⟨M .X + M .Y + M .Z, fun n hn d => ?_⟩
  have hle : M d ≤ M .X + M .Y + M .Z := by cases d <;> omega
  rw [rescale_index_Vector3, rescale_index_Vector3]
  exact (hM d n (hle.trans hn)).trans (hM d _ hle).symm
/-- **C100**, `Vector3`: factors of at most one half extinguish every component after `emax - emin + 1` updates. -/
theorem C100_vanishes_Vector3 (h : ∀ f ∈ l, f.Ok ∧ |f.exact| ≤ 1 / 2)
    (hl : (Binary.F S).emax - (Binary.F S).emin + 1 ≤ l.length) (d : Dimension3) : ((v.rescale l).index d == zero) = true := by
  rw [rescale_index_Vector3]
  exact isZero_iff.1 (rescale_vanishes (fin_Vector3 hv d) h (k := (Binary.F S).emax) (by have := Fl.bound (Binary.F S); omega)
    (inFormat (fin_Vector3 hv d)).2.le hl)
/-- **C100**, `Vector3`: powers of two are exact as long as the exact value is in range. -/
theorem C100_exact_Vector3 (h : ∀ f ∈ l, f.Ok ∧ ∃ j : ℤ, f.exact = 2 ^ j) (d : Dimension3)
    (hr : real (v.index d) = 0 ∨ ∀ l', l' <+: l → l' ≠ [] →
      minNormal S ≤ |real (v.index d) * total l'| ∧ |real (v.index d) * total l'| < overflowAt S) :
    Exactly ((v.rescale l).index d) (real (v.index d) * total l) := by
  rw [rescale_index_Vector3]
  exact rescale_exact' (fin_Vector3 hv d) h hr
/-- **C100**, `Vector3`: there and back by powers of two. -/
theorem C100_back_Vector3 (h : ∀ f ∈ l, f.Ok ∧ ∃ j : ℤ, f.exact = 2 ^ j) (ht : total l = 1)
    (hr : ∀ d, real (v.index d) = 0 ∨ ∀ l', l' <+: l → l' ≠ [] →
      minNormal S ≤ |real (v.index d) * total l'| ∧ |real (v.index d) * total l'| < overflowAt S) :
    (v.rescale l == v) = true := by
  have H : ∀ d, (((v.rescale l).index d) == v.index d) = true := by
    intro d
    have := C100_exact_Vector3 v l hv h d (hr d)
    rw [ht, mul_one] at this
    exact beq_iff.2 ⟨this.1.not_nan, (fin_Vector3 hv d).not_nan, by rw [this.1.val, (fin_Vector3 hv d).val, this.2]⟩
  exact Vector3.beq_iff.2 ⟨H .X, H .Y, H .Z⟩
/-- **C100**, `Vector3`: without underflow and overflow, `n` updates lead to the exact product but for a factor between
`(1 + u)^-n` and `(1 - u)^-n`. -/
theorem C100_accurate_Vector3 (h : ∀ f ∈ l, f.Ok) (d : Dimension3)
    (hr : ∀ l', l' <+: l → l' ≠ [] → IsFinite ((v.rescale l').index d) ∧ minNormal S ≤ |real ((v.rescale l').index d)|) :
    ∃ θ : ℝ, real ((v.rescale l).index d) = θ * (real (v.index d) * total l) ∧ 1 / (1 + uro S) ^ l.length ≤ θ ∧ θ ≤ 1 / (1 - uro S) ^ l.length := by
  simp only [rescale_index_Vector3] at hr ⊢
  exact rescale_accurate (fin_Vector3 hv d) h hr
/-- **C100**, `Vector3`: factors of at most 1 in magnitude never let the computed length grow. -/
theorem C100_length_Vector3 (h : ∀ f ∈ l, f.Ok ∧ |f.exact| ≤ 1) : (Api.length (v.rescale l) ≤? Api.length v) = true := by
  refine C69_length3 _ _ (Vector3.leAll.2 ?_)
  exact ⟨(C100_shrinks_Vector3 v l hv h .X).2, (C100_shrinks_Vector3 v l hv h .Y).2, (C100_shrinks_Vector3 v l hv h .Z).2⟩
end

section
variable {S : Type} [Scalar S]
theorem rescale_index_Point2 (v : Point2 S) (l : List (Factor S)) (d : Dimension2) : (v.rescale l).index d = rescale (v.index d) l := by
  induction l generalizing v with
  | nil => rfl
  | cons f l ih =>
    cases f with
    | times s => refine (ih (v.mulAssign s)).trans ?_; cases d <;> rfl
    | over s => refine (ih (v.divAssign s)).trans ?_; cases d <;> rfl
variable [IEEE S]
theorem fin_Point2 {v : Point2 S} (hv : AllFinite v) (d : Dimension2) : IsFinite (v.index d) := by
  rw [Point2.allFinite] at hv
  cases d
  exacts [hv.1, hv.2]
variable [Binary S] (v : Point2 S) (l : List (Factor S)) (hv : AllFinite v)
include hv
/-- **C100**, `Point2`: factors of at most 1 in magnitude never let a component grow, and never produce anything but finite
numbers. -/
theorem C100_shrinks_Point2 (h : ∀ f ∈ l, f.Ok ∧ |f.exact| ≤ 1) (d : Dimension2) :
    IsFinite ((v.rescale l).index d) ∧ (Scalar.abs ((v.rescale l).index d) ≤? Scalar.abs (v.index d)) = true := by
  rw [rescale_index_Point2]
  exact ⟨(rescale_shrinks (fin_Point2 hv d) h).1, abs_rescale_le (fin_Point2 hv d) h⟩
/-- **C100**, `Point2`: factors above one half never extinguish a component: it stays positive, or negative, for ever. -/
theorem C100_keeps_Point2 (h : ∀ f ∈ l, f.Ok ∧ 1 / 2 < f.exact ∧ f.exact ≤ 1) (d : Dimension2) :
    (0 < real (v.index d) → 0 < real ((v.rescale l).index d)) ∧ (real (v.index d) < 0 → real ((v.rescale l).index d) < 0) := by
  rw [rescale_index_Point2]
  exact rescale_keeps (fin_Point2 hv d) h
/-- **C100**, `Point2`: damping by the same factor between one half and 1 ends in a value that does not change any more. -/
theorem C100_stuck_Point2 (f : Factor S) (hf : f.Ok) (h1 : 1 / 2 < f.exact) (h2 : f.exact ≤ 1) :
    ∃ N, ∀ n, N ≤ n → ∀ d, real ((v.rescale (List.replicate n f)).index d) = real ((v.rescale (List.replicate N f)).index d) := by
  have H : ∀ d, ∃ M, ∀ n, M ≤ n → real (rescale (v.index d) (List.replicate n f)) = real (rescale (v.index d) (List.replicate M f)) :=
    fun d => rescale_stuck (fin_Point2 hv d) hf h1 h2
  choose M hM using H
  refine ⟨M .X + M .Y, fun n hn d => ?_⟩
  have hle : M d ≤ M .X + M .Y := by cases d <;> omega
  rw [rescale_index_Point2, rescale_index_Point2]
  exact (hM d n (hle.trans hn)).trans (hM d _ hle).symm
/-- **C100**, `Point2`: factors of at most one half extinguish every component after `emax - emin + 1` updates. -/
theorem C100_vanishes_Point2 (h : ∀ f ∈ l, f.Ok ∧ |f.exact| ≤ 1 / 2)
    (hl : (Binary.F S).emax - (Binary.F S).emin + 1 ≤ l.length) (d : Dimension2) : ((v.rescale l).index d == zero) = true := by
  rw [rescale_index_Point2]
  exact isZero_iff.1 (rescale_vanishes (fin_Point2 hv d) h (k := (Binary.F S).emax) (by have := Fl.bound (Binary.F S); omega)
    (inFormat (fin_Point2 hv d)).2.le hl)
/-- **C100**, `Point2`: powers of two are exact as long as the exact value is in range. -/
theorem C100_exact_Point2 (h : ∀ f ∈ l, f.Ok ∧ ∃ j : ℤ, f.exact = 2 ^ j) (d : Dimension2)
    (hr : real (v.index d) = 0 ∨ ∀ l', l' <+: l → l' ≠ [] →
      minNormal S ≤ |real (v.index d) * total l'| ∧ |real (v.index d) * total l'| < overflowAt S) :
    Exactly ((v.rescale l).index d) (real (v.index d) * total l) := by
  rw [rescale_index_Point2]
  exact rescale_exact' (fin_Point2 hv d) h hr
/-- **C100**, `Point2`: there and back by powers of two. -/
theorem C100_back_Point2 (h : ∀ f ∈ l, f.Ok ∧ ∃ j : ℤ, f.exact = 2 ^ j) (ht : total l = 1)
    (hr : ∀ d, real (v.index d) = 0 ∨ ∀ l', l' <+: l → l' ≠ [] →
      minNormal S ≤ |real (v.index d) * total l'| ∧ |real (v.index d) * total l'| < overflowAt S) :
    (v.rescale l == v) = true := by
  have H : ∀ d, (((v.rescale l).index d) == v.index d) = true := by
    intro d
    have := C100_exact_Point2 v l hv h d (hr d)
    rw [ht, mul_one] at this
    exact beq_iff.2 ⟨this.1.not_nan, (fin_Point2 hv d).not_nan, by rw [this.1.val, (fin_Point2 hv d).val, this.2]⟩
  exact Point2.beq_iff.2 ⟨H .X, H .Y⟩
/-- **C100**, `Point2`: without underflow and overflow, `n` updates lead to the exact product but for a factor between
`(1 + u)^-n` and `(1 - u)^-n`. -/
theorem C100_accurate_Point2 (h : ∀ f ∈ l, f.Ok) (d : Dimension2)
    (hr : ∀ l', l' <+: l → l' ≠ [] → IsFinite ((v.rescale l').index d) ∧ minNormal S ≤ |real ((v.rescale l').index d)|) :
    ∃ θ : ℝ, real ((v.rescale l).index d) = θ * (real (v.index d) * total l) ∧ 1 / (1 + uro S) ^ l.length ≤ θ ∧ θ ≤ 1 / (1 - uro S) ^ l.length := by
  simp only [rescale_index_Point2] at hr ⊢
  exact rescale_accurate (fin_Point2 hv d) h hr
end

section
variable {S : Type} [Scalar S]
theorem rescale_index_Point3 (v : Point3 S) (l : List (Factor S)) (d : Dimension3) : (v.rescale l).index d = rescale (v.index d) l := by
  induction l generalizing v with
  | nil => rfl
  | cons f l ih =>
    cases f with
    | times s => refine (ih (v.mulAssign s)).trans ?_; cases d <;> rfl
    | over s => refine (ih (v.divAssign s)).trans ?_; cases d <;> rfl
variable [IEEE S]
theorem fin_Point3 {v : Point3 S} (hv : AllFinite v) (d : Dimension3) : IsFinite (v.index d) := by
  rw [Point3.allFinite] at hv
  cases d
  exacts [hv.1, hv.2.1, hv.2.2]
variable [Binary S] (v : Point3 S) (l : List (Factor S)) (hv : AllFinite v)
include hv
/-- **C100**, `Point3`: factors of at most 1 in magnitude never let a component grow, and never produce anything but finite
numbers. -/
theorem C100_shrinks_Point3 (h : ∀ f ∈ l, f.Ok ∧ |f.exact| ≤ 1) (d : Dimension3) :
    IsFinite ((v.rescale l).index d) ∧ (Scalar.abs ((v.rescale l).index d) ≤? Scalar.abs (v.index d)) = true := by
  rw [rescale_index_Point3]
  exact ⟨(rescale_shrinks (fin_Point3 hv d) h).1, abs_rescale_le (fin_Point3 hv d) h⟩
/-- **C100**, `Point3`: factors above one half never extinguish a component: it stays positive, or negative, for ever. -/
theorem C100_keeps_Point3 (h : ∀ f ∈ l, f.Ok ∧ 1 / 2 < f.exact ∧ f.exact ≤ 1) (d : Dimension3) :
    (0 < real (v.index d) → 0 < real ((v.rescale l).index d)) ∧ (real (v.index d) < 0 → real ((v.rescale l).index d) < 0) := by
  rw [rescale_index_Point3]
  exact rescale_keeps (fin_Point3 hv d) h
/-- **C100**, `Point3`: damping by the same factor between one half and 1 ends in a value that does not change any more. -/
theorem C100_stuck_Point3 (f : Factor S) (hf : f.Ok) (h1 : 1 / 2 < f.exact) (h2 : f.exact ≤ 1) :
    ∃ N, ∀ n, N ≤ n → ∀ d, real ((v.rescale (List.replicate n f)).index d) = real ((v.rescale (List.replicate N f)).index d) := by
  have H : ∀ d, ∃ M, ∀ n, M ≤ n → real (rescale (v.index d) (List.replicate n f)) = real (rescale (v.index d) (List.replicate M f)) :=
    fun d => rescale_stuck (fin_Point3 hv d) hf h1 h2
  choose M hM using H
  refine ⟨M .X + M .Y + M .Z, fun n hn d => ?_⟩
  have hle : M d ≤ M .X + M .Y + M .Z := by cases d <;> omega
  rw [rescale_index_Point3, rescale_index_Point3]
  exact (hM d n (hle.trans hn)).trans (hM d _ hle).symm
/-- **C100**, `Point3`: factors of at most one half extinguish every component after `emax - emin + 1` updates. -/
theorem C100_vanishes_Point3 (h : ∀ f ∈ l, f.Ok ∧ |f.exact| ≤ 1 / 2)
    (hl : (Binary.F S).emax - (Binary.F S).emin + 1 ≤ l.length) (d : Dimension3) : ((v.rescale l).index d == zero) = true := by
  rw [rescale_index_Point3]
  exact isZero_iff.1 (rescale_vanishes (fin_Point3 hv d) h (k := (Binary.F S).emax) (by have := Fl.bound (Binary.F S); omega)
    (inFormat (fin_Point3 hv d)).2.le hl)
/-- **C100**, `Point3`: powers of two are exact as long as the exact value is in range. -/
theorem C100_exact_Point3 (h : ∀ f ∈ l, f.Ok ∧ ∃ j : ℤ, f.exact = 2 ^ j) (d : Dimension3)
    (hr : real (v.index d) = 0 ∨ ∀ l', l' <+: l → l' ≠ [] →
      minNormal S ≤ |real (v.index d) * total l'| ∧ |real (v.index d) * total l'| < overflowAt S) :
    Exactly ((v.rescale l).index d) (real (v.index d) * total l) := by
  rw [rescale_index_Point3]
  exact rescale_exact' (fin_Point3 hv d) h hr
/-- **C100**, `Point3`: there and back by powers of two. -/
theorem C100_back_Point3 (h : ∀ f ∈ l, f.Ok ∧ ∃ j : ℤ, f.exact = 2 ^ j) (ht : total l = 1)
    (hr : ∀ d, real (v.index d) = 0 ∨ ∀ l', l' <+: l → l' ≠ [] →
      minNormal S ≤ |real (v.index d) * total l'| ∧ |real (v.index d) * total l'| < overflowAt S) :
    (v.rescale l == v) = true := by
  have H : ∀ d, (((v.rescale l).index d) == v.index d) = true := by
    intro d
    have := C100_exact_Point3 v l hv h d (hr d)
    rw [ht, mul_one] at this
    exact beq_iff.2 ⟨this.1.not_nan, (fin_Point3 hv d).not_nan, by rw [this.1.val, (fin_Point3 hv d).val, this.2]⟩
  exact Point3.beq_iff.2 ⟨H .X, H .Y, H .Z⟩
/-- **C100**, `Point3`: without underflow and overflow, `n` updates lead to the exact product but for a factor between
`(1 + u)^-n` and `(1 - u)^-n`. -/
theorem C100_accurate_Point3 (h : ∀ f ∈ l, f.Ok) (d : Dimension3)
    (hr : ∀ l', l' <+: l → l' ≠ [] → IsFinite ((v.rescale l').index d) ∧ minNormal S ≤ |real ((v.rescale l').index d)|) :
    ∃ θ : ℝ, real ((v.rescale l).index d) = θ * (real (v.index d) * total l) ∧ 1 / (1 + uro S) ^ l.length ≤ θ ∧ θ ≤ 1 / (1 - uro S) ^ l.length := by
  simp only [rescale_index_Point3] at hr ⊢
  exact rescale_accurate (fin_Point3 hv d) h hr
end

section
variable {S : Type} [Scalar S]
theorem rescale_index_Matrix3x3 (v : Matrix3x3 S) (l : List (Factor S)) (k : ℕ) (hk : k < 9) : (v.rescale l).m[k] = rescale (v.m[k]) l := by
  induction l generalizing v with
  | nil => rfl
  | cons f l ih =>
    cases f with
    | times s =>
      have := ih (v.mulAssign s)
      rw [show (v.mulAssign s).m[k] = v.m[k] * s from Vector.getElem_map _ _] at this
      exact this
    | over s =>
      have := ih (v.divAssign s)
      rw [show (v.divAssign s).m[k] = v.m[k] / s from Vector.getElem_map _ _] at this
      exact this
variable [IEEE S]
variable [Binary S] (v : Matrix3x3 S) (l : List (Factor S)) (hv : AllFinite v)
include hv
/-- **C100**, `Matrix3x3`: factors of at most 1 in magnitude never let a component grow, and never produce anything but finite
numbers. -/
theorem C100_shrinks_Matrix3x3 (h : ∀ f ∈ l, f.Ok ∧ |f.exact| ≤ 1) (k : ℕ) (hk : k < 9) :
    IsFinite ((v.rescale l).m[k]) ∧ (Scalar.abs ((v.rescale l).m[k]) ≤? Scalar.abs (v.m[k])) = true := by
  rw [rescale_index_Matrix3x3]
  exact ⟨(rescale_shrinks (Matrix3x3.allFinite.1 hv k hk) h).1, abs_rescale_le (Matrix3x3.allFinite.1 hv k hk) h⟩
/-- **C100**, `Matrix3x3`: factors above one half never extinguish a component: it stays positive, or negative, for ever. -/
theorem C100_keeps_Matrix3x3 (h : ∀ f ∈ l, f.Ok ∧ 1 / 2 < f.exact ∧ f.exact ≤ 1) (k : ℕ) (hk : k < 9) :
    (0 < real (v.m[k]) → 0 < real ((v.rescale l).m[k])) ∧ (real (v.m[k]) < 0 → real ((v.rescale l).m[k]) < 0) := by
  rw [rescale_index_Matrix3x3]
  exact rescale_keeps (Matrix3x3.allFinite.1 hv k hk) h
/-- **C100**, `Matrix3x3`: damping by the same factor between one half and 1 ends in a value that does not change any more. -/
theorem C100_stuck_Matrix3x3 (f : Factor S) (hf : f.Ok) (h1 : 1 / 2 < f.exact) (h2 : f.exact ≤ 1) :
    ∃ N, ∀ n, N ≤ n → ∀ (k : ℕ) (hk : k < 9), real ((v.rescale (List.replicate n f)).m[k]) = real ((v.rescale (List.replicate N f)).m[k]) := by
  have H : ∀ k : Fin 9, ∃ M, ∀ n, M ≤ n → real (rescale v.m[k.val] (List.replicate n f)) = real (rescale v.m[k.val] (List.replicate M f)) :=
    fun k => rescale_stuck (Matrix3x3.allFinite.1 hv k.val k.isLt) hf h1 h2
  choose M hM using H
  refine ⟨Finset.univ.sup M, fun n hn k hk => ?_⟩
  have hle : M ⟨k, hk⟩ ≤ Finset.univ.sup M := Finset.le_sup (f := M) (Finset.mem_univ _)
  rw [rescale_index_Matrix3x3, rescale_index_Matrix3x3]
  exact (hM ⟨k, hk⟩ n (hle.trans hn)).trans (hM ⟨k, hk⟩ _ hle).symm
/-- **C100**, `Matrix3x3`: factors of at most one half extinguish every component after `emax - emin + 1` updates. -/
theorem C100_vanishes_Matrix3x3 (h : ∀ f ∈ l, f.Ok ∧ |f.exact| ≤ 1 / 2)
    (hl : (Binary.F S).emax - (Binary.F S).emin + 1 ≤ l.length) (k : ℕ) (hk : k < 9) : ((v.rescale l).m[k] == zero) = true := by
  rw [rescale_index_Matrix3x3]
  exact isZero_iff.1 (rescale_vanishes (Matrix3x3.allFinite.1 hv k hk) h (k := (Binary.F S).emax) (by have := Fl.bound (Binary.F S); omega)
    (inFormat (Matrix3x3.allFinite.1 hv k hk)).2.le hl)
/-- **C100**, `Matrix3x3`: powers of two are exact as long as the exact value is in range. -/
theorem C100_exact_Matrix3x3 (h : ∀ f ∈ l, f.Ok ∧ ∃ j : ℤ, f.exact = 2 ^ j) (k : ℕ) (hk : k < 9)
    (hr : real (v.m[k]) = 0 ∨ ∀ l', l' <+: l → l' ≠ [] →
      minNormal S ≤ |real (v.m[k]) * total l'| ∧ |real (v.m[k]) * total l'| < overflowAt S) :
    Exactly ((v.rescale l).m[k]) (real (v.m[k]) * total l) := by
  rw [rescale_index_Matrix3x3]
  exact rescale_exact' (Matrix3x3.allFinite.1 hv k hk) h hr
/-- **C100**, `Matrix3x3`: there and back by powers of two. -/
theorem C100_back_Matrix3x3 (h : ∀ f ∈ l, f.Ok ∧ ∃ j : ℤ, f.exact = 2 ^ j) (ht : total l = 1)
    (hr : ∀ (k : ℕ) (hk : k < 9), real (v.m[k]) = 0 ∨ ∀ l', l' <+: l → l' ≠ [] →
      minNormal S ≤ |real (v.m[k]) * total l'| ∧ |real (v.m[k]) * total l'| < overflowAt S) :
    (v.rescale l == v) = true := by
  have H : ∀ (k : ℕ) (hk : k < 9), (((v.rescale l).m[k]) == v.m[k]) = true := by
    intro k hk
    have := C100_exact_Matrix3x3 v l hv h k hk (hr k hk)
    rw [ht, mul_one] at this
    exact beq_iff.2 ⟨this.1.not_nan, (Matrix3x3.allFinite.1 hv k hk).not_nan, by rw [this.1.val, (Matrix3x3.allFinite.1 hv k hk).val, this.2]⟩
  exact Matrix3x3.beq_iff.2 H
/-- **C100**, `Matrix3x3`: without underflow and overflow, `n` updates lead to the exact product but for a factor between
`(1 + u)^-n` and `(1 - u)^-n`. -/
theorem C100_accurate_Matrix3x3 (h : ∀ f ∈ l, f.Ok) (k : ℕ) (hk : k < 9)
    (hr : ∀ l', l' <+: l → l' ≠ [] → IsFinite ((v.rescale l').m[k]) ∧ minNormal S ≤ |real ((v.rescale l').m[k])|) :
    ∃ θ : ℝ, real ((v.rescale l).m[k]) = θ * (real (v.m[k]) * total l) ∧ 1 / (1 + uro S) ^ l.length ≤ θ ∧ θ ≤ 1 / (1 - uro S) ^ l.length := by
  simp only [rescale_index_Matrix3x3] at hr ⊢
  exact rescale_accurate (Matrix3x3.allFinite.1 hv k hk) h hr
end

section
variable {S : Type} [Scalar S]
theorem rescale_index_Matrix4x4 (v : Matrix4x4 S) (l : List (Factor S)) (k : ℕ) (hk : k < 16) : (v.rescale l).m[k] = rescale (v.m[k]) l := by
  induction l generalizing v with
  | nil => rfl
  | cons f l ih =>
    cases f with
    | times s =>
      have := ih (v.mulAssign s)
      rw [show (v.mulAssign s).m[k] = v.m[k] * s from Vector.getElem_map _ _] at this
      exact this
    | over s =>
      have := ih (v.divAssign s)
      rw [show (v.divAssign s).m[k] = v.m[k] / s from Vector.getElem_map _ _] at this
      exact this
variable [IEEE S]
variable [Binary S] (v : Matrix4x4 S) (l : List (Factor S)) (hv : AllFinite v)
include hv
/-- **C100**, `Matrix4x4`: factors of at most 1 in magnitude never let a component grow, and never produce anything but finite
numbers. -/
theorem C100_shrinks_Matrix4x4 (h : ∀ f ∈ l, f.Ok ∧ |f.exact| ≤ 1) (k : ℕ) (hk : k < 16) :
    IsFinite ((v.rescale l).m[k]) ∧ (Scalar.abs ((v.rescale l).m[k]) ≤? Scalar.abs (v.m[k])) = true := by
  rw [rescale_index_Matrix4x4]
  exact ⟨(rescale_shrinks (Matrix4x4.allFinite.1 hv k hk) h).1, abs_rescale_le (Matrix4x4.allFinite.1 hv k hk) h⟩
/-- **C100**, `Matrix4x4`: factors above one half never extinguish a component: it stays positive, or negative, for ever. -/
theorem C100_keeps_Matrix4x4 (h : ∀ f ∈ l, f.Ok ∧ 1 / 2 < f.exact ∧ f.exact ≤ 1) (k : ℕ) (hk : k < 16) :
    (0 < real (v.m[k]) → 0 < real ((v.rescale l).m[k])) ∧ (real (v.m[k]) < 0 → real ((v.rescale l).m[k]) < 0) := by
  rw [rescale_index_Matrix4x4]
  exact rescale_keeps (Matrix4x4.allFinite.1 hv k hk) h
/-- **C100**, `Matrix4x4`: damping by the same factor between one half and 1 ends in a value that does not change any more. -/
theorem C100_stuck_Matrix4x4 (f : Factor S) (hf : f.Ok) (h1 : 1 / 2 < f.exact) (h2 : f.exact ≤ 1) :
    ∃ N, ∀ n, N ≤ n → ∀ (k : ℕ) (hk : k < 16), real ((v.rescale (List.replicate n f)).m[k]) = real ((v.rescale (List.replicate N f)).m[k]) := by
  have H : ∀ k : Fin 16, ∃ M, ∀ n, M ≤ n → real (rescale v.m[k.val] (List.replicate n f)) = real (rescale v.m[k.val] (List.replicate M f)) :=
    fun k => rescale_stuck (Matrix4x4.allFinite.1 hv k.val k.isLt) hf h1 h2
  choose M hM using H
  refine ⟨Finset.univ.sup M, fun n hn k hk => ?_⟩
  have hle : M ⟨k, hk⟩ ≤ Finset.univ.sup M := Finset.le_sup (f := M) (Finset.mem_univ _)
  rw [rescale_index_Matrix4x4, rescale_index_Matrix4x4]
  exact (hM ⟨k, hk⟩ n (hle.trans hn)).trans (hM ⟨k, hk⟩ _ hle).symm
/-- **C100**, `Matrix4x4`: factors of at most one half extinguish every component after `emax - emin + 1` updates. -/
theorem C100_vanishes_Matrix4x4 (h : ∀ f ∈ l, f.Ok ∧ |f.exact| ≤ 1 / 2)
    (hl : (Binary.F S).emax - (Binary.F S).emin + 1 ≤ l.length) (k : ℕ) (hk : k < 16) : ((v.rescale l).m[k] == zero) = true := by
  rw [rescale_index_Matrix4x4]
  exact isZero_iff.1 (rescale_vanishes (Matrix4x4.allFinite.1 hv k hk) h (k := (Binary.F S).emax) (by have := Fl.bound (Binary.F S); omega)
    (inFormat (Matrix4x4.allFinite.1 hv k hk)).2.le hl)
/-- **C100**, `Matrix4x4`: powers of two are exact as long as the exact value is in range. -/
theorem C100_exact_Matrix4x4 (h : ∀ f ∈ l, f.Ok ∧ ∃ j : ℤ, f.exact = 2 ^ j) (k : ℕ) (hk : k < 16)
    (hr : real (v.m[k]) = 0 ∨ ∀ l', l' <+: l → l' ≠ [] →
      minNormal S ≤ |real (v.m[k]) * total l'| ∧ |real (v.m[k]) * total l'| < overflowAt S) :
    Exactly ((v.rescale l).m[k]) (real (v.m[k]) * total l) := by
  rw [rescale_index_Matrix4x4]
  exact rescale_exact' (Matrix4x4.allFinite.1 hv k hk) h hr
/-- **C100**, `Matrix4x4`: there and back by powers of two. -/
theorem C100_back_Matrix4x4 (h : ∀ f ∈ l, f.Ok ∧ ∃ j : ℤ, f.exact = 2 ^ j) (ht : total l = 1)
    (hr : ∀ (k : ℕ) (hk : k < 16), real (v.m[k]) = 0 ∨ ∀ l', l' <+: l → l' ≠ [] →
      minNormal S ≤ |real (v.m[k]) * total l'| ∧ |real (v.m[k]) * total l'| < overflowAt S) :
    (v.rescale l == v) = true := by
  have H : ∀ (k : ℕ) (hk : k < 16), (((v.rescale l).m[k]) == v.m[k]) = true := by
    intro k hk
    have := C100_exact_Matrix4x4 v l hv h k hk (hr k hk)
    rw [ht, mul_one] at this
    exact beq_iff.2 ⟨this.1.not_nan, (Matrix4x4.allFinite.1 hv k hk).not_nan, by rw [this.1.val, (Matrix4x4.allFinite.1 hv k hk).val, this.2]⟩
  exact Matrix4x4.beq_iff.2 H
/-- **C100**, `Matrix4x4`: without underflow and overflow, `n` updates lead to the exact product but for a factor between
`(1 + u)^-n` and `(1 - u)^-n`. -/
theorem C100_accurate_Matrix4x4 (h : ∀ f ∈ l, f.Ok) (k : ℕ) (hk : k < 16)
    (hr : ∀ l', l' <+: l → l' ≠ [] → IsFinite ((v.rescale l').m[k]) ∧ minNormal S ≤ |real ((v.rescale l').m[k])|) :
    ∃ θ : ℝ, real ((v.rescale l).m[k]) = θ * (real (v.m[k]) * total l) ∧ 1 / (1 + uro S) ^ l.length ≤ θ ∧ θ ≤ 1 / (1 - uro S) ^ l.length := by
  simp only [rescale_index_Matrix4x4] at hr ⊢
  exact rescale_accurate (Matrix4x4.allFinite.1 hv k hk) h hr
end

end VecMath

import Verif.Props.FloatChain
import Verif.Lemmas.Frob2
import Verif.Lemmas.FinBound
/-!
# Layer F: rotations (C72)

(Generated by tools/gen/rot.py.)
-/

open Classical

namespace VecMath
open Scalar IEEE

variable {S : Type} [Scalar S] [IEEE S] [Binary S]

theorem pow_uro_nonneg (k : ℕ) : 0 ≤ (1 + uro S) ^ k - 1 :=
  sub_nonneg.2 (Approx.one_le_pow k)

/-! ## Drift of chains of nearly orthogonal matrices -/

theorem real_zero_mul' {a x : S} (h : IsFinite (a * x)) (a0 : real a = 0) : real (a * x) = 0 := by
  rw [real_mul h, a0, zero_mul, rnd_eq]; exact (Binary.F S).rnd_zero
theorem real_one_mul' {a x : S} (h : IsFinite (a * x)) (a1 : real a = 1) : real (a * x) = real x := by
  rw [real_mul h, a1, one_mul, rnd_eq]; exact (Binary.F S).rnd_of_has (isFinite_has (finite_of_mul h).2)
theorem real_zero_add' {a x : S} (h : IsFinite (a + x)) (a0 : real a = 0) : real (a + x) = real x := by
  rw [real_add h, a0, zero_add, rnd_eq]; exact (Binary.F S).rnd_of_has (isFinite_has (finite_of_add h).2)
theorem row2_last {a b x y : S} (h : IsFinite (a * x + b * y)) (a0 : real a = 0) : real (a * x + b * y) = real (b * y) :=
  real_zero_add' h (real_zero_mul' (finite_of_add h).1 a0)
theorem row3_last {a b c x y z : S} (h : IsFinite (a * x + b * y + c * z)) (a0 : real a = 0) (b0 : real b = 0)
    (c1 : real c = 1) : real (a * x + b * y + c * z) = real z := by
  have h1 := finite_of_add h
  rw [real_zero_add' h (by rw [row2_last h1.1 a0]; exact real_zero_mul' (finite_of_add h1.1).2 b0)]
  exact real_one_mul' h1.2 c1
theorem row4_last {a b c d x y z w : S} (h : IsFinite (a * x + b * y + c * z + d * w)) (a0 : real a = 0) (b0 : real b = 0)
    (c0 : real c = 0) (d1 : real d = 1) : real (a * x + b * y + c * z + d * w) = real w := by
  have h1 := finite_of_add h
  have h2 := finite_of_add h1.1
  rw [real_zero_add' h (by
    rw [real_zero_add' h1.1 (by rw [row2_last h2.1 a0]; exact real_zero_mul' (finite_of_add h2.1).2 b0)]
    exact real_zero_mul' h2.2 c0)]
  exact real_one_mul' h1.2 d1
omit [Binary S] in
theorem same_add_congr {a b c d : S} (h : Same a b) (h' : Same c d) : Same (a + c) (b + d) := by
  unfold Same at *; rw [den_add, den_add, h, h']
omit [Binary S] in
theorem mul_swap {a b c d : S} (h : Same a b) (h' : Same c d) : Same (a * c) (d * b) := by
  have : Same (a * c) (b * d) := by unfold Same at *; rw [den_mul, den_mul, h, h']
  exact this.trans (same_mul_comm _ _)

/-- **C72** Drift (2D). If the forward matrices of the transforms in a chain are each within `ε` in size of an orthogonal
matrix, then after `n` further compositions the result is within `κ^n (1+ε)^(n+1) - 1` of the exact product of these
orthogonal matrices, which is orthogonal; `κ` is one plus 3 times the error of one inner product. -/
theorem C72_drift2 {ι : Type} (T : ι → Transform2 S) (t : ι) (ts : List ι) (Q : ι → Matrix (Fin 3) (Fin 3) ℝ)
    {ε : ℝ} (hQ : ∀ u ∈ t :: ts, Orthogonal (Q u)) (hN : ∀ u ∈ t :: ts, (T u).forward.Near (Q u) ε)
    (h : AllFinite ((ts.map T).foldl Transform2.andThen (T t)).forward) :
    Orthogonal (((t :: ts).map Q).reverse.prod) ∧
    ((ts.map T).foldl Transform2.andThen (T t)).forward.Near (((t :: ts).map Q).reverse.prod)
      ((1 + 3 * ((1 + uro S) ^ 3 - 1) + 3 * ((1 + uro S) ^ 2 * (3 * tiny S))) ^ ts.length *
        (1 + ε) ^ (ts.length + 1) - 1) := by
  have hu := uro_pos (S := S)
  have htiny := tiny_pos (S := S)
  induction ts using List.reverseRecOn with
  | nil =>
    simpa using ⟨hQ t List.mem_cons_self, hN t List.mem_cons_self⟩
  | append_singleton ts u ih =>
    rw [← List.cons_append] at *
    have hm : u ∈ t :: ts ++ [u] := List.mem_append_right _ List.mem_cons_self
    rw [List.map_append (f := T), List.map_cons (f := T), List.map_nil (f := T), List.foldl_append, List.foldl_cons, List.foldl_nil] at h ⊢
    have hf : AllFinite ((T u).forward * ((ts.map T).foldl Transform2.andThen (T t)).forward) := h
    obtain ⟨o, -, b⟩ := ih (fun v hv => hQ v (List.mem_append_left _ hv)) (fun v hv => hN v (List.mem_append_left _ hv))
      (Matrix3x3.finite_mul hf).2
    rw [List.map_append, List.reverse_append, List.prod_append]
    simp only [List.map_cons, List.map_nil, List.reverse_cons, List.reverse_nil, List.nil_append, List.prod_cons,
      List.prod_nil, mul_one] at o b ⊢
    refine ⟨(hQ u hm).mul o, hf, ?_⟩
    have := near_mul (hQ u hm) o (by norm_num) (hN u hm).2 b (pow_uro_nonneg (S := S) 3)
      (by positivity : 0 ≤ (1 + uro S) ^ 2 * (3 * tiny S))
      (C63_product3x3 (T u).forward ((ts.map T).foldl Transform2.andThen (T t)).forward hf)
    rw [List.length_append, List.length_singleton, pow_succ, pow_succ (1 + ε) (ts.length + 1)]
    refine le_sub_iff_add_le'.2 (this.trans (le_of_eq ?_))
    push_cast
    ring

theorem Matrix3x3.finite_of_size (hS : Ample S) {a b : Matrix3x3 S} (ha : AllFinite a) (hb : AllFinite b)
    (h : size a.toReal * size b.toReal ≤ 16) : AllFinite (a * b) := by
  have key : ∀ i j, ∑ k, |a.toReal i k| * |b.toReal k j| ≤ 16 := fun i j => by
    have h1 := entry_le_size (A := a.toReal.map abs * b.toReal.map abs) i j
    have h2 := size_mul (A := a.toReal.map abs) (B := b.toReal.map abs)
    rw [size_abs, size_abs] at h2
    rw [Matrix.mul_apply] at h1
    exact (le_abs_self _).trans (h1.trans (h2.trans h))
  simp only [Fin.sum_univ_three] at key
  rw [Matrix3x3.allFinite, forall_lt_9] at ha hb ⊢
  obtain ⟨a0, a1, a2, a3, a4, a5, a6, a7, a8⟩ := ha
  obtain ⟨b0, b1, b2, b3, b4, b5, b6, b7, b8⟩ := hb
  exact ⟨row3_bd hS a0 a1 a2 b0 b3 b6 (key 0 0),
      row3_bd hS a0 a1 a2 b1 b4 b7 (key 0 1),
      row3_bd hS a0 a1 a2 b2 b5 b8 (key 0 2),
      row3_bd hS a3 a4 a5 b0 b3 b6 (key 1 0),
      row3_bd hS a3 a4 a5 b1 b4 b7 (key 1 1),
      row3_bd hS a3 a4 a5 b2 b5 b8 (key 1 2),
      row3_bd hS a6 a7 a8 b0 b3 b6 (key 2 0),
      row3_bd hS a6 a7 a8 b1 b4 b7 (key 2 1),
      row3_bd hS a6 a7 a8 b2 b5 b8 (key 2 2)⟩

/-- **C72** (2D) In an ample format such chains do not overflow as long as the bound on the drift stays below 1. -/
theorem C72_bounded2 (hS : Ample S) {ι : Type} (T : ι → Transform2 S) (t : ι) (ts : List ι)
    (Q : ι → Matrix (Fin 3) (Fin 3) ℝ) {ε : ℝ} (hQ : ∀ u ∈ t :: ts, Orthogonal (Q u))
    (hN : ∀ u ∈ t :: ts, (T u).forward.Near (Q u) ε)
    (hb : (1 + 3 * ((1 + uro S) ^ 3 - 1) + 3 * ((1 + uro S) ^ 2 * (3 * tiny S))) ^ ts.length *
        (1 + ε) ^ (ts.length + 1) ≤ 2) :
    ((ts.map T).foldl Transform2.andThen (T t)).forward.Near (((t :: ts).map Q).reverse.prod)
      ((1 + 3 * ((1 + uro S) ^ 3 - 1) + 3 * ((1 + uro S) ^ 2 * (3 * tiny S))) ^ ts.length *
        (1 + ε) ^ (ts.length + 1) - 1) := by
  suffices h : AllFinite ((ts.map T).foldl Transform2.andThen (T t)).forward from (C72_drift2 T t ts Q hQ hN h).2
  have hu := uro_pos (S := S)
  have htiny := tiny_pos (S := S)
  have hε : 0 ≤ ε := (size_nonneg _).trans (hN t List.mem_cons_self).2
  have hκ : 1 ≤ 1 + 3 * ((1 + uro S) ^ 3 - 1) + 3 * ((1 + uro S) ^ 2 * (3 * tiny S)) := by
    have := pow_uro_nonneg (S := S) 3
    have : 0 ≤ (1 + uro S) ^ 2 * (3 * tiny S) := by positivity
    linarith
  induction ts using List.reverseRecOn with
  | nil => exact (hN t List.mem_cons_self).1
  | append_singleton ts u ih =>
    rw [← List.cons_append] at *
    have hm : u ∈ t :: ts ++ [u] := List.mem_append_right _ List.mem_cons_self
    have hQ' := fun v hv => hQ v (List.mem_append_left _ hv)
    have hN' := fun v hv => hN v (List.mem_append_left _ hv)
    set κ := 1 + 3 * ((1 + uro S) ^ 3 - 1) + 3 * ((1 + uro S) ^ 2 * (3 * tiny S)) with hκd
    rw [List.length_append, List.length_singleton] at hb
    have hκn : 1 ≤ κ ^ ts.length := one_le_pow₀ hκ
    have hεn : 1 ≤ (1 + ε) ^ ts.length := one_le_pow₀ (by linarith)
    have hεn1 : 1 ≤ (1 + ε) ^ (ts.length + 1) := one_le_pow₀ (by linarith)
    have b1 : κ ^ ts.length * (1 + ε) ^ (ts.length + 1) ≤ 2 := by
      refine le_trans (mul_le_mul (pow_le_pow_right₀ hκ (Nat.le_succ _)) (pow_le_pow_right₀ (by linarith) (Nat.le_succ _))
        (by positivity) (by positivity)) hb
    have hf := ih hQ' hN' b1
    have nr := (C72_drift2 T t ts Q hQ' hN' hf)
    rw [List.map_append (f := T), List.map_cons (f := T), List.map_nil (f := T), List.foldl_append, List.foldl_cons, List.foldl_nil]
    refine Matrix3x3.finite_of_size hS (hN u hm).1 hf ?_
    have s2 : √((3 : ℕ) : ℝ) ≤ 2 := by
      rw [Real.sqrt_le_left (by norm_num)]; norm_num
    have sz : ∀ {A P : Matrix (Fin 3) (Fin 3) ℝ} {a : ℝ}, Orthogonal P → size (A - P) ≤ a →
        size A ≤ 2 + a := by
      intro A P a hP hA
      have e := size_of_orth hP.1
      have e' : size P = √((3 : ℕ) : ℝ) := by rw [← e, Real.sqrt_sq (size_nonneg _)]
      have := size_add (A := A - P) (B := P)
      rw [sub_add_cancel, e'] at this
      linarith
    have s3 := sz (hQ u hm) (hN u hm).2
    have s4 := sz nr.1 nr.2.2
    have ε1 : 1 + ε ≤ 2 := by
      have h1 : (1 + ε) ^ 1 ≤ (1 + ε) ^ (ts.length + 1) := pow_le_pow_right₀ (by linarith) (by omega)
      have h2 : (1 + ε) ^ (ts.length + 1) ≤ κ ^ ts.length * (1 + ε) ^ (ts.length + 1) := le_mul_of_one_le_left (by linarith) hκn
      rw [pow_one] at h1
      linarith
    calc size (T u).forward.toReal * size ((ts.map T).foldl Transform2.andThen (T t)).forward.toReal ≤ 3 * 3 :=
          mul_le_mul (by linarith) (by linarith) (size_nonneg _) (by norm_num)
      _ ≤ 16 := by norm_num

/-- **C72** (2D) For every history of compositions of transforms whose inverse is the transpose of the forward
matrix, such as rotations, the inverse is still exactly the transpose: composition introduces no asymmetry. -/
theorem C72_transpose2 (t : Transform2 S) (ts : List (Transform2 S))
    (ht : ∀ u ∈ t :: ts, ∀ (i : ℕ) (hi : i < 9), Same u.inverse.m[i] u.forward.transpose.m[i]) :
    ∀ (i : ℕ) (hi : i < 9), Same (ts.foldl Transform2.andThen t).inverse.m[i]
      (ts.foldl Transform2.andThen t).forward.transpose.m[i] := by
  induction ts using List.reverseRecOn with
  | nil => exact ht t List.mem_cons_self
  | append_singleton ts u ih =>
    rw [← List.cons_append] at *
    have ih := ih (fun v hv => ht v (List.mem_append_left _ hv))
    have hu := ht u (List.mem_append_right _ List.mem_cons_self)
    rw [List.foldl_append, List.foldl_cons, List.foldl_nil]
    generalize ts.foldl Transform2.andThen t = c at ih
    show ∀ (i : ℕ) (hi : i < 9), Same (c.inverse * u.inverse).m[i] (u.forward * c.forward).transpose.m[i]
    rw [forall_lt_9] at ih hu ⊢
    obtain ⟨a0, a1, a2, a3, a4, a5, a6, a7, a8⟩ := ih
    obtain ⟨b0, b1, b2, b3, b4, b5, b6, b7, b8⟩ := hu
    exact ⟨same_add_congr (same_add_congr (mul_swap a0 b0) (mul_swap a1 b3)) (mul_swap a2 b6),
      same_add_congr (same_add_congr (mul_swap a0 b1) (mul_swap a1 b4)) (mul_swap a2 b7),
      same_add_congr (same_add_congr (mul_swap a0 b2) (mul_swap a1 b5)) (mul_swap a2 b8),
      same_add_congr (same_add_congr (mul_swap a3 b0) (mul_swap a4 b3)) (mul_swap a5 b6),
      same_add_congr (same_add_congr (mul_swap a3 b1) (mul_swap a4 b4)) (mul_swap a5 b7),
      same_add_congr (same_add_congr (mul_swap a3 b2) (mul_swap a4 b5)) (mul_swap a5 b8),
      same_add_congr (same_add_congr (mul_swap a6 b0) (mul_swap a7 b3)) (mul_swap a8 b6),
      same_add_congr (same_add_congr (mul_swap a6 b1) (mul_swap a7 b4)) (mul_swap a8 b7),
      same_add_congr (same_add_congr (mul_swap a6 b2) (mul_swap a7 b5)) (mul_swap a8 b8)⟩

/-- **C72** (2D) Composition of transforms with last row exactly `0 0 1` keeps that row exact in every history: no
perspective component appears by rounding. -/
theorem C72_affine2 (t : Transform2 S) (ts : List (Transform2 S))
    (ht : ∀ u ∈ t :: ts, u.forward.toReal 2 = ![0, 0, 1])
    (h : AllFinite (ts.foldl Transform2.andThen t).forward) :
    (ts.foldl Transform2.andThen t).forward.toReal 2 = ![0, 0, 1] := by
  induction ts using List.reverseRecOn with
  | nil => exact ht t List.mem_cons_self
  | append_singleton ts u ih =>
    rw [← List.cons_append] at *
    have hu := ht u (List.mem_append_right _ List.mem_cons_self)
    rw [List.foldl_append, List.foldl_cons, List.foldl_nil] at h ⊢
    have hf : AllFinite (u.forward * (ts.foldl Transform2.andThen t).forward) := h
    have ih := ih (fun v hv => ht v (List.mem_append_left _ hv)) (Matrix3x3.finite_mul hf).2
    rw [← ih]
    rw [Matrix3x3.allFinite, forall_lt_9] at hf
    obtain ⟨-, -, -, -, -, -, h0, h1, h2⟩ := hf
    funext j
    fin_cases j
    exacts [row3_last h0 (congrFun hu 0) (congrFun hu 1) (congrFun hu 2), row3_last h1 (congrFun hu 0) (congrFun hu 1) (congrFun hu 2), row3_last h2 (congrFun hu 0) (congrFun hu 1) (congrFun hu 2)]

/-- **C72** (2D) A vector transformed by a matrix within `ε` of an orthogonal one that keeps the last coordinate is,
up to the stated error, the vector transformed exactly, and has the length it had before. -/
theorem C72_vector2 (t : Transform2 S) (Q : Matrix (Fin 3) (Fin 3) ℝ) {ε : ℝ} (hQ : Orthogonal Q)
    (hl : Q (Fin.last 2) = Pi.single (Fin.last 2) 1) (hN : t.forward.Near Q ε) (v : Vector2 S)
    (h : AllFinite (Transform.transform t v : Vector2 S)) :
    norm2 ((Transform.transform t v : Vector2 S).toReal - fun i => Q.mulVec (Fin.snoc v.toReal 0) i.castSucc) ≤
      (ε + 2 * ((1 + uro S) ^ 2 - 1) * (1 + ε)) * norm2 v.toReal + 2 * ((1 + uro S) * (2 * tiny S)) ∧
    |norm2 (Transform.transform t v : Vector2 S).toReal - norm2 v.toReal| ≤
      (ε + 2 * ((1 + uro S) ^ 2 - 1) * (1 + ε)) * norm2 v.toReal + 2 * ((1 + uro S) * (2 * tiny S)) := by
  have hu := uro_pos (S := S)
  have htiny := tiny_pos (S := S)
  have key := near_apply (n := 2) (a := 0) (v := v.toReal) (w := (Transform.transform t v : Vector2 S).toReal) (by norm_num)
    hQ hN.2 (pow_uro_nonneg (S := S) 2) (by positivity : 0 ≤ (1 + uro S) * (2 * tiny S))
    (fun i => by simpa using C63_vector2 t v h i)
  rw [norm2_snoc_zero] at key
  have e := norm2_abs_sub (Transform.transform t v : Vector2 S).toReal
    (fun i : Fin 2 => Q.mulVec (Fin.snoc v.toReal 0) i.castSucc)
  rw [orth_init hQ hl] at e
  exact ⟨key, e.trans key⟩

/-- **C72** (2D) Transforming a vector and transforming the result by the inverse transform returns the vector, up to
the stated error. -/
theorem C72_undo2 (t : Transform2 S) (Q : Matrix (Fin 3) (Fin 3) ℝ) {ε : ℝ} (hQ : Orthogonal Q)
    (hl : Q (Fin.last 2) = Pi.single (Fin.last 2) 1) (hN : t.forward.Near Q ε) (hI : t.inverse.Near Q.transpose ε)
    (v : Vector2 S) (h : AllFinite (Transform.transform t v : Vector2 S))
    (h' : AllFinite (Transform.transform t.inv (Transform.transform t v : Vector2 S) : Vector2 S)) :
    norm2 ((Transform.transform t.inv (Transform.transform t v : Vector2 S) : Vector2 S).toReal - v.toReal) ≤
      (ε + 2 * ((1 + uro S) ^ 2 - 1) * (1 + ε)) * (2 + (ε + 2 * ((1 + uro S) ^ 2 - 1) * (1 + ε))) * norm2 v.toReal +
        (2 + (ε + 2 * ((1 + uro S) ^ 2 - 1) * (1 + ε))) * (2 * ((1 + uro S) * (2 * tiny S))) := by
  have hu := uro_pos (S := S)
  have htiny := tiny_pos (S := S)
  have hε : 0 ≤ ε := (size_nonneg _).trans hN.2
  obtain ⟨k1, k2⟩ := C72_vector2 t Q hQ hl hN v h
  set w := (Transform.transform t v : Vector2 S) with hw
  have key := near_apply (n := 2) (a := 0) (v := w.toReal) (w := (Transform.transform t.inv w : Vector2 S).toReal)
    (by norm_num) hQ.transpose hI.2 (pow_uro_nonneg (S := S) 2) (by positivity : 0 ≤ (1 + uro S) * (2 * tiny S))
    (fun i => by simpa [show t.inv.forward = t.inverse from rfl] using C63_vector2 t.inv w h' i)
  rw [norm2_snoc_zero] at key
  set η := ε + 2 * ((1 + uro S) ^ 2 - 1) * (1 + ε) with hη
  have hη0 : 0 ≤ η := by have := pow_uro_nonneg (S := S) 2; positivity
  set τ := 2 * ((1 + uro S) * (2 * tiny S)) with hτ
  set x := (Transform.transform t.inv w : Vector2 S).toReal with hx
  have kk := norm2_undo hQ hl v.toReal w.toReal x
  have : norm2 w.toReal ≤ (1 + η) * norm2 v.toReal + τ := by linarith [(abs_le.1 k2).2]
  have := mul_le_mul_of_nonneg_left this hη0
  nlinarith

/-- **C72** (2D) Points: distances are preserved up to the stated error. -/
theorem C72_point2 (t : Transform2 S) (Q : Matrix (Fin 3) (Fin 3) ℝ) {ε : ℝ} (hQ : Orthogonal Q)
    (hl : Q (Fin.last 2) = Pi.single (Fin.last 2) 1) (hN : t.forward.Near Q ε)
    (haff : t.forward.toReal 2 = ![0, 0, 1]) (p q : Point2 S) (hp : AllFinite p) (hq : AllFinite q)
    (h : AllFinite (Transform.transform t p : Point2 S)) (h' : AllFinite (Transform.transform t q : Point2 S)) :
    |norm2 ((Transform.transform t p : Point2 S).toReal - (Transform.transform t q : Point2 S).toReal)
        - norm2 (p.toReal - q.toReal)| ≤
      (ε + 2 * ((1 + uro S) ^ 3 - 1) * (1 + ε)) * (norm2 p.toReal + norm2 q.toReal + 2) +
        4 * ((1 + uro S) ^ 2 * (2 * tiny S)) := by
  have hu := uro_pos (S := S)
  have htiny := tiny_pos (S := S)
  have hε : 0 ≤ ε := (size_nonneg _).trans hN.2
  have key : ∀ p : Point2 S, AllFinite p → AllFinite (Transform.transform t p : Point2 S) →
      norm2 (fun i : Fin 2 => (Transform.transform t p : Point2 S).toReal i -
        Q.mulVec (Fin.snoc p.toReal 1) i.castSucc) ≤
      (ε + 2 * ((1 + uro S) ^ 3 - 1) * (1 + ε)) * (norm2 p.toReal + 1) + 2 * ((1 + uro S) ^ 2 * (2 * tiny S)) := by
    intro p hp h
    have := near_apply (n := 2) (a := 1) (v := p.toReal) (w := (Transform.transform t p : Point2 S).toReal) (by norm_num)
      hQ hN.2 (pow_uro_nonneg (S := S) 3) (by positivity : 0 ≤ (1 + uro S) ^ 2 * (2 * tiny S))
      (fun i => by simpa using C63_point2 t p hN.1 hp haff h i)
    refine this.trans (add_le_add_left (mul_le_mul_of_nonneg_left (norm2_snoc_one _) ?_) _)
    have := pow_uro_nonneg (S := S) 3
    positivity
  have kp := key p hp h
  have kq := key q hq h'
  set P := (Transform.transform t p : Point2 S).toReal
  set R := (Transform.transform t q : Point2 S).toReal
  have e := norm2_abs_sub (P - R) (fun i : Fin 2 => Q.mulVec (Fin.snoc (p.toReal - q.toReal) 0) i.castSucc)
  rw [orth_init hQ hl] at e
  refine e.trans ?_
  have e2 : (P - R) - (fun i : Fin 2 => Q.mulVec (Fin.snoc (p.toReal - q.toReal) 0) i.castSucc) =
      (fun i : Fin 2 => P i - Q.mulVec (Fin.snoc p.toReal 1) i.castSucc) +
      -(fun i : Fin 2 => R i - Q.mulVec (Fin.snoc q.toReal 1) i.castSucc) := by
    funext i
    simp only [Pi.sub_apply, Pi.add_apply, Pi.neg_apply, mulVec_snoc, mul_sub, Finset.sum_sub_distrib]
    ring
  rw [e2]
  have := norm2_add (fun i : Fin 2 => P i - Q.mulVec (Fin.snoc p.toReal 1) i.castSucc)
    (-(fun i : Fin 2 => R i - Q.mulVec (Fin.snoc q.toReal 1) i.castSucc))
  rw [norm2_neg] at this
  linarith

/-- **C72** Drift (3D). If the forward matrices of the transforms in a chain are each within `ε` in size of an orthogonal
matrix, then after `n` further compositions the result is within `κ^n (1+ε)^(n+1) - 1` of the exact product of these
orthogonal matrices, which is orthogonal; `κ` is one plus 4 times the error of one inner product. -/
theorem C72_drift3 {ι : Type} (T : ι → Transform3 S) (t : ι) (ts : List ι) (Q : ι → Matrix (Fin 4) (Fin 4) ℝ)
    {ε : ℝ} (hQ : ∀ u ∈ t :: ts, Orthogonal (Q u)) (hN : ∀ u ∈ t :: ts, (T u).forward.Near (Q u) ε)
    (h : AllFinite ((ts.map T).foldl Transform3.andThen (T t)).forward) :
    Orthogonal (((t :: ts).map Q).reverse.prod) ∧
    ((ts.map T).foldl Transform3.andThen (T t)).forward.Near (((t :: ts).map Q).reverse.prod)
      ((1 + 4 * ((1 + uro S) ^ 4 - 1) + 4 * ((1 + uro S) ^ 3 * (4 * tiny S))) ^ ts.length *
        (1 + ε) ^ (ts.length + 1) - 1) := by
  have hu := uro_pos (S := S)
  have htiny := tiny_pos (S := S)
  induction ts using List.reverseRecOn with
  | nil =>
    simpa using ⟨hQ t List.mem_cons_self, hN t List.mem_cons_self⟩
  | append_singleton ts u ih =>
    rw [← List.cons_append] at *
    have hm : u ∈ t :: ts ++ [u] := List.mem_append_right _ List.mem_cons_self
    rw [List.map_append (f := T), List.map_cons (f := T), List.map_nil (f := T), List.foldl_append, List.foldl_cons, List.foldl_nil] at h ⊢
    have hf : AllFinite ((T u).forward * ((ts.map T).foldl Transform3.andThen (T t)).forward) := h
    obtain ⟨o, -, b⟩ := ih (fun v hv => hQ v (List.mem_append_left _ hv)) (fun v hv => hN v (List.mem_append_left _ hv))
      (Matrix4x4.finite_mul hf).2
    rw [List.map_append, List.reverse_append, List.prod_append]
    simp only [List.map_cons, List.map_nil, List.reverse_cons, List.reverse_nil, List.nil_append, List.prod_cons,
      List.prod_nil, mul_one] at o b ⊢
    refine ⟨(hQ u hm).mul o, hf, ?_⟩
    have := near_mul (hQ u hm) o (by norm_num) (hN u hm).2 b (pow_uro_nonneg (S := S) 4)
      (by positivity : 0 ≤ (1 + uro S) ^ 3 * (4 * tiny S))
      (C63_product4x4 (T u).forward ((ts.map T).foldl Transform3.andThen (T t)).forward hf)
    rw [List.length_append, List.length_singleton, pow_succ, pow_succ (1 + ε) (ts.length + 1)]
    refine le_sub_iff_add_le'.2 (this.trans (le_of_eq ?_))
    push_cast
    ring

theorem Matrix4x4.finite_of_size (hS : Ample S) {a b : Matrix4x4 S} (ha : AllFinite a) (hb : AllFinite b)
    (h : size a.toReal * size b.toReal ≤ 16) : AllFinite (a * b) := by
  have key : ∀ i j, ∑ k, |a.toReal i k| * |b.toReal k j| ≤ 16 := fun i j => by
    have h1 := entry_le_size (A := a.toReal.map abs * b.toReal.map abs) i j
    have h2 := size_mul (A := a.toReal.map abs) (B := b.toReal.map abs)
    rw [size_abs, size_abs] at h2
    rw [Matrix.mul_apply] at h1
    exact (le_abs_self _).trans (h1.trans (h2.trans h))
  simp only [Fin.sum_univ_four] at key
  rw [Matrix4x4.allFinite, forall_lt_16] at ha hb ⊢
  obtain ⟨a0, a1, a2, a3, a4, a5, a6, a7, a8, a9, a10, a11, a12, a13, a14, a15⟩ := ha
  obtain ⟨b0, b1, b2, b3, b4, b5, b6, b7, b8, b9, b10, b11, b12, b13, b14, b15⟩ := hb
  exact ⟨row4_bd hS a0 a1 a2 a3 b0 b4 b8 b12 (key 0 0),
      row4_bd hS a0 a1 a2 a3 b1 b5 b9 b13 (key 0 1),
      row4_bd hS a0 a1 a2 a3 b2 b6 b10 b14 (key 0 2),
      row4_bd hS a0 a1 a2 a3 b3 b7 b11 b15 (key 0 3),
      row4_bd hS a4 a5 a6 a7 b0 b4 b8 b12 (key 1 0),
      row4_bd hS a4 a5 a6 a7 b1 b5 b9 b13 (key 1 1),
      row4_bd hS a4 a5 a6 a7 b2 b6 b10 b14 (key 1 2),
      row4_bd hS a4 a5 a6 a7 b3 b7 b11 b15 (key 1 3),
      row4_bd hS a8 a9 a10 a11 b0 b4 b8 b12 (key 2 0),
      row4_bd hS a8 a9 a10 a11 b1 b5 b9 b13 (key 2 1),
      row4_bd hS a8 a9 a10 a11 b2 b6 b10 b14 (key 2 2),
      row4_bd hS a8 a9 a10 a11 b3 b7 b11 b15 (key 2 3),
      row4_bd hS a12 a13 a14 a15 b0 b4 b8 b12 (key 3 0),
      row4_bd hS a12 a13 a14 a15 b1 b5 b9 b13 (key 3 1),
      row4_bd hS a12 a13 a14 a15 b2 b6 b10 b14 (key 3 2),
      row4_bd hS a12 a13 a14 a15 b3 b7 b11 b15 (key 3 3)⟩

/-- **C72** (3D) In an ample format such chains do not overflow as long as the bound on the drift stays below 1. -/
theorem C72_bounded3 (hS : Ample S) {ι : Type} (T : ι → Transform3 S) (t : ι) (ts : List ι)
    (Q : ι → Matrix (Fin 4) (Fin 4) ℝ) {ε : ℝ} (hQ : ∀ u ∈ t :: ts, Orthogonal (Q u))
    (hN : ∀ u ∈ t :: ts, (T u).forward.Near (Q u) ε)
    (hb : (1 + 4 * ((1 + uro S) ^ 4 - 1) + 4 * ((1 + uro S) ^ 3 * (4 * tiny S))) ^ ts.length *
        (1 + ε) ^ (ts.length + 1) ≤ 2) :
    ((ts.map T).foldl Transform3.andThen (T t)).forward.Near (((t :: ts).map Q).reverse.prod)
      ((1 + 4 * ((1 + uro S) ^ 4 - 1) + 4 * ((1 + uro S) ^ 3 * (4 * tiny S))) ^ ts.length *
        (1 + ε) ^ (ts.length + 1) - 1) := by
  suffices h : AllFinite ((ts.map T).foldl Transform3.andThen (T t)).forward from (C72_drift3 T t ts Q hQ hN h).2
  have hu := uro_pos (S := S)
  have htiny := tiny_pos (S := S)
  have hε : 0 ≤ ε := (size_nonneg _).trans (hN t List.mem_cons_self).2
  have hκ : 1 ≤ 1 + 4 * ((1 + uro S) ^ 4 - 1) + 4 * ((1 + uro S) ^ 3 * (4 * tiny S)) := by
    have := pow_uro_nonneg (S := S) 4
    have : 0 ≤ (1 + uro S) ^ 3 * (4 * tiny S) := by positivity
    linarith
  induction ts using List.reverseRecOn with
  | nil => exact (hN t List.mem_cons_self).1
  | append_singleton ts u ih =>
    rw [← List.cons_append] at *
    have hm : u ∈ t :: ts ++ [u] := List.mem_append_right _ List.mem_cons_self
    have hQ' := fun v hv => hQ v (List.mem_append_left _ hv)
    have hN' := fun v hv => hN v (List.mem_append_left _ hv)
    set κ := 1 + 4 * ((1 + uro S) ^ 4 - 1) + 4 * ((1 + uro S) ^ 3 * (4 * tiny S)) with hκd
    rw [List.length_append, List.length_singleton] at hb
    have hκn : 1 ≤ κ ^ ts.length := one_le_pow₀ hκ
    have hεn : 1 ≤ (1 + ε) ^ ts.length := one_le_pow₀ (by linarith)
    have hεn1 : 1 ≤ (1 + ε) ^ (ts.length + 1) := one_le_pow₀ (by linarith)
    have b1 : κ ^ ts.length * (1 + ε) ^ (ts.length + 1) ≤ 2 := by
      refine le_trans (mul_le_mul (pow_le_pow_right₀ hκ (Nat.le_succ _)) (pow_le_pow_right₀ (by linarith) (Nat.le_succ _))
        (by positivity) (by positivity)) hb
    have hf := ih hQ' hN' b1
    have nr := (C72_drift3 T t ts Q hQ' hN' hf)
    rw [List.map_append (f := T), List.map_cons (f := T), List.map_nil (f := T), List.foldl_append, List.foldl_cons, List.foldl_nil]
    refine Matrix4x4.finite_of_size hS (hN u hm).1 hf ?_
    have s2 : √((4 : ℕ) : ℝ) ≤ 2 := by
      rw [Real.sqrt_le_left (by norm_num)]; norm_num
    have sz : ∀ {A P : Matrix (Fin 4) (Fin 4) ℝ} {a : ℝ}, Orthogonal P → size (A - P) ≤ a →
        size A ≤ 2 + a := by
      intro A P a hP hA
      have e := size_of_orth hP.1
      have e' : size P = √((4 : ℕ) : ℝ) := by rw [← e, Real.sqrt_sq (size_nonneg _)]
      have := size_add (A := A - P) (B := P)
      rw [sub_add_cancel, e'] at this
      linarith
    have s3 := sz (hQ u hm) (hN u hm).2
    have s4 := sz nr.1 nr.2.2
    have ε1 : 1 + ε ≤ 2 := by
      have h1 : (1 + ε) ^ 1 ≤ (1 + ε) ^ (ts.length + 1) := pow_le_pow_right₀ (by linarith) (by omega)
      have h2 : (1 + ε) ^ (ts.length + 1) ≤ κ ^ ts.length * (1 + ε) ^ (ts.length + 1) := le_mul_of_one_le_left (by linarith) hκn
      rw [pow_one] at h1
      linarith
    calc size (T u).forward.toReal * size ((ts.map T).foldl Transform3.andThen (T t)).forward.toReal ≤ 3 * 3 :=
          mul_le_mul (by linarith) (by linarith) (size_nonneg _) (by norm_num)
      _ ≤ 16 := by norm_num

/-- **C72** (3D) For every history of compositions of transforms whose inverse is the transpose of the forward
matrix, such as rotations, the inverse is still exactly the transpose: composition introduces no asymmetry. -/
theorem C72_transpose3 (t : Transform3 S) (ts : List (Transform3 S))
    (ht : ∀ u ∈ t :: ts, ∀ (i : ℕ) (hi : i < 16), Same u.inverse.m[i] u.forward.transpose.m[i]) :
    ∀ (i : ℕ) (hi : i < 16), Same (ts.foldl Transform3.andThen t).inverse.m[i]
      (ts.foldl Transform3.andThen t).forward.transpose.m[i] := by
  induction ts using List.reverseRecOn with
  | nil => exact ht t List.mem_cons_self
  | append_singleton ts u ih =>
    rw [← List.cons_append] at *
    have ih := ih (fun v hv => ht v (List.mem_append_left _ hv))
    have hu := ht u (List.mem_append_right _ List.mem_cons_self)
    rw [List.foldl_append, List.foldl_cons, List.foldl_nil]
    generalize ts.foldl Transform3.andThen t = c at ih
    show ∀ (i : ℕ) (hi : i < 16), Same (c.inverse * u.inverse).m[i] (u.forward * c.forward).transpose.m[i]
    rw [forall_lt_16] at ih hu ⊢
    obtain ⟨a0, a1, a2, a3, a4, a5, a6, a7, a8, a9, a10, a11, a12, a13, a14, a15⟩ := ih
    obtain ⟨b0, b1, b2, b3, b4, b5, b6, b7, b8, b9, b10, b11, b12, b13, b14, b15⟩ := hu
    exact ⟨same_add_congr (same_add_congr (same_add_congr (mul_swap a0 b0) (mul_swap a1 b4)) (mul_swap a2 b8)) (mul_swap a3 b12),
      same_add_congr (same_add_congr (same_add_congr (mul_swap a0 b1) (mul_swap a1 b5)) (mul_swap a2 b9)) (mul_swap a3 b13),
      same_add_congr (same_add_congr (same_add_congr (mul_swap a0 b2) (mul_swap a1 b6)) (mul_swap a2 b10)) (mul_swap a3 b14),
      same_add_congr (same_add_congr (same_add_congr (mul_swap a0 b3) (mul_swap a1 b7)) (mul_swap a2 b11)) (mul_swap a3 b15),
      same_add_congr (same_add_congr (same_add_congr (mul_swap a4 b0) (mul_swap a5 b4)) (mul_swap a6 b8)) (mul_swap a7 b12),
      same_add_congr (same_add_congr (same_add_congr (mul_swap a4 b1) (mul_swap a5 b5)) (mul_swap a6 b9)) (mul_swap a7 b13),
      same_add_congr (same_add_congr (same_add_congr (mul_swap a4 b2) (mul_swap a5 b6)) (mul_swap a6 b10)) (mul_swap a7 b14),
      same_add_congr (same_add_congr (same_add_congr (mul_swap a4 b3) (mul_swap a5 b7)) (mul_swap a6 b11)) (mul_swap a7 b15),
      same_add_congr (same_add_congr (same_add_congr (mul_swap a8 b0) (mul_swap a9 b4)) (mul_swap a10 b8)) (mul_swap a11 b12),
      same_add_congr (same_add_congr (same_add_congr (mul_swap a8 b1) (mul_swap a9 b5)) (mul_swap a10 b9)) (mul_swap a11 b13),
      same_add_congr (same_add_congr (same_add_congr (mul_swap a8 b2) (mul_swap a9 b6)) (mul_swap a10 b10)) (mul_swap a11 b14),
      same_add_congr (same_add_congr (same_add_congr (mul_swap a8 b3) (mul_swap a9 b7)) (mul_swap a10 b11)) (mul_swap a11 b15),
      same_add_congr (same_add_congr (same_add_congr (mul_swap a12 b0) (mul_swap a13 b4)) (mul_swap a14 b8)) (mul_swap a15 b12),
      same_add_congr (same_add_congr (same_add_congr (mul_swap a12 b1) (mul_swap a13 b5)) (mul_swap a14 b9)) (mul_swap a15 b13),
      same_add_congr (same_add_congr (same_add_congr (mul_swap a12 b2) (mul_swap a13 b6)) (mul_swap a14 b10)) (mul_swap a15 b14),
      same_add_congr (same_add_congr (same_add_congr (mul_swap a12 b3) (mul_swap a13 b7)) (mul_swap a14 b11)) (mul_swap a15 b15)⟩

/-- **C72** (3D) Composition of transforms with last row exactly `0 0 0 1` keeps that row exact in every history: no
perspective component appears by rounding. -/
theorem C72_affine3 (t : Transform3 S) (ts : List (Transform3 S))
    (ht : ∀ u ∈ t :: ts, u.forward.toReal 3 = ![0, 0, 0, 1])
    (h : AllFinite (ts.foldl Transform3.andThen t).forward) :
    (ts.foldl Transform3.andThen t).forward.toReal 3 = ![0, 0, 0, 1] := by
  induction ts using List.reverseRecOn with
  | nil => exact ht t List.mem_cons_self
  | append_singleton ts u ih =>
    rw [← List.cons_append] at *
    have hu := ht u (List.mem_append_right _ List.mem_cons_self)
    rw [List.foldl_append, List.foldl_cons, List.foldl_nil] at h ⊢
    have hf : AllFinite (u.forward * (ts.foldl Transform3.andThen t).forward) := h
    have ih := ih (fun v hv => ht v (List.mem_append_left _ hv)) (Matrix4x4.finite_mul hf).2
    rw [← ih]
    rw [Matrix4x4.allFinite, forall_lt_16] at hf
    obtain ⟨-, -, -, -, -, -, -, -, -, -, -, -, h0, h1, h2, h3⟩ := hf
    funext j
    fin_cases j
    exacts [row4_last h0 (congrFun hu 0) (congrFun hu 1) (congrFun hu 2) (congrFun hu 3), row4_last h1 (congrFun hu 0) (congrFun hu 1) (congrFun hu 2) (congrFun hu 3), row4_last h2 (congrFun hu 0) (congrFun hu 1) (congrFun hu 2) (congrFun hu 3), row4_last h3 (congrFun hu 0) (congrFun hu 1) (congrFun hu 2) (congrFun hu 3)]

/-- **C72** (3D) A vector transformed by a matrix within `ε` of an orthogonal one that keeps the last coordinate is,
up to the stated error, the vector transformed exactly, and has the length it had before. -/
theorem C72_vector3 (t : Transform3 S) (Q : Matrix (Fin 4) (Fin 4) ℝ) {ε : ℝ} (hQ : Orthogonal Q)
    (hl : Q (Fin.last 3) = Pi.single (Fin.last 3) 1) (hN : t.forward.Near Q ε) (v : Vector3 S)
    (h : AllFinite (Transform.transform t v : Vector3 S)) :
    norm2 ((Transform.transform t v : Vector3 S).toReal - fun i => Q.mulVec (Fin.snoc v.toReal 0) i.castSucc) ≤
      (ε + 2 * ((1 + uro S) ^ 3 - 1) * (1 + ε)) * norm2 v.toReal + 2 * ((1 + uro S) ^ 2 * (3 * tiny S)) ∧
    |norm2 (Transform.transform t v : Vector3 S).toReal - norm2 v.toReal| ≤
      (ε + 2 * ((1 + uro S) ^ 3 - 1) * (1 + ε)) * norm2 v.toReal + 2 * ((1 + uro S) ^ 2 * (3 * tiny S)) := by
  have hu := uro_pos (S := S)
  have htiny := tiny_pos (S := S)
  have key := near_apply (n := 3) (a := 0) (v := v.toReal) (w := (Transform.transform t v : Vector3 S).toReal) (by norm_num)
    hQ hN.2 (pow_uro_nonneg (S := S) 3) (by positivity : 0 ≤ (1 + uro S) ^ 2 * (3 * tiny S))
    (fun i => by simpa using C63_vector3 t v h i)
  rw [norm2_snoc_zero] at key
  have e := norm2_abs_sub (Transform.transform t v : Vector3 S).toReal
    (fun i : Fin 3 => Q.mulVec (Fin.snoc v.toReal 0) i.castSucc)
  rw [orth_init hQ hl] at e
  exact ⟨key, e.trans key⟩

/-- **C72** (3D) Transforming a vector and transforming the result by the inverse transform returns the vector, up to
the stated error. -/
theorem C72_undo3 (t : Transform3 S) (Q : Matrix (Fin 4) (Fin 4) ℝ) {ε : ℝ} (hQ : Orthogonal Q)
    (hl : Q (Fin.last 3) = Pi.single (Fin.last 3) 1) (hN : t.forward.Near Q ε) (hI : t.inverse.Near Q.transpose ε)
    (v : Vector3 S) (h : AllFinite (Transform.transform t v : Vector3 S))
    (h' : AllFinite (Transform.transform t.inv (Transform.transform t v : Vector3 S) : Vector3 S)) :
    norm2 ((Transform.transform t.inv (Transform.transform t v : Vector3 S) : Vector3 S).toReal - v.toReal) ≤
      (ε + 2 * ((1 + uro S) ^ 3 - 1) * (1 + ε)) * (2 + (ε + 2 * ((1 + uro S) ^ 3 - 1) * (1 + ε))) * norm2 v.toReal +
        (2 + (ε + 2 * ((1 + uro S) ^ 3 - 1) * (1 + ε))) * (2 * ((1 + uro S) ^ 2 * (3 * tiny S))) := by
  have hu := uro_pos (S := S)
  have htiny := tiny_pos (S := S)
  have hε : 0 ≤ ε := (size_nonneg _).trans hN.2
  obtain ⟨k1, k2⟩ := C72_vector3 t Q hQ hl hN v h
  set w := (Transform.transform t v : Vector3 S) with hw
  have key := near_apply (n := 3) (a := 0) (v := w.toReal) (w := (Transform.transform t.inv w : Vector3 S).toReal)
    (by norm_num) hQ.transpose hI.2 (pow_uro_nonneg (S := S) 3) (by positivity : 0 ≤ (1 + uro S) ^ 2 * (3 * tiny S))
    (fun i => by simpa [show t.inv.forward = t.inverse from rfl] using C63_vector3 t.inv w h' i)
  rw [norm2_snoc_zero] at key
  set η := ε + 2 * ((1 + uro S) ^ 3 - 1) * (1 + ε) with hη
  have hη0 : 0 ≤ η := by have := pow_uro_nonneg (S := S) 3; positivity
  set τ := 2 * ((1 + uro S) ^ 2 * (3 * tiny S)) with hτ
  set x := (Transform.transform t.inv w : Vector3 S).toReal with hx
  have kk := norm2_undo hQ hl v.toReal w.toReal x
  have : norm2 w.toReal ≤ (1 + η) * norm2 v.toReal + τ := by linarith [(abs_le.1 k2).2]
  have := mul_le_mul_of_nonneg_left this hη0
  nlinarith

/-- **C72** (3D) Points: distances are preserved up to the stated error. -/
theorem C72_point3 (t : Transform3 S) (Q : Matrix (Fin 4) (Fin 4) ℝ) {ε : ℝ} (hQ : Orthogonal Q)
    (hl : Q (Fin.last 3) = Pi.single (Fin.last 3) 1) (hN : t.forward.Near Q ε)
    (haff : t.forward.toReal 3 = ![0, 0, 0, 1]) (p q : Point3 S) (hp : AllFinite p) (hq : AllFinite q)
    (h : AllFinite (Transform.transform t p : Point3 S)) (h' : AllFinite (Transform.transform t q : Point3 S)) :
    |norm2 ((Transform.transform t p : Point3 S).toReal - (Transform.transform t q : Point3 S).toReal)
        - norm2 (p.toReal - q.toReal)| ≤
      (ε + 2 * ((1 + uro S) ^ 4 - 1) * (1 + ε)) * (norm2 p.toReal + norm2 q.toReal + 2) +
        4 * ((1 + uro S) ^ 3 * (3 * tiny S)) := by
  have hu := uro_pos (S := S)
  have htiny := tiny_pos (S := S)
  have hε : 0 ≤ ε := (size_nonneg _).trans hN.2
  have key : ∀ p : Point3 S, AllFinite p → AllFinite (Transform.transform t p : Point3 S) →
      norm2 (fun i : Fin 3 => (Transform.transform t p : Point3 S).toReal i -
        Q.mulVec (Fin.snoc p.toReal 1) i.castSucc) ≤
      (ε + 2 * ((1 + uro S) ^ 4 - 1) * (1 + ε)) * (norm2 p.toReal + 1) + 2 * ((1 + uro S) ^ 3 * (3 * tiny S)) := by
    intro p hp h
    have := near_apply (n := 3) (a := 1) (v := p.toReal) (w := (Transform.transform t p : Point3 S).toReal) (by norm_num)
      hQ hN.2 (pow_uro_nonneg (S := S) 4) (by positivity : 0 ≤ (1 + uro S) ^ 3 * (3 * tiny S))
      (fun i => by simpa using C63_point3 t p hN.1 hp haff h i)
    refine this.trans (add_le_add_left (mul_le_mul_of_nonneg_left (norm2_snoc_one _) ?_) _)
    have := pow_uro_nonneg (S := S) 4
    positivity
  have kp := key p hp h
  have kq := key q hq h'
  set P := (Transform.transform t p : Point3 S).toReal
  set R := (Transform.transform t q : Point3 S).toReal
  have e := norm2_abs_sub (P - R) (fun i : Fin 3 => Q.mulVec (Fin.snoc (p.toReal - q.toReal) 0) i.castSucc)
  rw [orth_init hQ hl] at e
  refine e.trans ?_
  have e2 : (P - R) - (fun i : Fin 3 => Q.mulVec (Fin.snoc (p.toReal - q.toReal) 0) i.castSucc) =
      (fun i : Fin 3 => P i - Q.mulVec (Fin.snoc p.toReal 1) i.castSucc) +
      -(fun i : Fin 3 => R i - Q.mulVec (Fin.snoc q.toReal 1) i.castSucc) := by
    funext i
    simp only [Pi.sub_apply, Pi.add_apply, Pi.neg_apply, mulVec_snoc, mul_sub, Finset.sum_sub_distrib]
    ring
  rw [e2]
  have := norm2_add (fun i : Fin 3 => P i - Q.mulVec (Fin.snoc p.toReal 1) i.castSucc)
    (-(fun i : Fin 3 => R i - Q.mulVec (Fin.snoc q.toReal 1) i.castSucc))
  rw [norm2_neg] at this
  linarith

end VecMath

H='''import Verif.Props.FloatChain
import Verif.Lemmas.Frob2
import Verif.Lemmas.FinBound
/-!
# Layer F: rotations (C72)

(Generated by tools/gen/rot.py.)
-/

open Classical

namespace VecMath
open Scalar IEEE

variable {S : Type} [Scalar S] [IEEE S] [Binary S]

theorem pow_uro_nonneg (k : ℕ) : 0 ≤ (1 + uro S) ^ k - 1 :=
  sub_nonneg.2 (Approx.one_le_pow k)

/-! ## Drift of chains of nearly orthogonal matrices -/
'''
T='''
/-- **C72** Drift ({D}D). If the forward matrices of the transforms in a chain are each within `ε` in size of an orthogonal
matrix, then after `n` further compositions the result is within `κ^n (1+ε)^(n+1) - 1` of the exact product of these
orthogonal matrices, which is orthogonal; `κ` is one plus {N} times the error of one inner product. -/
theorem C72_drift{D} (t : Transform{D} S) (ts : List (Transform{D} S)) (Q : Transform{D} S → Matrix (Fin {N}) (Fin {N}) ℝ)
    {{ε : ℝ}} (hQ : ∀ u ∈ t :: ts, Orthogonal (Q u)) (hN : ∀ u ∈ t :: ts, u.forward.Near (Q u) ε)
    (h : AllFinite (ts.foldl Transform{D}.andThen t).forward) :
    Orthogonal (((t :: ts).map Q).reverse.prod) ∧
    (ts.foldl Transform{D}.andThen t).forward.Near (((t :: ts).map Q).reverse.prod)
      ((1 + {N} * ((1 + uro S) ^ {N} - 1) + {N} * ((1 + uro S) ^ {D} * ({N} * tiny S))) ^ ts.length *
        (1 + ε) ^ (ts.length + 1) - 1) := by
  have hu := uro_pos (S := S)
  have htiny := tiny_pos (S := S)
  induction ts using List.reverseRecOn with
  | nil =>
    simpa using ⟨hQ t List.mem_cons_self, hN t List.mem_cons_self⟩
  | append_singleton ts u ih =>
    rw [← List.cons_append] at *
    have hm : u ∈ t :: ts ++ [u] := List.mem_append_right _ List.mem_cons_self
    rw [List.foldl_append, List.foldl_cons, List.foldl_nil] at h ⊢
    have hf : AllFinite (u.forward * (ts.foldl Transform{D}.andThen t).forward) := h
    obtain ⟨o, -, b⟩ := ih (fun v hv => hQ v (List.mem_append_left _ hv)) (fun v hv => hN v (List.mem_append_left _ hv))
      (Matrix{N}x{N}.finite_mul hf).2
    rw [List.map_append, List.reverse_append, List.prod_append]
    simp only [List.map_cons, List.map_nil, List.reverse_cons, List.reverse_nil, List.nil_append, List.prod_cons,
      List.prod_nil, mul_one] at o b ⊢
    refine ⟨(hQ u hm).mul o, hf, ?_⟩
    have := near_mul (hQ u hm) o (by norm_num) (hN u hm).2 b (pow_uro_nonneg (S := S) {N})
      (by positivity : 0 ≤ (1 + uro S) ^ {D} * ({N} * tiny S))
      (C63_product{N}x{N} u.forward (ts.foldl Transform{D}.andThen t).forward hf)
    rw [List.length_append, List.length_singleton, pow_succ, pow_succ (1 + ε) (ts.length + 1)]
    refine le_sub_iff_add_le'.2 (this.trans (le_of_eq ?_))
    push_cast
    ring

theorem Matrix{N}x{N}.finite_of_size (hS : Ample S) {{a b : Matrix{N}x{N} S}} (ha : AllFinite a) (hb : AllFinite b)
    (h : size a.toReal * size b.toReal ≤ 16) : AllFinite (a * b) := by
  have key : ∀ i j, ∑ k, |a.toReal i k| * |b.toReal k j| ≤ 16 := fun i j => by
    have h1 := entry_le_size (A := a.toReal.map abs * b.toReal.map abs) i j
    have h2 := size_mul (A := a.toReal.map abs) (B := b.toReal.map abs)
    rw [size_abs, size_abs] at h2
    rw [Matrix.mul_apply] at h1
    exact (le_abs_self _).trans (h1.trans (h2.trans h))
  simp only [{SUM}] at key
  rw [Matrix{N}x{N}.allFinite, forall_lt_{Q}] at ha hb ⊢
  obtain ⟨{A}⟩ := ha
  obtain ⟨{B}⟩ := hb
  exact ⟨{FROWS}⟩

/-- **C72** ({D}D) In an ample format such chains do not overflow as long as the bound on the drift stays below 1. -/
theorem C72_bounded{D} (hS : Ample S) (t : Transform{D} S) (ts : List (Transform{D} S))
    (Q : Transform{D} S → Matrix (Fin {N}) (Fin {N}) ℝ) {{ε : ℝ}} (hQ : ∀ u ∈ t :: ts, Orthogonal (Q u))
    (hN : ∀ u ∈ t :: ts, u.forward.Near (Q u) ε)
    (hb : (1 + {N} * ((1 + uro S) ^ {N} - 1) + {N} * ((1 + uro S) ^ {D} * ({N} * tiny S))) ^ ts.length *
        (1 + ε) ^ (ts.length + 1) ≤ 2) :
    (ts.foldl Transform{D}.andThen t).forward.Near (((t :: ts).map Q).reverse.prod)
      ((1 + {N} * ((1 + uro S) ^ {N} - 1) + {N} * ((1 + uro S) ^ {D} * ({N} * tiny S))) ^ ts.length *
        (1 + ε) ^ (ts.length + 1) - 1) := by
  suffices h : AllFinite (ts.foldl Transform{D}.andThen t).forward from (C72_drift{D} t ts Q hQ hN h).2
  have hu := uro_pos (S := S)
  have htiny := tiny_pos (S := S)
  have hε : 0 ≤ ε := (size_nonneg _).trans (hN t List.mem_cons_self).2
  have hκ : 1 ≤ 1 + {N} * ((1 + uro S) ^ {N} - 1) + {N} * ((1 + uro S) ^ {D} * ({N} * tiny S)) := by
    have := pow_uro_nonneg (S := S) {N}
    have : 0 ≤ (1 + uro S) ^ {D} * ({N} * tiny S) := by positivity
    linarith
  induction ts using List.reverseRecOn with
  | nil => exact (hN t List.mem_cons_self).1
  | append_singleton ts u ih =>
    rw [← List.cons_append] at *
    have hm : u ∈ t :: ts ++ [u] := List.mem_append_right _ List.mem_cons_self
    have hQ' := fun v hv => hQ v (List.mem_append_left _ hv)
    have hN' := fun v hv => hN v (List.mem_append_left _ hv)
    set κ := 1 + {N} * ((1 + uro S) ^ {N} - 1) + {N} * ((1 + uro S) ^ {D} * ({N} * tiny S)) with hκd
    rw [List.length_append, List.length_singleton] at hb
    have hκn : 1 ≤ κ ^ ts.length := one_le_pow₀ hκ
    have hεn : 1 ≤ (1 + ε) ^ ts.length := one_le_pow₀ (by linarith)
    have hεn1 : 1 ≤ (1 + ε) ^ (ts.length + 1) := one_le_pow₀ (by linarith)
    have b1 : κ ^ ts.length * (1 + ε) ^ (ts.length + 1) ≤ 2 := by
      refine le_trans (mul_le_mul (pow_le_pow_right₀ hκ (Nat.le_succ _)) (pow_le_pow_right₀ (by linarith) (Nat.le_succ _))
        (by positivity) (by positivity)) hb
    have hf := ih hQ' hN' b1
    have nr := (C72_drift{D} t ts Q hQ' hN' hf)
    rw [List.foldl_append, List.foldl_cons, List.foldl_nil]
    refine Matrix{N}x{N}.finite_of_size hS (hN u hm).1 hf ?_
    have s2 : √(({N} : ℕ) : ℝ) ≤ 2 := by
      rw [Real.sqrt_le_left (by norm_num)]; norm_num
    have sz : ∀ {{A P : Matrix (Fin {N}) (Fin {N}) ℝ}} {{a : ℝ}}, Orthogonal P → size (A - P) ≤ a →
        size A ≤ 2 + a := by
      intro A P a hP hA
      have e := size_of_orth hP.1
      have e' : size P = √(({N} : ℕ) : ℝ) := by rw [← e, Real.sqrt_sq (size_nonneg _)]
      have := size_add (A := A - P) (B := P)
      rw [sub_add_cancel, e'] at this
      linarith
    have s3 := sz (hQ u hm) (hN u hm).2
    have s4 := sz nr.1 nr.2.2
    have ε1 : 1 + ε ≤ 2 := by
      have h1 : (1 + ε) ^ 1 ≤ (1 + ε) ^ (ts.length + 1) := pow_le_pow_right₀ (by linarith) (by omega)
      have h2 : (1 + ε) ^ (ts.length + 1) ≤ κ ^ ts.length * (1 + ε) ^ (ts.length + 1) := le_mul_of_one_le_left (by linarith) hκn
      rw [pow_one] at h1
      linarith
    calc size u.forward.toReal * size (ts.foldl Transform{D}.andThen t).forward.toReal ≤ 3 * 3 :=
          mul_le_mul (by linarith) (by linarith) (size_nonneg _) (by norm_num)
      _ ≤ 16 := by norm_num

/-- **C72** ({D}D) For every history of compositions of transforms whose inverse is the transpose of the forward
matrix, such as rotations, the inverse is still exactly the transpose: composition introduces no asymmetry. -/
theorem C72_transpose{D} (t : Transform{D} S) (ts : List (Transform{D} S))
    (ht : ∀ u ∈ t :: ts, ∀ (i : ℕ) (hi : i < {Q}), Same u.inverse.m[i] u.forward.transpose.m[i]) :
    ∀ (i : ℕ) (hi : i < {Q}), Same (ts.foldl Transform{D}.andThen t).inverse.m[i]
      (ts.foldl Transform{D}.andThen t).forward.transpose.m[i] := by
  induction ts using List.reverseRecOn with
  | nil => exact ht t List.mem_cons_self
  | append_singleton ts u ih =>
    rw [← List.cons_append] at *
    have ih := ih (fun v hv => ht v (List.mem_append_left _ hv))
    have hu := ht u (List.mem_append_right _ List.mem_cons_self)
    rw [List.foldl_append, List.foldl_cons, List.foldl_nil]
    generalize ts.foldl Transform{D}.andThen t = c at ih
    show ∀ (i : ℕ) (hi : i < {Q}), Same (c.inverse * u.inverse).m[i] (u.forward * c.forward).transpose.m[i]
    rw [forall_lt_{Q}] at ih hu ⊢
    obtain ⟨{A}⟩ := ih
    obtain ⟨{B}⟩ := hu
    exact ⟨{ROWS}⟩

/-- **C72** ({D}D) Composition of transforms with last row exactly `{RT}` keeps that row exact in every history: no
perspective component appears by rounding. -/
theorem C72_affine{D} (t : Transform{D} S) (ts : List (Transform{D} S))
    (ht : ∀ u ∈ t :: ts, u.forward.toReal {D} = {ROW})
    (h : AllFinite (ts.foldl Transform{D}.andThen t).forward) :
    (ts.foldl Transform{D}.andThen t).forward.toReal {D} = {ROW} := by
  induction ts using List.reverseRecOn with
  | nil => exact ht t List.mem_cons_self
  | append_singleton ts u ih =>
    rw [← List.cons_append] at *
    have hu := ht u (List.mem_append_right _ List.mem_cons_self)
    rw [List.foldl_append, List.foldl_cons, List.foldl_nil] at h ⊢
    have hf : AllFinite (u.forward * (ts.foldl Transform{D}.andThen t).forward) := h
    have ih := ih (fun v hv => ht v (List.mem_append_left _ hv)) (Matrix{N}x{N}.finite_mul hf).2
    rw [← ih]
    rw [Matrix{N}x{N}.allFinite, forall_lt_{Q}] at hf
    obtain ⟨{LASTH}⟩ := hf
    funext j
    fin_cases j
    exacts [{LAST}]

/-- **C72** ({D}D) A vector transformed by a matrix within `ε` of an orthogonal one that keeps the last coordinate has,
up to the stated error, the length it had before. -/
theorem C72_vector{D} (t : Transform{D} S) (Q : Matrix (Fin {N}) (Fin {N}) ℝ) {{ε : ℝ}} (hQ : Orthogonal Q)
    (hl : Q (Fin.last {D}) = Pi.single (Fin.last {D}) 1) (hN : t.forward.Near Q ε) (v : Vector{D} S)
    (h : AllFinite (Transform.transform t v : Vector{D} S)) :
    |norm2 (Transform.transform t v : Vector{D} S).toReal - norm2 v.toReal| ≤
      (ε + 2 * ((1 + uro S) ^ {D} - 1) * (1 + ε)) * norm2 v.toReal + 2 * ({TV} * ({D} * tiny S)) := by
  have hu := uro_pos (S := S)
  have htiny := tiny_pos (S := S)
  have key := near_apply (n := {D}) (a := 0) (v := v.toReal) (w := (Transform.transform t v : Vector{D} S).toReal) (by norm_num)
    hQ hN.2 (pow_uro_nonneg (S := S) {D}) (by positivity : 0 ≤ {TV} * ({D} * tiny S))
    (fun i => by simpa using C63_vector{D} t v h i)
  rw [norm2_snoc_zero] at key
  have e := norm2_abs_sub (Transform.transform t v : Vector{D} S).toReal
    (fun i : Fin {D} => Q.mulVec (Fin.snoc v.toReal 0) i.castSucc)
  rw [orth_init hQ hl] at e
  exact e.trans key

/-- **C72** ({D}D) Points: distances are preserved up to the stated error. -/
theorem C72_point{D} (t : Transform{D} S) (Q : Matrix (Fin {N}) (Fin {N}) ℝ) {{ε : ℝ}} (hQ : Orthogonal Q)
    (hl : Q (Fin.last {D}) = Pi.single (Fin.last {D}) 1) (hN : t.forward.Near Q ε)
    (haff : t.forward.toReal {D} = {ROW}) (p q : Point{D} S) (hp : AllFinite p) (hq : AllFinite q)
    (h : AllFinite (Transform.transform t p : Point{D} S)) (h' : AllFinite (Transform.transform t q : Point{D} S)) :
    |norm2 ((Transform.transform t p : Point{D} S).toReal - (Transform.transform t q : Point{D} S).toReal)
        - norm2 (p.toReal - q.toReal)| ≤
      (ε + 2 * ((1 + uro S) ^ {N} - 1) * (1 + ε)) * (norm2 p.toReal + norm2 q.toReal + 2) +
        4 * ((1 + uro S) ^ {D} * ({D} * tiny S)) := by
  have hu := uro_pos (S := S)
  have htiny := tiny_pos (S := S)
  have hε : 0 ≤ ε := (size_nonneg _).trans hN.2
  have key : ∀ p : Point{D} S, AllFinite p → AllFinite (Transform.transform t p : Point{D} S) →
      norm2 (fun i : Fin {D} => (Transform.transform t p : Point{D} S).toReal i -
        Q.mulVec (Fin.snoc p.toReal 1) i.castSucc) ≤
      (ε + 2 * ((1 + uro S) ^ {N} - 1) * (1 + ε)) * (norm2 p.toReal + 1) + 2 * ((1 + uro S) ^ {D} * ({D} * tiny S)) := by
    intro p hp h
    have := near_apply (n := {D}) (a := 1) (v := p.toReal) (w := (Transform.transform t p : Point{D} S).toReal) (by norm_num)
      hQ hN.2 (pow_uro_nonneg (S := S) {N}) (by positivity : 0 ≤ (1 + uro S) ^ {D} * ({D} * tiny S))
      (fun i => by simpa using C63_point{D} t p hN.1 hp haff h i)
    refine this.trans (add_le_add_left (mul_le_mul_of_nonneg_left (norm2_snoc_one _) ?_) _)
    have := pow_uro_nonneg (S := S) {N}
    positivity
  have kp := key p hp h
  have kq := key q hq h'
  set P := (Transform.transform t p : Point{D} S).toReal
  set R := (Transform.transform t q : Point{D} S).toReal
  have e := norm2_abs_sub (P - R) (fun i : Fin {D} => Q.mulVec (Fin.snoc (p.toReal - q.toReal) 0) i.castSucc)
  rw [orth_init hQ hl] at e
  refine e.trans ?_
  have e2 : (P - R) - (fun i : Fin {D} => Q.mulVec (Fin.snoc (p.toReal - q.toReal) 0) i.castSucc) =
      (fun i : Fin {D} => P i - Q.mulVec (Fin.snoc p.toReal 1) i.castSucc) +
      -(fun i : Fin {D} => R i - Q.mulVec (Fin.snoc q.toReal 1) i.castSucc) := by
    funext i
    simp only [Pi.sub_apply, Pi.add_apply, Pi.neg_apply, mulVec_snoc, mul_sub, Finset.sum_sub_distrib]
    ring
  rw [e2]
  have := norm2_add (fun i : Fin {D} => P i - Q.mulVec (Fin.snoc p.toReal 1) i.castSucc)
    (-(fun i : Fin {D} => R i - Q.mulVec (Fin.snoc q.toReal 1) i.castSucc))
  rw [norm2_neg] at this
  linarith
'''
def gen(D):
    N=D+1
    def idx(i,k): return i*N+k
    rows=[]
    for i in range(N):
        for j in range(N):
            # (c.inverse*u.inverse)[i,j] = sum_k cinv[i,k]*uinv[k,j] ; target transposed entry = (uf*cf)[j,i] = sum_k uf[j,k]*cf[k,i]
            t=f"mul_swap a{idx(i,0)} b{idx(0,j)}"
            for k in range(1,N):
                t=f"same_add_congr ({t}) (mul_swap a{idx(i,k)} b{idx(k,j)})"
            rows.append(t)
    fr=[]
    for i in range(N):
        for j in range(N):
            fr.append(f"row{N}_bd hS "+' '.join(f'a{idx(i,k)}' for k in range(N))+' '+' '.join(f'b{idx(k,j)}' for k in range(N))+f" (key {i} {j})")
    LH=', '.join(['-']*(N*N-N)+[f'h{j}' for j in range(N)])
    LA=', '.join(f"row{N}_last h{j} "+' '.join(f'(congrFun hu {k})' for k in range(N)) for j in range(N))
    return T.format(LASTH=LH,LAST=LA,RT={2:'0 0 1',3:'0 0 0 1'}[D],SUM={2:'Fin.sum_univ_three',3:'Fin.sum_univ_four'}[D],FROWS=',\n      '.join(fr),D=D,N=N,Q=N*N,A=', '.join(f'a{i}' for i in range(N*N)),B=', '.join(f'b{i}' for i in range(N*N)),
      ROWS=',\n      '.join(rows),TV={2:'(1 + uro S)',3:'(1 + uro S) ^ 2'}[D],ROW={2:'![0, 0, 1]',3:'![0, 0, 0, 1]'}[D])
L='''
theorem real_zero_mul' {a x : S} (h : IsFinite (a * x)) (a0 : real a = 0) : real (a * x) = 0 := by
  rw [real_mul h, a0, zero_mul, rnd_eq]; exact (Binary.F S).rnd_zero
theorem real_one_mul' {a x : S} (h : IsFinite (a * x)) (a1 : real a = 1) : real (a * x) = real x := by
  rw [real_mul h, a1, one_mul, rnd_eq]; exact (Binary.F S).rnd_of_has (isFinite_has (finite_of_mul h).2)
theorem real_zero_add' {a x : S} (h : IsFinite (a + x)) (a0 : real a = 0) : real (a + x) = real x := by
  rw [real_add h, a0, zero_add, rnd_eq]; exact (Binary.F S).rnd_of_has (isFinite_has (finite_of_add h).2)
theorem row2_last {a b x y : S} (h : IsFinite (a * x + b * y)) (a0 : real a = 0) : real (a * x + b * y) = real (b * y) :=
  real_zero_add' h (real_zero_mul' (finite_of_add h).1 a0)
theorem row3_last {a b c x y z : S} (h : IsFinite (a * x + b * y + c * z)) (a0 : real a = 0) (b0 : real b = 0)
    (c1 : real c = 1) : real (a * x + b * y + c * z) = real z := by
  have h1 := finite_of_add h
  rw [real_zero_add' h (by rw [row2_last h1.1 a0]; exact real_zero_mul' (finite_of_add h1.1).2 b0)]
  exact real_one_mul' h1.2 c1
theorem row4_last {a b c d x y z w : S} (h : IsFinite (a * x + b * y + c * z + d * w)) (a0 : real a = 0) (b0 : real b = 0)
    (c0 : real c = 0) (d1 : real d = 1) : real (a * x + b * y + c * z + d * w) = real w := by
  have h1 := finite_of_add h
  have h2 := finite_of_add h1.1
  rw [real_zero_add' h (by
    rw [real_zero_add' h1.1 (by rw [row2_last h2.1 a0]; exact real_zero_mul' (finite_of_add h2.1).2 b0)]
    exact real_zero_mul' h2.2 c0)]
  exact real_one_mul' h1.2 d1
omit [Binary S] in
theorem same_add_congr {a b c d : S} (h : Same a b) (h' : Same c d) : Same (a + c) (b + d) := by
  unfold Same at *; rw [den_add, den_add, h, h']
omit [Binary S] in
theorem mul_swap {a b c d : S} (h : Same a b) (h' : Same c d) : Same (a * c) (d * b) := by
  have : Same (a * c) (b * d) := by unfold Same at *; rw [den_mul, den_mul, h, h']
  exact this.trans (same_mul_comm _ _)
'''
open('/verif/lean/Verif/Props/FloatDrift.lean','w').write(H+L+gen(2)+gen(3)+"\nend VecMath\n")

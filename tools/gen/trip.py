def gen(n):
    N=n+1; V=f"Vector{n}"; P=f"Point{n}"; T=f"Transform{n}"; M=f"Matrix{N}x{N}"; Rr=f"Ray{n}"
    row="![0, 0, 1]" if n==2 else "![0, 0, 0, 1]"
    tr=lambda t,x,ty:f"(Transform.transform {t} {x} : {ty} S)"
    o=[]
    w=o.append
    w(f"/-! ### {n}D -/\n")
    w(f"""theorem {P}.homog_castSucc (p : {P} S) (i : Fin {n}) : p.homog i.castSucc = p.toReal i := by fin_cases i <;> rfl
theorem {P}.homog_last (p : {P} S) : p.homog (Fin.last {n}) = 1 := rfl
/-- C63 in homogeneous coordinates. -/
theorem {P}.homog_err (t : {T} S) (p : {P} S) (ht : AllFinite t.forward) (hp : AllFinite p)
    (haff : t.forward.toReal {n} = {row}) (h : AllFinite {tr('t','p',P)}) (i : Fin {N}) :
    |{tr('t','p',P)}.homog i - ∑ j, t.forward.toReal i j * p.homog j| ≤
      ((1 + uro S) ^ {N} - 1) * ∑ j, |t.forward.toReal i j * p.homog j| + (1 + uro S) ^ {n} * ({n} * tiny S) := by
  have hu := uro_pos (S := S)
  have hs := tiny_pos (S := S)
  refine Fin.lastCases ?_ (fun i => ?_) i
  · have h0 : (0 : ℝ) ≤ (1 + uro S) ^ {N} - 1 := sub_nonneg.2 (one_le_pow₀ (by linarith))
    have e : ∑ j, t.forward.toReal (Fin.last {n}) j * p.homog j = 1 := by
      rw [Fin.sum_univ_castSucc, {P}.homog_last]
      have : ∀ j : Fin {n}, t.forward.toReal (Fin.last {n}) j.castSucc = 0 := fun j => by
        have := congrFun haff j.castSucc
        fin_cases j <;> exact this
      have l : t.forward.toReal (Fin.last {n}) (Fin.last {n}) = 1 := congrFun haff (Fin.last {n})
      rw [l]
      simp only [this, zero_mul, Finset.sum_const_zero, zero_add, mul_one]
    rw [e, {P}.homog_last, sub_self, abs_zero]
    positivity
  · have := C63_point{n} t p ht hp haff h i
    rw [Fin.sum_univ_castSucc (fun j : Fin {N} => t.forward.toReal i.castSucc j * p.homog j),
      Fin.sum_univ_castSucc (fun j : Fin {N} => |t.forward.toReal i.castSucc j * p.homog j|), {P}.homog_castSucc]
    simp only [{P}.homog_castSucc, {P}.homog_last, mul_one]
    exact this

/-- **C84** ({n}D points): applying a transform and then its inverse to a point returns the point, up to what the stored
inverse lacks of being the inverse, and the rounding of the two products. -/
theorem C84_point{n} (t : {T} S) (p : {P} S) (hA : AllFinite t.forward) (hB : AllFinite t.inverse) (hp : AllFinite p)
    (hA' : t.forward.toReal {n} = {row}) (hB' : t.inverse.toReal {n} = {row})
    (hq : AllFinite {tr('t','p',P)})
    (hr : AllFinite {tr('t.inv',tr('t','p',P),P)}) (i : Fin {n}) :
    |{tr('t.inv',tr('t','p',P),P)}.toReal i - p.toReal i| ≤
      tripErr S t.inverse.toReal t.forward.toReal p.homog {N} ((1 + uro S) ^ {n} * ({n} * tiny S)) i.castSucc := by
  have hu := uro_pos (S := S)
  have hs := tiny_pos (S := S)
  have := trip_core (m := {N}) (S := S) (s := (1 + uro S) ^ {n} * ({n} * tiny S)) (by positivity)
    ({P}.homog_err t p hA hp hA' hq) i.castSucc ({P}.homog_err t.inv _ hB hq hB' hr i.castSucc)
  rw [{P}.homog_castSucc, {P}.homog_castSucc] at this
  exact this

/-- **C84** ({n}D vectors). -/
theorem C84_vector{n} (t : {T} S) (v : {V} S) (hq : AllFinite {tr('t','v',V)})
    (hr : AllFinite {tr('t.inv',tr('t','v',V),V)}) (i : Fin {n}) :
    |{tr('t.inv',tr('t','v',V),V)}.toReal i - v.toReal i| ≤
      tripErr S t.inverse.linPart t.forward.linPart v.toReal {n} ({'(1 + uro S)' if n==2 else '(1 + uro S) ^ 2'} * ({n} * tiny S)) i := by
  have hu := uro_pos (S := S)
  have hs := tiny_pos (S := S)
  refine trip_core (m := {n}) (S := S) (q := {tr('t','v',V)}.toReal) (by positivity) (fun j => ?_) i ?_
  · exact C63_vector{n} t v hq j
  · exact C63_vector{n} t.inv _ hr i

/-- **C84** ({n}D rays): origin and direction. -/
theorem C84_ray{n} (t : {T} S) (r : {Rr} S) (hA : AllFinite t.forward) (hB : AllFinite t.inverse) (hp : AllFinite r.origin)
    (hA' : t.forward.toReal {n} = {row}) (hB' : t.inverse.toReal {n} = {row})
    (hq : AllFinite {tr('t','r',Rr)}.origin ∧ AllFinite {tr('t','r',Rr)}.direction)
    (hr : AllFinite {tr('t.inv',tr('t','r',Rr),Rr)}.origin ∧
      AllFinite {tr('t.inv',tr('t','r',Rr),Rr)}.direction) (i : Fin {n}) :
    |{tr('t.inv',tr('t','r',Rr),Rr)}.origin.toReal i - r.origin.toReal i| ≤
      tripErr S t.inverse.toReal t.forward.toReal r.origin.homog {N} ((1 + uro S) ^ {n} * ({n} * tiny S)) i.castSucc ∧
    |{tr('t.inv',tr('t','r',Rr),Rr)}.direction.toReal i - r.direction.toReal i| ≤
      tripErr S t.inverse.linPart t.forward.linPart r.direction.toReal {n} ({'(1 + uro S)' if n==2 else '(1 + uro S) ^ 2'} * ({n} * tiny S)) i :=
  ⟨C84_point{n} t r.origin hA hB hp hA' hB' hq.1 hr.1 i, C84_vector{n} t r.direction hq.2 hr.2 i⟩

/-- **C84** ({n}D): what a transform made by `try_from` loses because the computed inverse is rounded. -/
theorem C84_try_from{n} (m : {M} S) (t : {T} S) (h : {T}.tryFrom m = .ok t) (hf : AllFinite t.inverse)
    (h0 : t.inverse.toReal ≠ 0) (M : ℝ) (hM : ∀ i j, |m.toReal i j| ≤ M) (x : Fin {N} → ℝ) (i : Fin {N}) :
    t.forward = m ∧ lost t.inverse.toReal t.forward.toReal x i * |m.toReal.det| ≤
      ∑ k, (∑ l, invErr{N} S m.toReal t.inverse.toReal M i l * |m.toReal l k|) * |x k| := by
  cases hr : m.inverse with
  | error e => exact absurd h (by simp [{T}.tryFrom, hr, Bind.bind, Except.bind])
  | ok r =>
    have h1 : {T}.new m r = t := by
      simpa [{T}.tryFrom, hr, Bind.bind, Except.bind, pure, Except.pure] using h
    subst h1
    refine ⟨rfl, ?_⟩
    unfold lost
    rw [Finset.sum_mul]
    refine Finset.sum_le_sum fun k _ => ?_
    have := residual_left (C66_inverse{N}x{N} m r hr hf h0 M hM) i k
    calc _ = |(r.toReal * m.toReal) i k - (1 : Matrix (Fin {N}) (Fin {N}) ℝ) i k| * |m.toReal.det| * |x k| := by
          rw [Matrix.sub_apply]; exact mul_right_comm _ _ _
      _ ≤ _ := mul_le_mul_of_nonneg_right this (abs_nonneg _)
""")
    ax="xyz"[:n]
    # translate
    sels=(['.1','.2'] if n==2 else ['.1','.2.1','.2.2'])
    FIN=", ".join(f"(finite_num (num_of_beq h'{z})).1 ha{z}" for z in sels)
    FIV=", ".join(f"(finite_num (num_of_beq h'{z})).2 hb{z}" for z in sels)
    REALS="\n  ".join(f"· exact real_num (num_of_beq h'{z})" for z in sels)
    BT=", ".join(f"beq_trans_num (({V}.beq_iff.1 h){z}) (({V}.beq_iff.1 h'){z})" for z in sels)
    w(f"""omit [Binary S] in
theorem {P}.real_of_beq {{a b : {P} S}} (h : (a == b) = true) (ha : AllFinite a) :
    (∀ i, a.toReal i = b.toReal i) ∧ AllFinite b := by
  have h' := {P}.beq_iff.1 h
  rw [{P}.allFinite] at ha ⊢
  refine ⟨fun i => ?_, ⟨{FIN}⟩⟩
  fin_cases i
  {REALS}
omit [Binary S] in
theorem {V}.finite_of_beq {{a b : {V} S}} (h : (a == b) = true) (hb : AllFinite b) : AllFinite a := by
  have h' := {V}.beq_iff.1 h
  rw [{V}.allFinite] at hb ⊢
  exact ⟨{FIV}⟩
omit [Binary S] in
theorem {V}.beq_trans' {{a b c : {V} S}} (h : (a == b) = true) (h' : (b == c) = true) : (a == c) = true :=
  {V}.beq_iff.2 ⟨{BT}⟩
""")
    w(f"""/-- **C84** ({n}D translation): two roundings, whatever the offset; vectors come back unchanged. -/
theorem C84_translate{n} (v u : {V} S) (p : {P} S) (hv : AllFinite v) (hu : AllFinite u) (hp : AllFinite p)
    (hqf : AllFinite {tr(f'({T}.translate v)','p',P)})
    (hr : AllFinite {tr(f'({T}.translate v).inv',tr(f'({T}.translate v)','p',P),P)}) :
    (∀ i, |{tr(f'({T}.translate v).inv',tr(f'({T}.translate v)','p',P),P)}.toReal i - p.toReal i| ≤
      uro S * |p.toReal i| + (1 + uro S) * uro S * |p.toReal i + v.toReal i|) ∧
    ({tr(f'({T}.translate v).inv',tr(f'({T}.translate v)','u',V),V)} == u) = true := by
  have hv' := hv
  have hnv : AllFinite (-v) := by
    rw [{V}.allFinite] at hv' ⊢
    exact ⟨{', '.join('finite_neg.2 hv'+chr(39)+s for s in (['.1','.2'] if n==2 else ['.1','.2.1','.2.2']))}⟩
  have e1 := C46_float_translate{n} v u p hp hv.noNaN hu
  set q := {tr(f'({T}.translate v)','p',P)} with hq
  set w := {tr(f'({T}.translate v)','u',V)} with hw
  have hwf : AllFinite w := {V}.finite_of_beq e1.2 hu
  have e2 := C46_float_translate{n} (-v) w q hqf hnv.noNaN hwf
  refine ⟨?_, {V}.beq_trans' e2.2 e1.2⟩
  obtain ⟨r1, f1⟩ := {P}.real_of_beq e1.1 hqf
  obtain ⟨r2, f2⟩ := {P}.real_of_beq (a := {tr(f'({T}.translate v).inv','q',P)}) e2.1 hr
  rw [{P}.allFinite] at f1 f2
  intro i
  rw [r2 i]
  have e3 := r1 i
  fin_cases i""")
    sels=(['.1','.2'] if n==2 else ['.1','.2.1','.2.2'])
    for k in range(n):
        w(f"  · exact trip_translate e3 f1{sels[k]} f2{sels[k]}")
    w("")
    # scale
    ss=["sx","sy","sz"][:n]
    args=" ".join(ss)
    w(f"""/-- **C84** ({n}D scaling): three roundings, if nothing underflows or overflows. -/
theorem C84_scale{n} ({args} : S) (p : {P} S) (hp : AllFinite p)
    ({' '.join('h'+s for s in ss)} : IsFinite SX)""".replace(f"({' '.join('h'+s for s in ss)} : IsFinite SX)"," ".join(f"(h{s} : IsFinite {s}) (n{s} : real {s} ≠ 0)" for s in ss)))
    w("    "+" ".join(f"(i{s} : IsFinite (recip {s}))" for s in ss))
    w(f"    (hqf : AllFinite {tr(f'({T}.scale {args})','p',P)})")
    w(f"    (hr : AllFinite {tr(f'({T}.scale {args}).inv',tr(f'({T}.scale {args})','p',P),P)})")
    for s,a in zip(ss,ax):
        w(f"    (m{s} : Normal S (1 / real {s})) (m{s}' : Normal S (real {s} * real p.{a})) (m{s}'' : Normal S (real (recip {s}) * real ({s} * p.{a})))")
    w(f"""    (i : Fin {n}) :
    |{tr(f'({T}.scale {args}).inv',tr(f'({T}.scale {args})','p',P),P)}.toReal i - p.toReal i| ≤
      ((1 + uro S) ^ 3 - 1) * |p.toReal i| := by
  have e1 := C46_float_scale{n} {args} {V}.zero p {' '.join('h'+s for s in ss)} hp ({V}.allFinite.2 ⟨{', '.join(['finite_zero']*n)}⟩)
  set q := {tr(f'({T}.scale {args})','p',P)} with hq
  have e2 := C46_float_scale{n} {' '.join(f'(recip {s})' for s in ss)} {V}.zero q {' '.join('i'+s for s in ss)} hqf ({V}.allFinite.2 ⟨{', '.join(['finite_zero']*n)}⟩)
  obtain ⟨r1, f1⟩ := {P}.real_of_beq e1.1 hqf
  obtain ⟨r2, f2⟩ := {P}.real_of_beq (a := {tr(f'({T}.scale {args}).inv','q',P)}) e2.1 hr
  rw [{P}.allFinite] at f1 f2
  rw [r2 i]
  have e3 := r1 i
  fin_cases i""")
    for k in range(n):
        s=ss[k]
        w(f"  · exact trip_scale e3 n{s} i{s} f1{sels[k]} f2{sels[k]} m{s} m{s}' m{s}''")
    w("")
    return "\n".join(o)
head='''import Verif.Spec.RoundTrip
import Verif.Props.FloatErrorMat
import Verif.Props.FloatInverse
import Verif.Props.FloatMatrix
import Verif.Props.FloatTurns
import Verif.Props.FloatExamples
import Verif.Lemmas.Frob
/-!
# Layer F: transforming there and back (C84)
-/

open Classical

namespace VecMath
open Scalar IEEE

section
variable {S : Type} [Scalar S] [IEEE S] [Binary S]

/-- Two approximate matrix-vector products in a row. -/
theorem trip_core {n : ℕ} {B A : Matrix (Fin n) (Fin n) ℝ} {x q r : Fin n → ℝ} {m : ℕ} {s : ℝ} (hs : 0 ≤ s)
    (h1 : ∀ j, |q j - ∑ k, A j k * x k| ≤ ((1 + uro S) ^ m - 1) * ∑ k, |A j k * x k| + s) (i : Fin n)
    (h2 : |r i - ∑ j, B i j * q j| ≤ ((1 + uro S) ^ m - 1) * ∑ j, |B i j * q j| + s) :
    |r i - x i| ≤ tripErr S B A x m s i := by
  have hu := uro_pos (S := S)
  have hg1 : (1 : ℝ) ≤ (1 + uro S) ^ m := one_le_pow₀ (by linarith)
  have pe : (1 + uro S) ^ (2 * m) = ((1 + uro S) ^ m) ^ 2 := by rw [mul_comm, pow_mul]
  unfold tripErr
  rw [pe]
  generalize (1 + uro S) ^ m = G at *
  have hq : ∀ j, |q j| ≤ G * (∑ k, |A j k * x k|) + s := by
    intro j
    have a := abs_sub_abs_le_abs_sub (q j) (∑ k, A j k * x k)
    have b := Finset.abs_sum_le_sum_abs (fun k => A j k * x k) Finset.univ
    have c := h1 j
    linarith
  have e : r i - x i = (r i - ∑ j, B i j * q j) + ∑ j, B i j * (q j - ∑ k, A j k * x k) + ∑ k, (B * A - 1) i k * x k := by
    have e1 : ∑ k, (B * A - 1) i k * x k = (∑ j, B i j * ∑ k, A j k * x k) - x i := by
      have : ∀ k, (B * A - 1) i k * x k = (∑ j, B i j * (A j k * x k)) - (1 : Matrix (Fin n) (Fin n) ℝ) i k * x k := by
        intro k
        rw [Matrix.sub_apply, Matrix.mul_apply, sub_mul, Finset.sum_mul]
        simp only [mul_assoc]
      simp only [this, Finset.sum_sub_distrib]
      congr 1
      · rw [Finset.sum_comm]; simp only [Finset.mul_sum]
      · simp [Matrix.one_apply]
    have e2 : ∑ j, B i j * (q j - ∑ k, A j k * x k) = (∑ j, B i j * q j) - ∑ j, B i j * ∑ k, A j k * x k := by
      simp only [mul_sub, Finset.sum_sub_distrib]
    rw [e1, e2]; ring
  have t1 : ∑ j, |B i j * q j| ≤ G * spread B A x i + s * ∑ j, |B i j| := by
    unfold spread
    rw [Finset.mul_sum, Finset.mul_sum, ← Finset.sum_add_distrib]
    refine Finset.sum_le_sum fun j _ => ?_
    rw [abs_mul]
    have := mul_le_mul_of_nonneg_left (hq j) (abs_nonneg (B i j))
    linarith
  have t2 : |∑ j, B i j * (q j - ∑ k, A j k * x k)| ≤ (G - 1) * spread B A x i + s * ∑ j, |B i j| := by
    refine (Finset.abs_sum_le_sum_abs _ _).trans ?_
    unfold spread
    rw [Finset.mul_sum, Finset.mul_sum, ← Finset.sum_add_distrib]
    refine Finset.sum_le_sum fun j _ => ?_
    rw [abs_mul]
    have := mul_le_mul_of_nonneg_left (h1 j) (abs_nonneg (B i j))
    linarith
  have t3 : |∑ k, (B * A - 1) i k * x k| ≤ lost B A x i := by
    refine (Finset.abs_sum_le_sum_abs _ _).trans (le_of_eq ?_)
    unfold lost
    simp only [abs_mul]
  have t4 := mul_le_mul_of_nonneg_left t1 (sub_nonneg.2 hg1)
  rw [e]
  refine (abs_add_le _ _).trans (le_trans (add_le_add_left (abs_add_le _ _) _) ?_)
  have h3 := h2.trans (add_le_add_left t4 s)
  refine (add_le_add (add_le_add h3 t2) t3).trans (le_of_eq ?_)
  ring

omit [Binary S] in
theorem beq_trans_num {a b c : S} (h : (a == b) = true) (h' : (b == c) = true) : (a == c) = true :=
  beq_iff_num.2 ⟨(num_of_beq h).trans (num_of_beq h'), (beq_iff_num.1 h).2⟩

theorem residual_left {n : ℕ} {A R : Matrix (Fin n) (Fin n) ℝ} {E : Fin n → Fin n → ℝ}
    (h : ∀ i j, |R i j * A.det - A.adjugate i j| ≤ E i j) (i j : Fin n) :
    |(R * A) i j - (1 : Matrix (Fin n) (Fin n) ℝ) i j| * |A.det| ≤ ∑ k, E i k * |A k j| := by
  have e := congrFun (congrFun (Matrix.adjugate_mul A) i) j
  rw [Matrix.mul_apply, Matrix.smul_apply, smul_eq_mul] at e
  have e2 : ((R * A) i j - (1 : Matrix (Fin n) (Fin n) ℝ) i j) * A.det =
      ∑ k, (R i k * A.det - A.adjugate i k) * A k j := by
    rw [sub_mul, mul_comm ((1 : Matrix (Fin n) (Fin n) ℝ) i j), ← e, Matrix.mul_apply, Finset.sum_mul,
      ← Finset.sum_sub_distrib]
    exact Finset.sum_congr rfl fun k _ => by ring
  rw [← abs_mul, e2]
  refine (Finset.abs_sum_le_sum_abs _ _).trans (Finset.sum_le_sum fun k _ => ?_)
  rw [abs_mul]
  exact mul_le_mul_of_nonneg_right (h i k) (abs_nonneg _)

omit [Binary S] in
/-- **C84**: little is lost when the two matrices are close to a rotation (or reflection) and its transpose. -/
theorem C84_orthogonal {n : ℕ} {B A Q : Matrix (Fin n) (Fin n) ℝ} {ε : ℝ} (hQ : Orthogonal Q) (hA : size (A - Q) ≤ ε)
    (hB : size (B - Q.transpose) ≤ ε) (x : Fin n → ℝ) (i : Fin n) : lost B A x i ≤ ε * (2 + ε) * norm2 x := by
  have hε : 0 ≤ ε := (size_nonneg _).trans hA
  have e : B * A - 1 = (B - Q.transpose) * Q + (Q.transpose * (A - Q) + (B - Q.transpose) * (A - Q)) := by
    rw [← hQ.1]; noncomm_ring
  have h1 : size (B * A - 1) ≤ ε * (2 + ε) := by
    rw [e]
    have a := size_add (A := (B - Q.transpose) * Q) (B := Q.transpose * (A - Q) + (B - Q.transpose) * (A - Q))
    have b := size_add (A := Q.transpose * (A - Q)) (B := (B - Q.transpose) * (A - Q))
    have c := size_mul (A := B - Q.transpose) (B := A - Q)
    rw [size_orth_right hQ.2] at a
    rw [size_orth (Q := Q.transpose) (by rw [Matrix.transpose_transpose]; exact hQ.2)] at b
    have d := mul_le_mul hB hA (size_nonneg _) hε
    nlinarith
  have h2 : lost B A x i ≤ size (B * A - 1) * norm2 x := by
    unfold lost
    have := Real.sum_mul_le_sqrt_mul_sqrt Finset.univ (fun k => |(B * A - 1) i k|) (fun k => |x k|)
    refine this.trans ?_
    simp only [sq_abs]
    refine mul_le_mul_of_nonneg_right (Real.sqrt_le_sqrt ?_) (Real.sqrt_nonneg _)
    exact Finset.single_le_sum (f := fun i => ∑ k, (B * A - 1) i k ^ 2)
      (fun i _ => Finset.sum_nonneg fun j _ => sq_nonneg _) (Finset.mem_univ i)
  exact h2.trans (mul_le_mul_of_nonneg_right h1 (Real.sqrt_nonneg _))

/-- Adding an offset and subtracting it again. -/
theorem trip_translate {x v q : S} (e : real q = real (x + v)) (h : IsFinite (x + v)) (h' : IsFinite (q + -v)) :
    |real (q + -v) - real x| ≤ uro S * |real x| + (1 + uro S) * uro S * |real x + real v| := by
  have hu := uro_pos (S := S)
  have a := err_add h
  have b := err_add h'
  rw [real_neg, e] at b
  have c : |real (x + v) + -real v| ≤ |real x| + uro S * |real x + real v| := by
    have : real (x + v) + -real v = real x + (real (x + v) - (real x + real v)) := by ring
    rw [this]; exact (abs_add_le _ _).trans (by linarith)
  have d : real (q + -v) - real x = (real (q + -v) - (real (x + v) + -real v)) + (real (x + v) - (real x + real v)) := by
    ring
  rw [d]
  refine (abs_add_le _ _).trans ?_
  nlinarith [mul_le_mul_of_nonneg_left c hu.le]

/-- Multiplying by a factor and by its reciprocal. -/
theorem trip_scale {x s q : S} (e : real q = real (s * x)) (h0 : real s ≠ 0) (hi : IsFinite (recip s)) (h : IsFinite (s * x))
    (h' : IsFinite (recip s * q)) (n1 : Normal S (1 / real s)) (n2 : Normal S (real s * real x))
    (n3 : Normal S (real (recip s) * real (s * x))) :
    |real (recip s * q) - real x| ≤ ((1 + uro S) ^ 3 - 1) * |real x| := by
  have hu := uro_pos (S := S)
  have hs := (finite_of_mul h).1
  have a := err_mul_normal h n2
  have b := err_mul_normal h' (by rw [e]; exact n3)
  rw [e] at b
  have c := err_div_normal finite_one hs h0 hi (by rw [real_one]; exact n1)
  rw [real_one] at c
  change |real (recip s) - 1 / real s| ≤ _ at c
  have S0 : 0 < |real s| := abs_pos.2 h0
  -- relative forms
  have a2 : |real (s * x) / real s - real x| ≤ uro S * |real x| := by
    have : real (s * x) / real s - real x = (real (s * x) - real s * real x) / real s := by field_simp
    rw [this, abs_div, div_le_iff₀ S0]
    rw [abs_mul] at a; linarith
  have c2 : |real (recip s) * real s - 1| ≤ uro S := by
    have : real (recip s) * real s - 1 = (real (recip s) - 1 / real s) * real s := by field_simp
    rw [this, abs_mul]
    refine (mul_le_mul_of_nonneg_right c S0.le).trans (le_of_eq ?_)
    rw [abs_div, abs_one]; field_simp
  set y := real (s * x) / real s with hy
  have e1 : real (recip s) * real (s * x) = (real (recip s) * real s) * y := by rw [hy]; field_simp
  have y1 : |y| ≤ (1 + uro S) * |real x| := by
    have := abs_sub_abs_le_abs_sub y (real x); linarith
  have p1 : |real (recip s) * real (s * x) - real x| ≤ ((1 + uro S) ^ 2 - 1) * |real x| := by
    have : real (recip s) * real (s * x) - real x = (real (recip s) * real s - 1) * y + (y - real x) := by rw [e1]; ring
    rw [this]
    refine (abs_add_le _ _).trans ?_
    rw [abs_mul]
    have := mul_le_mul c2 y1 (abs_nonneg _) hu.le
    nlinarith
  have p2 : |real (recip s) * real (s * x)| ≤ (1 + uro S) ^ 2 * |real x| := by
    have := abs_sub_abs_le_abs_sub (real (recip s) * real (s * x)) (real x); linarith
  have d : real (recip s * q) - real x =
    (real (recip s * q) - real (recip s) * real (s * x)) + (real (recip s) * real (s * x) - real x) := by ring
  rw [d]
  refine (abs_add_le _ _).trans ?_
  have := mul_le_mul_of_nonneg_left p2 hu.le
  nlinarith

'''
open('/verif/lean/Verif/Props/FloatTrip.lean','w').write(head+gen(2)+"\n"+gen(3)+"end\nend VecMath\n")

out='''import Verif.Spec.Reflect
import Verif.Lemmas.Approx
import Verif.Lemmas.Symm
import Verif.Lemmas.Near
import Verif.Lemmas.Fl
import Verif.Props.FloatBasis
import Verif.Props.FloatVector
import Verif.Props.FloatInvAffine
import Verif.Props.FloatRangeAcc
import Mathlib.Analysis.InnerProductSpace.PiL2
/-!
# Rejection and reflection in floating point (layer F): C109

(Generated by tools/gen.)
-/

open Classical

namespace VecMath
open Scalar IEEE

'''
out+=open('/tmp/d/t1.lean').read().split('PiL2\n')[1]
out+='''theorem reject_perp {k : ℕ} (v n : Fin k → ℝ) {e : ℝ} (h : |∑ i, n i ^ 2 - 1| ≤ e) :
    |∑ i, (v i - 1 * (∑ j, v j * n j) * n i) * n i| ≤ |∑ j, v j * n j| * e := by
  set s := ∑ j, v j * n j with hs
  have q : ∑ i, (v i - 1 * s * n i) * n i = s * (1 - ∑ i, n i ^ 2) := by
    have : ∀ i, (v i - 1 * s * n i) * n i = v i * n i - s * n i ^ 2 := fun i => by ring
    simp only [this, Finset.sum_sub_distrib, ← Finset.mul_sum]
    rw [← hs]; ring
  rw [q, abs_mul, abs_sub_comm 1]
  gcongr

section
variable {S : Type} [Scalar S] [IEEE S]

theorem num_flip_mul {a b b' : S} (h : num b' = num (-b)) : num (-a * b') = num (a * b) :=
  (num_mul_congr rfl h).trans (((same_neg_mul a (-b)).trans ((same_mul_neg a b).neg.trans (same_neg_neg _)))).num
theorem num_neg_mul' {a b b' : S} (h : num b' = num (-b)) : num (a * b') = num (-(a * b)) :=
  (num_mul_congr rfl h).trans (same_mul_neg a b).num
theorem num_neg_add' {a b a' b' : S} (h : num a' = num (-a)) (h' : num b' = num (-b)) : num (a' + b') = num (-(a + b)) :=
  (num_add_congr h h').trans (num_neg_add a b)
theorem num_neg_sub' {a b b' : S} (h : num b' = num (-b)) : num (-a - b') = num (-(a - b)) :=
  (num_sub_congr rfl h).trans (num_neg_sub a b)
end

section
variable {S : Type} [Scalar S] [IEEE S] [Binary S]

theorem unit_bounds {u x : ℝ} {m : ℕ} (u0 : 0 ≤ u) (u1 : u < 1) (hl : (1 - u) ^ 2 / (1 + u) ^ m ≤ x) (hr : x ≤ (1 + u) ^ 2 / (1 - u) ^ m) (hm : 2 ≤ m) :
    |x - 1| ≤ (1 + u) ^ 2 / (1 - u) ^ m - 1 := by
  have p : 0 < 1 - u := by linarith
  have q : 0 < 1 + u := by linarith
  set a := (1 + u) ^ 2 / (1 - u) ^ m with ha
  set b := (1 - u) ^ 2 / (1 + u) ^ m with hb
  have a0 : 0 < a := by positivity
  have b0 : 0 < b := by positivity
  have ab : 1 ≤ a * b := by
    have : a * b = ((1 + u) * (1 - u)) ^ 2 / ((1 + u) * (1 - u)) ^ m := by
      rw [ha, hb, div_mul_div_comm, mul_pow, mul_pow, mul_comm ((1 - u) ^ m)]
    rw [this, one_le_div (by positivity)]
    exact pow_le_pow_of_le_one (by positivity) (by nlinarith) hm
  have : 2 ≤ a + b := by nlinarith [sq_nonneg (a - b)]
  rw [abs_le]; constructor <;> linarith
/-- Doubling is exact unless it overflows. -/
theorem real_double {a : S} (h : IsFinite (a + a)) : real (a + a) = real a + real a := by
  have ha := (finite_of_add h).1
  have c := correct_add ha ha
  obtain ⟨m, e, he, hm, hx⟩ := isFinite_has ha
  have hh : (Binary.F S).Has (real a + real a) := ⟨m, e + 1, by omega, hm, by rw [hx, zpow_add₀ (by norm_num)]; ring⟩
  have hf : InFormat S (real a + real a) := by
    refine ⟨hh, ?_⟩
    have := ((Binary.F S).fits_rnd_iff (real a + real a)).2 (c.1.1 h)
    rw [(Binary.F S).rnd_of_has hh] at this; exact this
  have := (c.2 h).2 _ hf
  rw [sub_self, abs_zero, abs_nonpos_iff] at this
  linarith
theorem num_minus_double {a : S} (h : IsFinite (a + a)) : num (a - (a + a)) = num (-a) := by
  have ha := (finite_of_add h).1
  have c := correct_sub ha h
  have e : real a - real (a + a) = -real a := by rw [real_double h]; ring
  rw [e] at c
  have hf : IsFinite (a - (a + a)) := c.1.2 (by rw [abs_neg]; exact finite_lt_overflow ha)
  refine num_of_real hf (finite_neg.2 ha) ?_
  have f := inFormat (finite_neg.2 ha)
  rw [IEEE.real_neg] at f ⊢
  have := (c.2 hf).2 _ f
  rw [sub_self, abs_zero, abs_nonpos_iff] at this
  linarith
theorem num_minus_self {a b : S} (ha : IsFinite a) (h : num b = num a) : num (a - b) = num (zero : S) := by
  have hb := finite_of_num h ha
  have c := correct_sub ha hb
  have e := real_of_num hb ha h
  rw [e, sub_self] at c
  have hf : IsFinite (a - b) := c.1.2 (by rw [abs_zero]; exact (abs_nonneg _).trans_lt (finite_lt_overflow ha))
  refine num_of_real hf finite_zero ?_
  have f := inFormat (S := S) finite_zero
  rw [real_zero] at f ⊢
  have := (c.2 hf).2 _ f
  simpa using this
theorem reflect_comp {k : ℕ} {t x A : ℝ} {v n d : S} (hd : Approx k t d x A) (h : IsFinite (v - n * (d + d))) :
    |real (v - n * (d + d)) - (real v - 2 * x * real n)| ≤
      ((1 + uro S) ^ (k + 3) - 1) * (|real v| + 2 * A * |real n|) + ((1 + uro S) ^ 3 * (2 * t) * |real n| + (1 + uro S) * tiny S) := by
  have h1 := (finite_of_sub h).2
  have h2 := (finite_of_mul h1).2
  have q := (((Approx.exact v).mono (Nat.zero_le (k + 1 + 1)) le_rfl).sub ((hd.add hd h2).exact_mul h1) h).2
  refine le_trans (le_of_eq (congrArg _root_.abs ?_)) (q.trans (le_of_eq ?_)) <;> ring
theorem reject_comp {k : ℕ} {t x A : ℝ} {v n d : S} (hd : Approx k t d x A) (h : IsFinite (v - n * d)) :
    |real (v - n * d) - (real v - 1 * x * real n)| ≤
      ((1 + uro S) ^ (k + 2) - 1) * (|real v| + 1 * A * |real n|) + ((1 + uro S) ^ 2 * t * |real n| + (1 + uro S) * tiny S) := by
  have h1 := (finite_of_sub h).2
  have q := (((Approx.exact v).mono (Nat.zero_le (k + 1)) le_rfl).sub (hd.exact_mul h1) h).2
  refine le_trans (le_of_eq (congrArg _root_.abs ?_)) (q.trans (le_of_eq ?_)) <;> ring
end

'''
for n in (2,3):
    V=f'Vector{n}'; c='xyz'[:n]
    dotnum=lambda l: l if n==2 else l
    negadd = 'num_neg_add\' (H _ _) (H _ _)' if n==2 else 'num_neg_add\' (num_neg_add\' (H _ _) (H _ _)) (H _ _)'
    if n==2:
        ap='Approx.acc t0 le_rfl (Approx.prod (finite_of_add h).1).start (Approx.prod (finite_of_add h).2) h'
        exp='''  refine (this.mono le_rfl le_rfl).congr ?_ ?_ <;> rw [Fin.sum_univ_two] <;> rfl'''
    else:
        ap='Approx.acc t0 (by norm_num) (Approx.acc t0 le_rfl (Approx.prod (finite_of_add (finite_of_add h).1).1).start (Approx.prod (finite_of_add (finite_of_add h).1).2) (finite_of_add h).1) (Approx.prod (finite_of_add h).2) h'
        exp='''  refine (this.mono le_rfl le_rfl).congr ?_ ?_ <;> rw [Fin.sum_univ_three] <;> rfl'''
    hs=['h.1','h.2'] if n==2 else ['h.1','h.2.1','h.2.2']
    w='2D' if n==2 else '3D'
    fin0=f'(finite_of_sub h.1).2'
    axs='cases d <;> cases e'
    comps=', '.join(f'{V}.{o}_{k}' for o in ('sub','mul') for k in c)
    unf=f'{V}.axis, '+', '.join(f'{V}.{k}Axis' for k in c)+f', {V}.new, {V}.index, '+comps
    hv={2:'⟨h0, h1⟩',3:'⟨h0, h1, h2⟩'}[n]
    out+=f'''/-! ## Dimension {n} -/
section
variable {{S : Type}} [Scalar S] [IEEE S]
theorem {V}.num_dot_neg_right (v n : {V} S) : num (Api.dot v (-n) : S) = num (-(Api.dot v n : S)) := by
  have H : ∀ a b : S, num (a * -b) = num (-(a * b)) := fun a b => (same_mul_neg a b).num
  exact {negadd}
theorem {V}.num_dot_neg_left (v n : {V} S) : num (Api.dot (-v) n : S) = num (-(Api.dot v n : S)) := by
  have H : ∀ a b : S, num (-a * b) = num (-(a * b)) := fun a b => (same_neg_mul a b).num
  exact {negadd}
/-- **C109** ({w}): turning the normal around does not change a reflection or a rejection at all, and turning the vector
around exactly turns it around. -/
theorem C109_flip{n} (v n : {V} S) :
    (NoNaN (v.reflect n) → (v.reflect (-n) == v.reflect n) = true ∧ ((-v).reflect n == -(v.reflect n)) = true) ∧
    (NoNaN (v.reject n) → (v.reject (-n) == v.reject n) = true ∧ ((-v).reject n == -(v.reject n)) = true) := by
  have r := {V}.num_dot_neg_right v n
  have l := {V}.num_dot_neg_left v n
  have r2 := num_neg_add' r r
  have l2 := num_neg_add' l l
  refine ⟨fun h => ?_, fun h => ?_⟩ <;> rw [{V}.noNaN] at h <;> refine ⟨{V}.beq_iff.2 ?_, {V}.beq_iff.2 ?_⟩
'''
    for (R,L) in (('r2','l2'),('r','l')):
        out+='  · exact ⟨'+', '.join(f'beq_of_num\' (num_sub_congr rfl (num_flip_mul {R})) {x}' for x in hs)+'⟩\n'
        out+='  · exact ⟨'+', '.join(f'beq_of_num\' (num_neg_sub\' (num_neg_mul\' {L})) (fun q => {x} (isNaN_neg.1 q))' for x in hs)+'⟩\n'
    out+=f'''end

section
variable {{S : Type}} [Scalar S] [IEEE S] [Binary S]
theorem {V}.approx_dot {{v n : {V} S}} (h : IsFinite (Api.dot v n : S)) :
    Approx {n} (({n} : ℕ) * (1 + uro S) ^ {n-1} * tiny S) (Api.dot v n : S) (∑ j, v.toReal j * n.toReal j) (∑ j, |v.toReal j| * |n.toReal j|) := by
  have t0 := (tiny_pos (S := S)).le
  have := {ap}
{exp}
/-- **C109** ({w}): the error of every component of a finite reflection. -/
theorem C109_error_reflect{n} (v n : {V} S) (h : AllFinite (v.reflect n)) (i : Fin {n}) :
    |(v.reflect n).toReal i - mirrored 2 v.toReal n.toReal i| ≤ reflectErr S v.toReal n.toReal i := by
  rw [{V}.allFinite] at h
  have hd := {V}.approx_dot (finite_of_add (finite_of_mul {fin0}).2).1
  unfold mirrored reflectErr mirroredAbs gam
  fin_cases i
'''
    for x,k in zip(hs,c):
        out+=f'  · refine (reflect_comp hd {x}).trans (le_of_eq ?_)\n    show _ = ((1 + uro S) ^ ({n} + 3) - 1) * (|real v.{k}| + 2 * (∑ j, |v.toReal j| * |n.toReal j|) * |real n.{k}|) + (2 * (({n} : ℕ) : ℝ) * (1 + uro S) ^ ({n} + 2) * |real n.{k}| + (1 + uro S)) * tiny S\n    push_cast; ring\n'
    out+=f'''/-- **C109** ({w}): the error of every component of a finite rejection. -/
theorem C109_error_reject{n} (v n : {V} S) (h : AllFinite (v.reject n)) (i : Fin {n}) :
    |(v.reject n).toReal i - mirrored 1 v.toReal n.toReal i| ≤ rejectErr S v.toReal n.toReal i := by
  rw [{V}.allFinite] at h
  have hd := {V}.approx_dot (finite_of_mul {fin0}).2
  unfold mirrored rejectErr mirroredAbs gam
  fin_cases i
'''
    for x,k in zip(hs,c):
        out+=f'  · refine (reject_comp hd {x}).trans (le_of_eq ?_)\n    show _ = ((1 + uro S) ^ ({n} + 2) - 1) * (|real v.{k}| + 1 * (∑ j, |v.toReal j| * |n.toReal j|) * |real n.{k}|) + ((({n} : ℕ) : ℝ) * (1 + uro S) ^ ({n} + 1) * |real n.{k}| + (1 + uro S)) * tiny S\n    push_cast; ring\n'
    out+=f'''/-- **C109** ({w}): a nonzero vector of moderate components is normalized to a usable normal. -/
theorem C109_normalized{n} {{k : ℕ}} (m : {V} S) (hm : Moderate k m) (h0 : m.toReal ≠ 0) (hR : Room S (2 * k) {n}) (hR' : Room S k 2)
    (hk : (Binary.F S).emin + (Binary.F S).p - 1 ≤ -(2 * k + 1 : ℤ)) :
    AllFinite m.normalize ∧ |∑ i, m.normalize.toReal i ^ 2 - 1| ≤ (1 + uro S) ^ 2 / (1 - uro S) ^ {n+2} - 1 := by
  obtain ⟨f, -, l, r, -⟩ := C86_normalize_accurate{n} m hm h0 hR hR' hk
  exact ⟨f, unit_bounds (uro_pos (S := S)).le (by have := uro_le (S := S); linarith) l r (by norm_num)⟩
/-- **C109** ({w}): a finite reflection has the length of the vector, up to the rounding errors and the error of the
length of the normal. -/
theorem C109_length{n} (v n : {V} S) (h : AllFinite (v.reflect n)) {{e : ℝ}} (he : |∑ i, n.toReal i ^ 2 - 1| ≤ e) :
    |√(∑ i, (v.reflect n).toReal i ^ 2) - √(∑ i, v.toReal i ^ 2)| ≤
      ∑ i, reflectErr S v.toReal n.toReal i + 4 * e * (1 + e) * √(∑ i, v.toReal i ^ 2) := by
  have h1 := sqrt_sub_le (v.reflect n).toReal (mirrored 2 v.toReal n.toReal)
  have h2 := mirror_len v.toReal n.toReal he
  have h3 := Finset.sum_le_sum fun i (_ : i ∈ Finset.univ) => C109_error_reflect{n} v n h i
  exact (abs_sub_le _ _ _).trans (add_le_add (h1.trans h3) h2)
/-- **C109** ({w}): a finite rejection is perpendicular to the normal, up to the rounding errors and the error of the
length of the normal. -/
theorem C109_perp{n} (v n : {V} S) (h : AllFinite (v.reject n)) {{e : ℝ}} (he : |∑ i, n.toReal i ^ 2 - 1| ≤ e) :
    |∑ i, (v.reject n).toReal i * n.toReal i| ≤
      ∑ i, rejectErr S v.toReal n.toReal i * |n.toReal i| + |∑ i, v.toReal i * n.toReal i| * e := by
  have h2 := reject_perp v.toReal n.toReal he
  have e1 : ∑ i, (v.reject n).toReal i * n.toReal i = ∑ i, ((v.reject n).toReal i - mirrored 1 v.toReal n.toReal i) * n.toReal i +
      ∑ i, mirrored 1 v.toReal n.toReal i * n.toReal i := by
    rw [← Finset.sum_add_distrib]; exact Finset.sum_congr rfl fun i _ => by ring
  rw [e1]
  refine (abs_add_le _ _).trans (add_le_add ((Finset.abs_sum_le_sum_abs _ _).trans (Finset.sum_le_sum fun i _ => ?_)) h2)
  rw [abs_mul]
  exact mul_le_mul_of_nonneg_right (C109_error_reject{n} v n h i) (abs_nonneg _)
/-- **C109** ({w}): reflection at an axis negates that component and leaves the others, exactly, unless doubling the
component overflows. -/
theorem C109_axis_reflect{n} (v : {V} S) (hv : AllFinite v) (d : Dimension{n}) (hd : IsFinite (v.index d + v.index d)) (e : Dimension{n}) :
    ((v.reflect ({V}.axis d)).index e == if e = d then -v.index e else v.index e) = true := by
  have D := num_of_beq (C101_dot{n} v hv d).2
  have D2 := num_add_congr D D
  have f2 := finite_of_num D2 hd
  rw [{V}.allFinite] at hv
  have nm := num_minus_double hd
  have k1 : ∀ a : S, num (a - (one : S) * (Api.dot v ({V}.axis d : {V} S) + Api.dot v ({V}.axis d : {V} S))) = num (a - (v.index d + v.index d)) :=
    fun a => num_sub_congr rfl ((IEEE.num_one_mul _).trans D2)
  have k0 : ∀ a : S, num (a - (zero : S) * (Api.dot v ({V}.axis d : {V} S) + Api.dot v ({V}.axis d : {V} S))) = num a :=
    fun a => n_sub0 (IEEE.num_zero_mul f2)
  obtain {hv} := hv
  cases d <;> cases e <;> refine beq_of_num' ?_ (by simp only [reduceCtorEq, if_true, if_false]; first | exact IsFinite.not_nan (by assumption) | exact (finite_neg.2 (by assumption)).not_nan) <;>
    simp only [reduceCtorEq, if_true, if_false] <;> first | exact k0 _ | exact (k1 _).trans nm
/-- **C109** ({w}): so reflecting at an axis twice gives back exactly the vector. -/
theorem C109_axis_twice{n} (v : {V} S) (hv : AllFinite v) (d : Dimension{n}) (hd : IsFinite (v.index d + v.index d)) :
    ((v.reflect ({V}.axis d)).reflect ({V}.axis d) == v) = true := by
  have H := fun e => num_of_beq (C109_axis_reflect{n} v hv d hd e)
  have Hd := H d
  rw [if_pos rfl] at Hd
  have hv' := hv
  rw [{V}.allFinite] at hv'
  have fi : ∀ e, IsFinite (v.index e) := fun e => by cases e <;> simp only [{V}.index, hv']
  have fr : ∀ e, IsFinite ((v.reflect ({V}.axis d)).index e) := fun e => by
    refine finite_of_num (H e) ?_
    split_ifs
    · exact finite_neg.2 (fi e)
    · exact fi e
  have fr' : AllFinite (v.reflect ({V}.axis d)) := {V}.allFinite.2 ⟨{', '.join(f'fr .{k.upper()}' for k in c)}⟩
  have dd : num ((v.reflect ({V}.axis d)).index d + (v.reflect ({V}.axis d)).index d) = num (-(v.index d + v.index d)) := num_neg_add' Hd Hd
  have hd' := finite_of_num dd (finite_neg.2 hd)
  have H2 := fun e => num_of_beq (C109_axis_reflect{n} _ fr' d hd' e)
  have key : ∀ e, (((v.reflect ({V}.axis d)).reflect ({V}.axis d)).index e == v.index e) = true := fun e => by
    refine beq_of_num' ((H2 e).trans ?_) (fi e).not_nan
    have := H e
    split_ifs at this ⊢ with q
    · exact (num_neg_congr this).trans (same_neg_neg _).num
    · exact this
  exact {V}.beq_iff.2 ⟨{', '.join(f'key .{k.upper()}' for k in c)}⟩
/-- **C109** ({w}): rejection from an axis makes that component zero and leaves the others, exactly. -/
theorem C109_axis_reject{n} (v : {V} S) (hv : AllFinite v) (d : Dimension{n}) (e : Dimension{n}) :
    ((v.reject ({V}.axis d)).index e == if e = d then zero else v.index e) = true := by
  have D := num_of_beq (C101_dot{n} v hv d).2
  rw [{V}.allFinite] at hv
  have fi : ∀ e, IsFinite (v.index e) := fun e => by cases e <;> simp only [{V}.index, hv]
  have f2 := finite_of_num D (fi d)
  have nm : num (v.index d - v.index d) = num (zero : S) := num_minus_self (fi d) rfl
  have k1 : ∀ a : S, num (a - (one : S) * Api.dot v ({V}.axis d : {V} S)) = num (a - v.index d) :=
    fun a => num_sub_congr rfl ((IEEE.num_one_mul _).trans D)
  have k0 : ∀ a : S, num (a - (zero : S) * Api.dot v ({V}.axis d : {V} S)) = num a :=
    fun a => n_sub0 (IEEE.num_zero_mul f2)
  have fz := finite_zero (S := S)
  obtain {hv} := hv
  cases d <;> cases e <;> refine beq_of_num' ?_ (by simp only [reduceCtorEq, if_true, if_false]; exact IsFinite.not_nan (by assumption)) <;>
    simp only [reduceCtorEq, if_true, if_false] <;> first | exact k0 _ | exact (k1 _).trans nm
end

'''
out+='end VecMath\n'
import sys
open(sys.argv[1] if len(sys.argv)>1 else '/verif/lean/Verif/Props/FloatReflect.lean','w').write(out)

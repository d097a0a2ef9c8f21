out='''import Verif.Props.FloatRangeFmt
import Verif.Props.FloatLookAt
import Verif.Props.FloatTournament
/-!
# The laws of geometry up to rounding (layer F): C89, C90

What is left, between *computed* values, of the triangle inequality, the Cauchy-Schwarz inequality, the range of the
cosine of an angle, the orthogonality of a cross product, and of the choice of the nearest of many points.
Generated by tools/gen/laws.py.
-/

open Classical
set_option linter.unusedSectionVars false
set_option linter.unusedVariables false

namespace VecMath
open Scalar IEEE
variable {S : Type} [Scalar S] [IEEE S] [Binary S] {k : ℕ}

theorem Within.cross {m n : ℕ} {a A b B : ℝ} (ha : Within S m a A) (hb : Within S n b B) (h : A ≤ B) :
    (1 - uro S) ^ n * a ≤ (1 + uro S) ^ m * b := by
  have hu := uro_pos (S := S)
  have hl := uro_le (S := S)
  have p1 : 0 ≤ (1 - uro S) ^ n := pow_nonneg (by linarith) _
  have p2 : 0 ≤ (1 + uro S) ^ m := pow_nonneg (by linarith) _
  calc (1 - uro S) ^ n * a ≤ (1 - uro S) ^ n * ((1 + uro S) ^ m * A) := mul_le_mul_of_nonneg_left ha.2 p1
    _ = (1 + uro S) ^ m * ((1 - uro S) ^ n * A) := by ring
    _ ≤ (1 + uro S) ^ m * ((1 - uro S) ^ n * B) := mul_le_mul_of_nonneg_left (mul_le_mul_of_nonneg_left h p1) p2
    _ ≤ (1 + uro S) ^ m * b := mul_le_mul_of_nonneg_left hb.1 p2

'''
T='''/-- Euclidean distance, written out -/
theorem dist_norm@D (p q : Point@D S) : √(@SQ) = norm2 (p.toReal - q.toReal) := by
  rw [norm2, @SUM]
  congr 1
  simp only [Pi.sub_apply, Point@D.toReal@SIMP]
  ring
/-- Euclidean length, written out -/
theorem len_norm@D (v : Vector@D S) : √(@LSQ) = norm2 v.toReal := by
  rw [norm2, @SUM]
  rfl

/-- **C89**: the triangle inequality between computed distances, up to @KD roundings on each side. -/
theorem C89_triangle@D (p q r : Point@D S) (hp : Moderate k p) (hq : Moderate k q) (hr : Moderate k r)
    (hR : Room S (2 * k) @RD) (hR' : Room S k 4) (hk : (Binary.F S).emin + (Binary.F S).p - 1 ≤ -(2 * (k + (Binary.F S).p : ℕ) : ℤ)) :
    (1 - uro S) ^ @KD * real (Api.distance p r) ≤
      (1 + uro S) ^ @KD * (real (Api.distance p q) + real (Api.distance q r)) := by
  have h1 := (C86_distance_accurate@D p r hp hr hR hR' hk).2
  have h2 := (C86_distance_accurate@D p q hp hq hR hR' hk).2
  have h3 := (C86_distance_accurate@D q r hq hr hR hR' hk).2
  rw [dist_norm@D] at h1 h2 h3
  refine Within.cross h1 (b := real (Api.distance p q) + real (Api.distance q r))
    (B := norm2 (p.toReal - q.toReal) + norm2 (q.toReal - r.toReal)) ⟨?_, ?_⟩ (norm2_tri ..)
  · rw [mul_add]; exact add_le_add h2.1 h3.1
  · rw [mul_add]; exact add_le_add h2.2 h3.2

/-- **C89**: the difference of two vectors is no longer than both together, up to @KD roundings on each side; likewise
no shorter than their difference in length. -/
theorem C89_difference@D (u v : Vector@D S) (hu : Moderate k u) (hv : Moderate k v)
    (hR : Room S (2 * k) @RD) (hR' : Room S k 4) (hk : (Binary.F S).emin + (Binary.F S).p - 1 ≤ -(2 * (k + (Binary.F S).p : ℕ) : ℤ)) :
    (1 - uro S) ^ @KD * real (Api.length (u - v)) ≤
      (1 + uro S) ^ @KD * (real (Api.length u) + real (Api.length v)) ∧
    (1 - uro S) ^ @KD * real (Api.length u) ≤
      (1 + uro S) ^ @KD * (real (Api.length v) + real (Api.length (u - v))) := by
  have h1 : Within S @KD (real (Api.length (u - v))) (norm2 (u.toReal - v.toReal)) := by
    have := (C86_distance_accurate@D (⟨@VV⟩ : Point@D S) ⟨@UU⟩ (k := k) hv hu hR hR' hk).2
    rw [dist_norm@D, norm2_sub_comm] at this
    exact this
  have hk' : (Binary.F S).emin + (Binary.F S).p - 1 ≤ -(2 * k : ℤ) := by push_cast at hk; omega
  have h2 := (C86_length_accurate@D u hu (hR.mono (by norm_num)) (hR'.mono (by norm_num)) hk').2
  have h3 := (C86_length_accurate@D v hv (hR.mono (by norm_num)) (hR'.mono (by norm_num)) hk').2
  rw [len_norm@D] at h2 h3
  have h2' := h2.mono (l := @KD) (norm2_nonneg _) (by norm_num)
  have h3' := h3.mono (l := @KD) (norm2_nonneg _) (by norm_num)
  constructor
  · refine Within.cross h1 (b := real (Api.length u) + real (Api.length v)) (B := norm2 u.toReal + norm2 v.toReal)
      ⟨?_, ?_⟩ ?_
    · rw [mul_add]; exact add_le_add h2'.1 h3'.1
    · rw [mul_add]; exact add_le_add h2'.2 h3'.2
    · have := norm2_tri u.toReal 0 v.toReal
      rwa [sub_zero, zero_sub, norm2_neg] at this
  · refine Within.cross h2' (b := real (Api.length v) + real (Api.length (u - v))) (B := norm2 v.toReal + norm2 (u.toReal - v.toReal))
      ⟨?_, ?_⟩ (norm2_le_add ..)
    · rw [mul_add]; exact add_le_add h3'.1 h1.1
    · rw [mul_add]; exact add_le_add h3'.2 h1.2

/-- the sum of the absolute products is at most the product of the lengths -/
theorem abs_sum_le@D (u v : Fin @D → ℝ) : @ABS ≤ norm2 u * norm2 v := by
  have h := abs_dot_le (fun i => |u i|) (fun i => |v i|)
  rw [norm2_abs, norm2_abs] at h
  refine le_trans (le_trans (le_of_eq ?_) (le_abs_self _)) h
  simp [dotProduct, @SUM, abs_mul]

/-- **C89**: the Cauchy-Schwarz inequality between computed inner products and computed lengths. -/
theorem C89_cauchy_schwarz@D (u v : Vector@D S) (hu : Moderate k u) (hv : Moderate k v) (hR : Room S (2 * k) @D) (hR' : Room S k 2)
    (hk : (Binary.F S).emin + (Binary.F S).p - 1 ≤ -(2 * k : ℤ)) :
    (1 - uro S) ^ (2 * @D) * |real (Api.dot u v)| ≤ (1 + uro S) ^ @D * (real (Api.length u) * real (Api.length v)) := by
  have hpos := uro_pos (S := S)
  have hle := uro_le (S := S)
  have h1 := (C86_dot_accurate@D u v hu hv hR hk).2
  have h2 := (C86_length_accurate@D u hu hR hR' hk).2
  have h3 := (C86_length_accurate@D v hv hR hR' hk).2
  rw [len_norm@D] at h2 h3
  have hs : @ABSV ≤ norm2 u.toReal * norm2 v.toReal := abs_sum_le@D u.toReal v.toReal
  have ht : |@DOT| ≤ @ABSV := by @TRI
  have g : 0 ≤ (1 + uro S) ^ @D - 1 := by have := one_le_pow₀ (M₀ := ℝ) (a := 1 + uro S) (n := @D) (by linarith); linarith
  have hd : |real (Api.dot u v)| ≤ (1 + uro S) ^ @D * (norm2 u.toReal * norm2 v.toReal) := by
    have e : |real (Api.dot u v)| ≤ |@DOT| + |real (Api.dot u v) - (@DOT)| := by
      have := abs_add_le (@DOT) (real (Api.dot u v) - (@DOT))
      rwa [add_sub_cancel] at this
    have m := mul_le_mul_of_nonneg_left hs g
    linarith
  have p1 : 0 ≤ (1 - uro S) ^ (2 * @D) := pow_nonneg (by linarith) _
  have p0 : 0 ≤ (1 - uro S) ^ @D := pow_nonneg (by linarith) _
  have p2 : 0 ≤ (1 + uro S) ^ @D := pow_nonneg (by linarith) _
  calc (1 - uro S) ^ (2 * @D) * |real (Api.dot u v)|
      ≤ (1 - uro S) ^ (2 * @D) * ((1 + uro S) ^ @D * (norm2 u.toReal * norm2 v.toReal)) := mul_le_mul_of_nonneg_left hd p1
    _ = (1 + uro S) ^ @D * (((1 - uro S) ^ @D * norm2 u.toReal) * ((1 - uro S) ^ @D * norm2 v.toReal)) := by ring
    _ ≤ _ := mul_le_mul_of_nonneg_left (mul_le_mul h2.1 h3.1 (mul_nonneg p0 (norm2_nonneg _))
        ((mul_nonneg p0 (norm2_nonneg _)).trans h2.1)) p2

/-- **C89**: the computed cosine of an angle, i.e. the inner product of two normalized vectors, lies between -1 and 1 up to
a few roundings; for a vector with itself it is 1 up to a few roundings. -/
theorem C89_cosine@D (u v : Vector@D S) (hu : Moderate k u) (hv : Moderate k v) (hu0 : u.toReal ≠ 0) (hv0 : v.toReal ≠ 0)
    (hR : Room S (2 * k) @D) (hR' : Room S k 2) (hk : (Binary.F S).emin + (Binary.F S).p - 1 ≤ -(2 * k + 1 : ℤ))
    (h2 : 2 ≤ k) :
    IsFinite (Api.dot u.normalize v.normalize) ∧
    |real (Api.dot u.normalize v.normalize)| ≤ (1 + uro S) ^ (@D + 2) / (1 - uro S) ^ (@D + 2) + @D * (1 + uro S) ^ (@D - 1) * tiny S ∧
    (2 - (1 + uro S) ^ @D) * ((1 - uro S) ^ 2 / (1 + uro S) ^ (@D + 2)) - @D * (1 + uro S) ^ (@D - 1) * tiny S ≤
      real (Api.dot u.normalize u.normalize) := by
  have hpos := uro_pos (S := S)
  have hle := uro_le (S := S)
  obtain ⟨fu, -, lu, nu, -⟩ := C86_normalize_accurate@D u hu hu0 hR hR' hk
  obtain ⟨fv, -, -, nv, -⟩ := C86_normalize_accurate@D v hv hv0 hR hR' hk
  rw [← norm2_sq] at nu nv lu
  set B := (1 + uro S) ^ 2 / (1 - uro S) ^ (@D + 2) with hB
  have hB0 : 0 ≤ B := by have : 0 ≤ (1 - uro S) ^ (@D + 2) := pow_nonneg (by linarith) _
                         positivity
  have hB1 : norm2 u.normalize.toReal * norm2 v.normalize.toReal ≤ B := by
    have : (norm2 u.normalize.toReal * norm2 v.normalize.toReal) ^ 2 ≤ B ^ 2 := by
      rw [mul_pow, sq B]; exact mul_le_mul nu nv (sq_nonneg _) hB0
    exact (sq_le_sq₀ (mul_nonneg (norm2_nonneg _) (norm2_nonneg _)) hB0).1 this
  have g : 0 ≤ (1 + uro S) ^ @D - 1 := by have := one_le_pow₀ (M₀ := ℝ) (a := 1 + uro S) (n := @D) (by linarith); linarith
  have hB16 : B ≤ 4 ^ 2 := by
    have q1 : (3 / 4 : ℝ) ^ (@D + 2) ≤ (1 - uro S) ^ (@D + 2) := pow_le_pow_left₀ (by norm_num) (by linarith) _
    have q2 : (1 + uro S) ^ 2 ≤ (5 / 4 : ℝ) ^ 2 := pow_le_pow_left₀ (by linarith) (by linarith) _
    rw [hB, div_le_iff₀ (lt_of_lt_of_le (by positivity) q1)]
    norm_num at q1 q2 ⊢
    linarith
  have small : ∀ {n : Vector@D S}, AllFinite n → norm2 n.toReal ^ 2 ≤ B → UpToAll (2 ^ (2 : ℤ)) n := fun {n} hf hn => by
    have hm : norm2 n.toReal ≤ 2 ^ (2 : ℤ) := by
      have := (sq_le_sq₀ (norm2_nonneg n.toReal) (by norm_num : (0 : ℝ) ≤ 4)).1 (hn.trans hB16)
      norm_num; linarith
    rw [Vector@D.allFinite] at hf
    exact Vector@D.upToAll.2 @SMALL
  have room : Room S (2 + 2) @D := by
    refine ⟨?_, hR.2.1, le_trans (mul_le_mul_of_nonneg_left (Fmt.z_le (by omega)) (Nat.cast_nonneg _)) hR.2.2⟩
    have := (Binary.F S).hp
    omega
  have hf := (C86_dot@D u.normalize v.normalize (small fu nu) (small fv nv) room).1
  have hf' := (C86_dot@D u.normalize u.normalize (small fu nu) (small fu nu) room).1
  refine ⟨hf, ?_, ?_⟩
  · have h1 := C59_dot@D u.normalize v.normalize hf
    have hs : @ABSN ≤ B := (abs_sum_le@D u.normalize.toReal v.normalize.toReal).trans hB1
    have ht : |@DOTN| ≤ @ABSN := by @TRI
    have e : |real (Api.dot u.normalize v.normalize)| ≤ |@DOTN| + |real (Api.dot u.normalize v.normalize) - (@DOTN)| := by
      have := abs_add_le (@DOTN) (real (Api.dot u.normalize v.normalize) - (@DOTN))
      rwa [add_sub_cancel] at this
    have m := mul_le_mul_of_nonneg_left hs g
    have eB : (1 + uro S) ^ (@D + 2) / (1 - uro S) ^ (@D + 2) = (1 + uro S) ^ @D * B := by rw [hB]; ring
    rw [eB]
    norm_num
    linarith
  · have h1 := C59_dot@D u.normalize u.normalize hf'
    have ea : @ABSS = norm2 u.normalize.toReal ^ 2 := by
      rw [norm2_sq, @SUM]; simp only [abs_mul_self]; simp only [← sq]; rfl
    have ed : @DOTS = norm2 u.normalize.toReal ^ 2 := by
      rw [norm2_sq, @SUM]; simp only [← sq]; rfl
    rw [ea, ed] at h1
    have h2 := (abs_le.1 h1).1
    have w : 0 ≤ 2 - (1 + uro S) ^ @D := by
      have : (1 + uro S) ^ @D ≤ (1 + 1 / 4) ^ @D := pow_le_pow_left₀ (by linarith) (by linarith) _
      norm_num at this; linarith
    have m := mul_le_mul_of_nonneg_left lu w
    norm_num
    linarith

/-- **C90**: the point a tournament by `closest` selects is the nearest candidate up to roundings: its exact distance
exceeds that of no other candidate by more than the factor `((1+u)/(1-u))^@KD`; `farthest` likewise. -/
theorem C90_closest@D (o : Point@D S) (t : Tree (Point@D S)) (ho : Moderate k o) (h : ∀ p ∈ t.leaves, Moderate k p)
    (hR : Room S (2 * k) @RD) (hR' : Room S k 4) (hk : (Binary.F S).emin + (Binary.F S).p - 1 ≤ -(2 * (k + (Binary.F S).p : ℕ) : ℤ)) :
    t.bound (Api.closest o) ∈ t.leaves ∧ t.bound (Api.farthest o) ∈ t.leaves ∧ ∀ p ∈ t.leaves,
      (1 - uro S) ^ @KD * norm2 ((t.bound (Api.closest o)).toReal - o.toReal) ≤ (1 + uro S) ^ @KD * norm2 (p.toReal - o.toReal) ∧
      (1 - uro S) ^ @KD * norm2 (p.toReal - o.toReal) ≤ (1 + uro S) ^ @KD * norm2 ((t.bound (Api.farthest o)).toReal - o.toReal) := by
  have hd : ∀ p ∈ t.leaves, IsFinite (Api.distance o p) ∧ Within S @KD (real (Api.distance o p)) (norm2 (p.toReal - o.toReal)) := fun p hp => by
    have := C86_distance_accurate@D o p ho (h p hp) hR hR' hk
    rwa [dist_norm@D, norm2_sub_comm] at this
  have hn : ∀ p ∈ t.leaves, ¬ IsNaN (Api.distance o p) := fun p hp => (hd p hp).1.not_nan
  obtain ⟨⟨pre, post, e, -, -⟩, hc⟩ := C79_closest@D o t hn
  obtain ⟨⟨pre', post', e', -, -⟩, hc'⟩ := C79_farthest@D o t hn
  have m : t.bound (Api.closest o) ∈ t.leaves := by rw [e]; simp
  have m' : t.bound (Api.farthest o) ∈ t.leaves := by rw [e']; simp
  refine ⟨m, m', fun p hp => ⟨?_, ?_⟩⟩
  · have w := hd _ m
    have w' := hd p hp
    have := (le_iff.1 (hc p hp)).2.2
    rw [w.1.val, w'.1.val, EReal.coe_le_coe_iff] at this
    exact (w.2.1.trans this).trans w'.2.2
  · have w := hd _ m'
    have w' := hd p hp
    have := (le_iff.1 (hc' p hp)).2.2
    rw [w.1.val, w'.1.val, EReal.coe_le_coe_iff] at this
    exact (w'.2.1.trans this).trans w.2.2

/-- **C90**: a tournament by `shortest` (`longest`) selects a vector whose exact length is best up to roundings. -/
theorem C90_shortest@D (t : Tree (Vector@D S)) (h : ∀ v ∈ t.leaves, Moderate k v)
    (hR : Room S (2 * k) @D) (hR' : Room S k 2) (hk : (Binary.F S).emin + (Binary.F S).p - 1 ≤ -(2 * k : ℤ)) :
    t.bound Api.shortest ∈ t.leaves ∧ t.bound Api.longest ∈ t.leaves ∧ ∀ v ∈ t.leaves,
      (1 - uro S) ^ @D * norm2 (t.bound Api.shortest).toReal ≤ (1 + uro S) ^ @D * norm2 v.toReal ∧
      (1 - uro S) ^ @D * norm2 v.toReal ≤ (1 + uro S) ^ @D * norm2 (t.bound Api.longest).toReal := by
  have hd : ∀ v ∈ t.leaves, IsFinite (Api.length v) ∧ Within S @D (real (Api.length v)) (norm2 v.toReal) := fun v hv => by
    have := C86_length_accurate@D v (h v hv) hR hR' hk
    rwa [len_norm@D] at this
  have hn : ∀ v ∈ t.leaves, NoNaN v := fun v hv => (h v hv).upToAll.allFinite.noNaN
  obtain ⟨⟨pre, post, e, -, -⟩, hc⟩ := C79_shortest@D t hn
  obtain ⟨⟨pre', post', e', -, -⟩, hc'⟩ := C79_longest@D t hn
  have m : t.bound Api.shortest ∈ t.leaves := by rw [e]; simp
  have m' : t.bound Api.longest ∈ t.leaves := by rw [e']; simp
  refine ⟨m, m', fun p hp => ⟨?_, ?_⟩⟩
  · have w := hd _ m
    have w' := hd p hp
    have := (le_iff.1 (hc p hp)).2.2
    rw [w.1.val, w'.1.val, EReal.coe_le_coe_iff] at this
    exact (w.2.1.trans this).trans w'.2.2
  · have w := hd _ m'
    have w' := hd p hp
    have := (le_iff.1 (hc' p hp)).2.2
    rw [w.1.val, w'.1.val, EReal.coe_le_coe_iff] at this
    exact (w'.2.1.trans this).trans w.2.2

'''
for D in (2,3):
    X='xyz'[:D]
    def s(f): return ' + '.join(f(c) for c in X)
    R={'@SQ':s(lambda c:f'(real q.{c} - real p.{c}) ^ 2'),'@LSQ':s(lambda c:f'real v.{c} ^ 2'),
       '@SUM':'Fin.sum_univ_two' if D==2 else 'Fin.sum_univ_three',
       '@SIMP':', Matrix.cons_val_zero, Matrix.cons_val_one' + (', Matrix.cons_val' if D==3 else ''),
       '@KD':str(D+1),'@RD':'8' if D==2 else '12','@VV':', '.join('v.'+c for c in X),'@UU':', '.join('u.'+c for c in X),
       '@ABSV':s(lambda c:f'|real u.{c} * real v.{c}|').join('()'),'@DOTN':s(lambda c:f'real u.normalize.{c} * real v.normalize.{c}'),
       '@ABSN':s(lambda c:f'|real u.normalize.{c} * real v.normalize.{c}|').join('()'),
       '@DOTS':s(lambda c:f'real u.normalize.{c} * real u.normalize.{c}'),
       '@ABSS':s(lambda c:f'|real u.normalize.{c} * real u.normalize.{c}|'),
       '@ABS':' + '.join(f'|u {i} * v {i}|' for i in range(D)),
       '@DOT':s(lambda c:f'real u.{c} * real v.{c}'),
       '@TRI':'exact abs_add_le _ _' if D==2 else 'exact abs_add_three _ _ _',
       '@SMALL':('⟨⟨hf.1, (abs_le_norm2 n.toReal 0).trans hm⟩, ⟨hf.2, (abs_le_norm2 n.toReal 1).trans hm⟩⟩' if D==2 else '⟨⟨hf.1, (abs_le_norm2 n.toReal 0).trans hm⟩, ⟨hf.2.1, (abs_le_norm2 n.toReal 1).trans hm⟩, ⟨hf.2.2, (abs_le_norm2 n.toReal 2).trans hm⟩⟩'),
       '@D':str(D)}
    t=T
    for a in sorted(R,key=len,reverse=True): t=t.replace(a,R[a])
    out+=t
out+='''
/-- The error of a computed cross product, as a length. -/
theorem cross_err_any3 {u v : Vector3 S} (h : AllFinite (Api.cross u v : Vector3 S)) :
    norm2 ((Api.cross u v : Vector3 S).toReal - crossProduct u.toReal v.toReal) ≤
      7 / 4 * (((1 + uro S) ^ 2 - 1) * (norm2 u.toReal * norm2 v.toReal) + 2 * (1 + uro S) * tiny S) := by
  have hu := uro_pos (S := S)
  have ht0 := tiny_pos (S := S)
  obtain ⟨h1, h2, h3⟩ := C61_cross3 u v h
  have hA0 := norm2_nonneg u.toReal
  have hB0 := norm2_nonneg v.toReal
  have g : 0 ≤ (1 + uro S) ^ 2 - 1 := by nlinarith
  have hsa : norm2 u.toReal ^ 2 = real u.x ^ 2 + real u.y ^ 2 + real u.z ^ 2 := norm2_sq3 u.toReal
  have hsb : norm2 v.toReal ^ 2 = real v.x ^ 2 + real v.y ^ 2 + real v.z ^ 2 := norm2_sq3 v.toReal
  have key : ∀ x y z w : ℝ, x ^ 2 + y ^ 2 ≤ norm2 u.toReal ^ 2 → z ^ 2 + w ^ 2 ≤ norm2 v.toReal ^ 2 →
      |x * w| + |y * z| ≤ norm2 u.toReal * norm2 v.toReal := by
    intro x y z w h1 h2
    rw [abs_mul, abs_mul]
    refine abs_le_of_sq_le_sq' ?_ (mul_nonneg hA0 hB0) |>.2
    have e1 : |x| ^ 2 + |y| ^ 2 ≤ norm2 u.toReal ^ 2 := by rwa [sq_abs, sq_abs]
    have e2 : |w| ^ 2 + |z| ^ 2 ≤ norm2 v.toReal ^ 2 := by rw [sq_abs, sq_abs]; linarith
    have := mul_le_mul e1 e2 (by positivity) (sq_nonneg _)
    nlinarith [sq_nonneg (|x| * |z| - |y| * |w|)]
  have fin : ∀ {E s : ℝ}, s ≤ norm2 u.toReal * norm2 v.toReal → |E| ≤ ((1 + uro S) ^ 2 - 1) * s + 2 * (1 + uro S) * tiny S →
      |E| ≤ ((1 + uro S) ^ 2 - 1) * (norm2 u.toReal * norm2 v.toReal) + 2 * (1 + uro S) * tiny S := by
    intro E s hs hE
    have := mul_le_mul_of_nonneg_left hs g
    linarith
  have hm : ∀ i, |((Api.cross u v : Vector3 S).toReal - crossProduct u.toReal v.toReal) i| ≤
      (fun _ => ((1 + uro S) ^ 2 - 1) * (norm2 u.toReal * norm2 v.toReal) + 2 * (1 + uro S) * tiny S : Fin 3 → ℝ) i := by
    intro i
    have sa := sq_nonneg (real u.x)
    have sa' := sq_nonneg (real u.y)
    have sa'' := sq_nonneg (real u.z)
    have sb := sq_nonneg (real v.x)
    have sb' := sq_nonneg (real v.y)
    have sb'' := sq_nonneg (real v.z)
    rw [cross_apply]
    fin_cases i
    · exact fin (key _ _ _ _ (by linarith) (by linarith)) h1
    · exact fin (key _ _ _ _ (by linarith) (by linarith)) h2
    · exact fin (key _ _ _ _ (by linarith) (by linarith)) h3
  refine (norm2_mono hm).trans ?_
  have hb : 0 ≤ ((1 + uro S) ^ 2 - 1) * (norm2 u.toReal * norm2 v.toReal) + 2 * (1 + uro S) * tiny S := by positivity
  rw [norm2_const _ hb]
  exact mul_le_mul_of_nonneg_right (by push_cast; exact sqrt3_le) hb

/-- **C89**: a computed cross product is orthogonal to both factors up to rounding: its exact inner product with either is
at most `7/4 ((1+u)^2 - 1)` of the product of the three lengths, plus the underflow term. -/
theorem C89_orthogonal3 (u v : Vector3 S) (h : AllFinite (Api.cross u v : Vector3 S)) :
    |u.toReal ⬝ᵥ (Api.cross u v : Vector3 S).toReal| ≤
      7 / 4 * norm2 u.toReal * (((1 + uro S) ^ 2 - 1) * (norm2 u.toReal * norm2 v.toReal) + 2 * (1 + uro S) * tiny S) ∧
    |v.toReal ⬝ᵥ (Api.cross u v : Vector3 S).toReal| ≤
      7 / 4 * norm2 v.toReal * (((1 + uro S) ^ 2 - 1) * (norm2 u.toReal * norm2 v.toReal) + 2 * (1 + uro S) * tiny S) := by
  have e := cross_err_any3 h
  constructor
  · have := abs_dot_le u.toReal ((Api.cross u v : Vector3 S).toReal - crossProduct u.toReal v.toReal)
    rw [dotProduct_sub, dot_self_cross, sub_zero] at this
    refine this.trans ((mul_le_mul_of_nonneg_left e (norm2_nonneg _)).trans (le_of_eq (by ring)))
  · have := abs_dot_le v.toReal ((Api.cross u v : Vector3 S).toReal - crossProduct u.toReal v.toReal)
    rw [dotProduct_sub, dot_cross_self, sub_zero] at this
    refine this.trans ((mul_le_mul_of_nonneg_left e (norm2_nonneg _)).trans (le_of_eq (by ring)))

/-! ### The formats -/

/-- **C89** for `f32`: coordinates zero or between `2^-62` and `2^62` in magnitude. -/
theorem C89_f32_vector3 (u v : Vector3 F32) (hu : Moderate 62 u) (hv : Moderate 62 v) :
    (1 - uro F32) ^ 6 * |real (Api.dot u v)| ≤ (1 + uro F32) ^ 3 * (real (Api.length u) * real (Api.length v)) ∧
    (u.toReal ≠ 0 → v.toReal ≠ 0 → IsFinite (Api.dot u.normalize v.normalize) ∧
      |real (Api.dot u.normalize v.normalize)| ≤ (1 + uro F32) ^ 5 / (1 - uro F32) ^ 5 + 3 * (1 + uro F32) ^ 2 * tiny F32) :=
  ⟨C89_cauchy_schwarz3 u v hu hv (room32 2) (room32 1) (by decide), fun u0 v0 =>
    have := C89_cosine3 u v hu hv u0 v0 (room32 2) (room32 1) (by decide) (by norm_num)
    ⟨this.1, this.2.1⟩⟩
/-- **C89** for `f64`: coordinates zero or between `2^-510` and `2^510` in magnitude. -/
theorem C89_f64_vector3 (u v : Vector3 F64) (hu : Moderate 510 u) (hv : Moderate 510 v) :
    (1 - uro F64) ^ 6 * |real (Api.dot u v)| ≤ (1 + uro F64) ^ 3 * (real (Api.length u) * real (Api.length v)) ∧
    (u.toReal ≠ 0 → v.toReal ≠ 0 → IsFinite (Api.dot u.normalize v.normalize) ∧
      |real (Api.dot u.normalize v.normalize)| ≤ (1 + uro F64) ^ 5 / (1 - uro F64) ^ 5 + 3 * (1 + uro F64) ^ 2 * tiny F64) :=
  ⟨C89_cauchy_schwarz3 u v hu hv (room64 2) (room64 1) (by decide), fun u0 v0 =>
    have := C89_cosine3 u v hu hv u0 v0 (room64 2) (room64 1) (by decide) (by norm_num)
    ⟨this.1, this.2.1⟩⟩
/-- **C89** for `f32`: coordinates zero or between `2^-39` and `2^39` in magnitude. -/
theorem C89_f32_triangle3 (p q r : Point3 F32) (hp : Moderate 39 p) (hq : Moderate 39 q) (hr : Moderate 39 r) :
    (1 - uro F32) ^ 4 * real (Api.distance p r) ≤ (1 + uro F32) ^ 4 * (real (Api.distance p q) + real (Api.distance q r)) :=
  C89_triangle3 p q r hp hq hr (room32 4) (room32 2) (by decide)
/-- **C89** for `f64`: coordinates zero or between `2^-458` and `2^458` in magnitude. -/
theorem C89_f64_triangle3 (p q r : Point3 F64) (hp : Moderate 458 p) (hq : Moderate 458 q) (hr : Moderate 458 r) :
    (1 - uro F64) ^ 4 * real (Api.distance p r) ≤ (1 + uro F64) ^ 4 * (real (Api.distance p q) + real (Api.distance q r)) :=
  C89_triangle3 p q r hp hq hr (room64 4) (room64 2) (by decide)
/-- **C90** for `f32`. -/
theorem C90_f32_closest3 (o : Point3 F32) (t : Tree (Point3 F32)) (ho : Moderate 39 o) (h : ∀ p ∈ t.leaves, Moderate 39 p) :
    t.bound (Api.closest o) ∈ t.leaves ∧ ∀ p ∈ t.leaves,
      (1 - uro F32) ^ 4 * norm2 ((t.bound (Api.closest o)).toReal - o.toReal) ≤ (1 + uro F32) ^ 4 * norm2 (p.toReal - o.toReal) :=
  have := C90_closest3 o t ho h (room32 4) (room32 2) (by decide)
  ⟨this.1, fun p hp => (this.2.2 p hp).1⟩
/-- **C90** for `f64`. -/
theorem C90_f64_closest3 (o : Point3 F64) (t : Tree (Point3 F64)) (ho : Moderate 458 o) (h : ∀ p ∈ t.leaves, Moderate 458 p) :
    t.bound (Api.closest o) ∈ t.leaves ∧ ∀ p ∈ t.leaves,
      (1 - uro F64) ^ 4 * norm2 ((t.bound (Api.closest o)).toReal - o.toReal) ≤ (1 + uro F64) ^ 4 * norm2 (p.toReal - o.toReal) :=
  have := C90_closest3 o t ho h (room64 4) (room64 2) (by decide)
  ⟨this.1, fun p hp => (this.2.2 p hp).1⟩

/-! ### Concrete data -/

theorem moderate_point {a b c : ℤ} {ha : |a| ≤ 16777216} {hb : |b| ≤ 16777216} {hc : |c| ≤ 16777216} {k : ℕ} (hk : 24 ≤ k) :
    Moderate k (⟨int32 a ha, int32 b hb, int32 c hc⟩ : Point3 F32) := by
  intro x hx
  simp only [Comps.comps, List.mem_cons, List.not_mem_nil, or_false] at hx
  rcases hx with rfl | rfl | rfl <;> exact moderate_int hk
/-- the points `(1, 2, 3)`, `(4, 5, 6)`, `(-7, 8, 9)` -/
example : (1 - uro F32) ^ 4 * real (Api.distance (⟨int32 1, int32 2, int32 3⟩ : Point3 F32) ⟨int32 (-7), int32 8, int32 9⟩) ≤
    (1 + uro F32) ^ 4 * (real (Api.distance (⟨int32 1, int32 2, int32 3⟩ : Point3 F32) ⟨int32 4, int32 5, int32 6⟩) +
      real (Api.distance (⟨int32 4, int32 5, int32 6⟩ : Point3 F32) ⟨int32 (-7), int32 8, int32 9⟩)) :=
  C89_f32_triangle3 _ _ _ (moderate_point (by norm_num)) (moderate_point (by norm_num)) (moderate_point (by norm_num))
/-- the vector `(2, 3, 6)` -/
example : IsFinite (Api.dot v236.normalize v236.normalize) :=
  ((C89_f32_vector3 v236 v236 (moderate_v236 (by norm_num)) (moderate_v236 (by norm_num))).2
    (fun h => by have := congrFun h 0; simp [Vector3.toReal, v236, real_int32] at this)
    (fun h => by have := congrFun h 0; simp [Vector3.toReal, v236, real_int32] at this)).1
/-- a tournament between two points -/
example (o : Point3 F32) (ho : Moderate 39 o) :
    ∀ p ∈ (Tree.node (Tree.leaf (⟨int32 1, int32 2, int32 3⟩ : Point3 F32)) (Tree.leaf ⟨int32 4, int32 5, int32 6⟩)).leaves, Moderate 39 p := by
  intro p hp
  simp [Tree.leaves] at hp
  rcases hp with rfl | rfl <;> exact moderate_point (by norm_num)

end VecMath
'''
open('/verif/lean/Verif/Props/FloatLaws.lean','w').write(out)

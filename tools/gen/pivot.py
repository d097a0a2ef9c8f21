D={2:dict(V='Vector2',P='Point2',T='Transform2',M='Matrix3x3',aff='![0, 0, 1]',last='2',k=3,c='xy'),3:dict(V='Vector3',P='Point3',T='Transform3',M='Matrix4x4',aff='![0, 0, 0, 1]',last='3',k=4,c='xyz')}
spec='''import Verif.Model
import Verif.Spec.Basic
import Verif.Spec.Round
import Mathlib.Data.Matrix.Mul
import Mathlib.Data.Fin.Tuple.Basic
/-!
# Vocabulary for C111: composing transforms or applying them one after the other; pivots
-/

namespace VecMath
open Scalar IEEE

/-- Homogeneous coordinates of a point: last coordinate 1. -/
def homog {n : ℕ} (p : Fin n → ℝ) : Fin (n + 1) → ℝ := Fin.snoc p 1

'''
for n in (2,3):
    d=D[n]; V,P,T,M,k=d['V'],d['P'],d['T'],d['M'],d['k']
    spec+=f'''/-- The client applies the transforms to a point one after the other. -/
def {T}.oneByOne {{S : Type}} [Scalar S] (ts : List ({T} S)) (p : {P} S) : {P} S := ts.foldl (fun q t => (Transform.transform t q : {P} S)) p
/-- The transform `t` about the pivot `c`: move the pivot to the origin, apply `t`, move back. -/
def {T}.about {{S : Type}} [Scalar S] (t : {T} S) (c : {P} S) : {T} S :=
  (({T}.translate (-({V}.fromPoint c))).andThen t).andThen ({T}.translate ({V}.fromPoint c))
/-- What the underflow errors of the steps amount to: each further step amplifies the errors so far and adds its own. -/
noncomputable def {T}.stepSlack {{S : Type}} [Scalar S] [IEEE S] [Binary S] (ts : List ({T} S)) : Fin {k} → ℝ :=
  ts.foldl (fun s t => fun i => (1 + uro S) ^ {k} * (t.forward.toReal.map abs).mulVec s i + (1 + uro S) ^ {n} * ({n} * tiny S)) 0

'''
spec+='end VecMath\n'
open('/verif/lean/Verif/Spec/Pivot.lean','w').write(spec)

out='''import Verif.Spec.Pivot
import Verif.Props.FloatDrift
import Verif.Props.FloatInverse
import Verif.Props.FloatInvAffine
/-!
# Composing transforms or applying them one after the other; pivots, in floating point (layer F): C111

(Generated by tools/gen.)
-/

open Classical

namespace VecMath
open Scalar IEEE

section
variable {n : ℕ} {M A X s : Matrix (Fin n) (Fin n) ℝ} {v w x a e : Fin n → ℝ} {q r τ : ℝ}
/-- Applying an exact matrix to an approximate vector. -/
theorem step_left (hq : 1 ≤ q) (hp : ∀ i, |w i - ∑ k, M i k * v k| ≤ (q - 1) * ∑ k, |M i k * v k| + τ)
    (hX : ∀ i, |x i| ≤ a i) (hC : ∀ i, |v i - x i| ≤ (r - 1) * a i + e i) (i : Fin n) :
    |M.mulVec x i| ≤ (M.map abs).mulVec a i ∧ |w i - M.mulVec x i| ≤ (r * q - 1) * (M.map abs).mulVec a i + (q * (M.map abs).mulVec e i + τ) := by
  exact chain_left (P := Matrix.of fun i _ => w i) (M := M) (C := Matrix.of fun i _ => v i) (X := Matrix.of fun i _ => x i) (A := Matrix.of fun i _ => a i)
    (s := Matrix.of fun i _ => e i) hq (fun i _ => hp i) (fun i _ => hX i) (fun i _ => hC i) i i
/-- Applying an approximate matrix to an exact vector. -/
theorem step_right {C : Matrix (Fin n) (Fin n) ℝ} (hq : 1 ≤ q) (hp : ∀ i, |w i - ∑ k, C i k * v k| ≤ (q - 1) * ∑ k, |C i k * v k| + τ)
    (hX : ∀ i j, |X i j| ≤ A i j) (hC : ∀ i j, |C i j - X i j| ≤ (r - 1) * A i j + s i j) (i : Fin n) :
    |w i - X.mulVec v i| ≤ (r * q - 1) * A.mulVec (fun j => |v j|) i + (q * s.mulVec (fun j => |v j|) i + τ) := by
  exact (chain_right (P := Matrix.of fun i _ => w i) (M := Matrix.of fun i _ => v i) (C := C) (X := X) (A := A)
    (s := s) hq (fun i _ => hp i) hX hC i i).2
end

section
variable {S : Type} [Scalar S] [IEEE S]
theorem rowz2 {a b x y o : S} (ha : IsFinite a) (hb : IsFinite b) (hx : num x = num (zero : S)) (hy : num y = num (zero : S)) : num (a * x + b * y + o) = num o :=
  (num_add_congr ((num_add_congr (nz_mul ha hx) (nz_mul hb hy)).trans (IEEE.num_zero_add _)) rfl).trans (IEEE.num_zero_add _)
theorem rowz3 {a b c x y z o : S} (ha : IsFinite a) (hb : IsFinite b) (hc : IsFinite c) (hx : num x = num (zero : S)) (hy : num y = num (zero : S)) (hz : num z = num (zero : S)) :
    num (a * x + b * y + c * z + o) = num o :=
  (num_add_congr ((rowz2 ha hb hx hy).trans (nz_mul hc hz)) rfl).trans (IEEE.num_zero_add _)
theorem finite_num_div {a b : S} (h : IsFinite (a / b)) : IsFinite a := by
  unfold IsFinite at *; rw [den_div] at h
  revert h
  generalize den a = x; generalize den b = y
  intro h
  induction x using Val.cases_inf_fin with
  | hn => simp at h
  | hi s => exfalso; revert h; induction y using Val.cases_inf_fin with
    | hn => simp
    | hi t => simp
    | hf y hy => rw [Rounding.div_inf_fin _ _ hy]; simp
  | hf x hx => exact hx
end

'''
for n in (2,3):
    d=D[n]; V,P,T,M,k,aff,last,c=d['V'],d['P'],d['T'],d['M'],d['k'],d['aff'],d['last'],d['c']
    w=f'{n}D'
    su='Fin.sum_univ_two' if n==2 else 'Fin.sum_univ_three'
    su1='Fin.sum_univ_three' if n==2 else 'Fin.sum_univ_four'
    tmat='!![1, 0, real v.x; 0, 1, real v.y; 0, 0, 1]' if n==2 else '!![1, 0, 0, real v.x; 0, 1, 0, real v.y; 0, 0, 1, real v.z; 0, 0, 0, 1]'
    tfin='⟨o, z, hv.1, z, o, hv.2, z, z, o⟩' if n==2 else '⟨o, z, z, hv.1, z, o, z, hv.2.1, z, z, o, hv.2.2, z, z, z, o⟩'
    idx=[2,5] if n==2 else [3,7,11]
    tup=lambda f:'⟨'+', '.join(f(i) for i in range(n))+'⟩'
    pr=lambda h,i:h+('.2'*i+('.1' if i<n-1 else ''))
    pz=' ∧ '.join(f'num p.{x} = num (zero : S)' for x in c)
    oz=' ∧ '.join(f'num (Transform.transform t p : {P} S).{x} = num t.forward.m[{i}]' for x,i in zip(c,idx))
    holes=tup(lambda i:'?_')
    negs=tup(lambda i:'finite_neg.2 '+pr('hv',i))
    zq=tup(lambda i:f'(num_of_beq {pr("b1",i)}).trans (zz {pr("hc",i)})')
    zo=tup(lambda i:'rfl')
    frs=tup(lambda i:f'finite_of_num {pr("z1",i)} (hf {idx[i]} (by decide))')
    gos=tup(lambda i:f'go {pr("b2",i)} ({pr("z1",i)}.trans {pr("z0",i)}.symm)')
    fixs=tup(lambda i:f'fix {pr("m",i)} {pr("h0",i)}')
    zs=['hp.1','hp.2'] if n==2 else ['hp.1','hp.2.1','hp.2.2']
    fs=lambda r:' '.join(f'(hf {r*k+j} (by decide))' for j in range(n))
    zz=' '.join(pr('hp',i) for i in range(n))
    rowpf='\n'.join(f'  · exact num_div_of_one (rowz{n} {fs(i)} {zz}) ((rowz{n} {fs(n)} {zz}).trans {pr("ha",n-0) if False else "ha"+".2"*n})' for i in range(n))
    if n==2:
        pf='''  have r0 := finite_of_add (finite_of_add (finite_num_div h.1)).1
  exact ⟨(finite_of_mul r0.1).2, (finite_of_mul r0.2).2⟩'''
    else:
        pf='''  have r0 := finite_of_add (finite_of_add (finite_num_div h.1)).1
  have r1 := finite_of_add r0.1
  exact ⟨(finite_of_mul r1.1).2, (finite_of_mul r1.2).2, (finite_of_mul r0.2).2⟩'''
    out+=f'''/-! ## Dimension {n} -/
section
variable {{S : Type}} [Scalar S] [IEEE S] [Binary S]
omit [Binary S] in
theorem {T}.point_finite {{t : {T} S}} {{p : {P} S}} (h : AllFinite (Transform.transform t p : {P} S)) : AllFinite p := by
  rw [{P}.allFinite] at *
{pf}
theorem {T}.step_error {{t : {T} S}} {{p : {P} S}} (ht : AllFinite t.forward) (haff : t.forward.toReal {last} = {aff}) (h : AllFinite (Transform.transform t p : {P} S)) (i : Fin {k}) :
    |homog (Transform.transform t p : {P} S).toReal i - ∑ j, t.forward.toReal i j * homog p.toReal j| ≤
      ((1 + uro S) ^ {k} - 1) * ∑ j, |t.forward.toReal i j * homog p.toReal j| + (1 + uro S) ^ {n} * ({n} * tiny S) := by
  have hu := uro_pos (S := S)
  have htiny := tiny_pos (S := S)
  induction i using Fin.lastCases with
  | last =>
    have e : ∑ j, t.forward.toReal (Fin.last {n}) j * homog p.toReal j = 1 := by
      rw [Fin.sum_univ_castSucc]
      have := congrFun haff
      simp only [homog, Fin.snoc_last, Fin.snoc_castSucc]
      rw [show (Fin.last {n}) = ({last} : Fin {k}) from rfl, haff]
      simp [{su}]
    rw [e, homog, Fin.snoc_last, sub_self, abs_zero]
    have : (1 : ℝ) ≤ (1 + uro S) ^ {k} := one_le_pow₀ (by linarith)
    have h0 : 0 ≤ ∑ j, |t.forward.toReal (Fin.last {n}) j * homog p.toReal j| := Finset.sum_nonneg fun j _ => abs_nonneg _
    have := mul_nonneg (sub_nonneg.2 this) h0
    positivity
  | cast i =>
    have := C63_point{n} t p ht ({T}.point_finite h) haff h i
    have e : ∀ f : Fin {k} → ℝ, ∑ j, f j = ∑ j : Fin {n}, f j.castSucc + f (Fin.last {n}) := fun f => Fin.sum_univ_castSucc f
    rw [e, e]
    simp only [homog, Fin.snoc_last, Fin.snoc_castSucc, mul_one]
    exact this
theorem homog_abs{n} (p : Fin {n} → ℝ) : (fun j => |homog p j|) = homog fun j => |p j| := by
  funext j
  induction j using Fin.lastCases with
  | last => simp only [homog, Fin.snoc_last, abs_one]
  | cast j => simp only [homog, Fin.snoc_castSucc]
theorem {T}.prod_abs (us : List ({T} S)) (i j : Fin {k}) : |(us.map fun u : {T} S => u.forward.toReal).reverse.prod i j| ≤ (us.map fun u : {T} S => u.forward.toReal.map abs).reverse.prod i j := by
  induction us using List.reverseRecOn generalizing i j with
  | nil => simp [Matrix.one_apply]; split <;> simp
  | append_singleton ts u ih =>
    rw [List.map_append, List.map_append, List.map_singleton, List.map_singleton, List.reverse_append, List.reverse_append, List.reverse_singleton, List.reverse_singleton,
      List.singleton_append, List.singleton_append, List.prod_cons, List.prod_cons, Matrix.mul_apply, Matrix.mul_apply]
    refine (Finset.abs_sum_le_sum_abs _ _).trans (Finset.sum_le_sum fun l _ => ?_)
    rw [abs_mul]
    exact mul_le_mul_of_nonneg_left (ih l j) (abs_nonneg _)
/-- **C111** ({w}): the image of a point under a composed chain of {n+1 if False else ''}affine transforms is within `{k}` roundings per transform of the
exact image, relative to the same product of absolute values, plus underflow. -/
theorem C111_composed{n} (t : {T} S) (ts : List ({T} S)) (haff : ∀ u ∈ t :: ts, u.forward.toReal {last} = {aff}) (p : {P} S)
    (hf : AllFinite (ts.foldl {T}.andThen t).forward) (h : AllFinite (Transform.transform (ts.foldl {T}.andThen t) p : {P} S)) (i : Fin {n}) :
    |(Transform.transform (ts.foldl {T}.andThen t) p : {P} S).toReal i - ((t :: ts).map fun u : {T} S => u.forward.toReal).reverse.prod.mulVec (homog p.toReal) i.castSucc| ≤
      ((1 + uro S) ^ ({k} * (t :: ts).length) - 1) * ((t :: ts).map fun u : {T} S => u.forward.toReal.map abs).reverse.prod.mulVec (homog fun j => |p.toReal j|) i.castSucc +
      ((1 + uro S) ^ {k} * ({T}.slack ts).mulVec (homog fun j => |p.toReal j|) i.castSucc + (1 + uro S) ^ {n} * ({n} * tiny S)) := by
  have hu := uro_pos (S := S)
  have := step_right (one_le_pow₀ (by linarith) : (1 : ℝ) ≤ (1 + uro S) ^ {k}) ({T}.step_error hf (C72_affine{n} t ts haff hf) h) ({T}.prod_abs (t :: ts)) (C71_forward{n} t ts hf) i.castSucc
  rw [← pow_add, homog_abs{n}] at this
  simp only [homog, Fin.snoc_castSucc] at this ⊢
  rw [List.length_cons, Nat.mul_add, Nat.mul_one]
  exact this
/-- **C111** ({w}): the same holds for the image computed by applying the transforms one after the other. -/
theorem C111_one_by_one{n} (ts : List ({T} S)) (haff : ∀ u ∈ ts, AllFinite u.forward ∧ u.forward.toReal {last} = {aff}) (p : {P} S)
    (h : AllFinite ({T}.oneByOne ts p)) (i : Fin {n}) :
    |({T}.oneByOne ts p).toReal i - (ts.map fun u : {T} S => u.forward.toReal).reverse.prod.mulVec (homog p.toReal) i.castSucc| ≤
      ((1 + uro S) ^ ({k} * ts.length) - 1) * (ts.map fun u : {T} S => u.forward.toReal.map abs).reverse.prod.mulVec (homog fun j => |p.toReal j|) i.castSucc +
      {T}.stepSlack ts i.castSucc := by
  have hu := uro_pos (S := S)
  suffices H : ∀ i, |(ts.map fun u : {T} S => u.forward.toReal).reverse.prod.mulVec (homog p.toReal) i| ≤ (ts.map fun u : {T} S => u.forward.toReal.map abs).reverse.prod.mulVec (homog fun j => |p.toReal j|) i ∧
      |homog ({T}.oneByOne ts p).toReal i - (ts.map fun u : {T} S => u.forward.toReal).reverse.prod.mulVec (homog p.toReal) i| ≤
      ((1 + uro S) ^ ({k} * ts.length) - 1) * (ts.map fun u : {T} S => u.forward.toReal.map abs).reverse.prod.mulVec (homog fun j => |p.toReal j|) i + {T}.stepSlack ts i by
    have := (H i.castSucc).2
    simp only [homog, Fin.snoc_castSucc] at this ⊢
    exact this
  clear i
  induction ts using List.reverseRecOn with
  | nil =>
    intro i
    simp only [{T}.oneByOne, {T}.stepSlack, List.foldl_nil, List.map_nil, List.reverse_nil, List.prod_nil, Matrix.one_mulVec, List.length_nil, Nat.mul_zero, pow_zero, sub_self, zero_mul, abs_zero, Pi.zero_apply, add_zero, le_refl, and_true]
    rw [← congrFun (homog_abs{n} p.toReal) i]
  | append_singleton ts u ih =>
    have e : {T}.oneByOne (ts ++ [u]) p = (Transform.transform u ({T}.oneByOne ts p) : {P} S) := by
      simp [{T}.oneByOne, List.foldl_append]
    rw [e] at h ⊢
    have hu' := haff u (by simp)
    have ih := ih (fun v hv => haff v (by simp [hv])) ({T}.point_finite h)
    intro i
    have := step_left (one_le_pow₀ (by linarith) : (1 : ℝ) ≤ (1 + uro S) ^ {k}) ({T}.step_error hu'.1 hu'.2 h) (fun i => (ih i).1) (fun i => (ih i).2) i
    rw [← pow_add, Matrix.mulVec_mulVec, Matrix.mulVec_mulVec] at this
    simp only [List.map_append, List.map_cons, List.map_nil, List.reverse_append, List.reverse_cons, List.reverse_nil, List.nil_append, List.cons_append, List.prod_cons,
      List.length_append, List.length_cons, List.length_nil, Nat.mul_add, Nat.zero_add, Nat.mul_one] at this ⊢
    rw [{T}.stepSlack, List.foldl_append, List.foldl_cons, List.foldl_nil]
    exact this
/-- A point whose coordinates are zeros goes to the offset. -/
theorem {T}.zero_image {{t : {T} S}} (ht : AllFinite t.forward) (haff : t.forward.toReal {last} = {aff}) {{p : {P} S}} (hp : {pz}) :
    {oz} := by
  have fin : AllFinite t.forward := ht
  have hf := {M}.allFinite.1 ht
  have ha := {M}.aff ht haff
  refine {holes}
{rowpf}
/-- **C111** ({w}): when the three steps of a transform about a pivot are applied one after the other, the pivot itself goes to where the transform
takes the origin, moved to the pivot with one rounding per coordinate; so a transform that fixes the origin leaves the pivot exactly in place. -/
theorem C111_pivot{n} (t : {T} S) (ht : AllFinite t.forward) (haff : t.forward.toReal {last} = {aff}) (c : {P} S) (hc : AllFinite c) :
    ({T}.oneByOne [{T}.translate (-({V}.fromPoint c)), t, {T}.translate ({V}.fromPoint c)] c == (Transform.transform t ({P}.origin : {P} S) : {P} S) + {V}.fromPoint c) = true ∧
    ((Transform.transform t ({P}.origin : {P} S) == ({P}.origin : {P} S)) = true →
      ({T}.oneByOne [{T}.translate (-({V}.fromPoint c)), t, {T}.translate ({V}.fromPoint c)] c == c) = true) := by
  have hv : AllFinite ({V}.fromPoint c) := by rw [{V}.allFinite]; rw [{P}.allFinite] at hc; exact hc
  have hnv : AllFinite (-({V}.fromPoint c)) := by
    rw [{V}.allFinite] at hv ⊢; exact {negs}
  have b1 := {P}.beq_iff.1 (C46_float_translate{n} (-({V}.fromPoint c)) ({V}.fromPoint c) c hc hnv.noNaN hv).1
  set q := (Transform.transform ({T}.translate (-({V}.fromPoint c))) c : {P} S) with hq
  rw [{P}.allFinite] at hc
  have zz : ∀ {{x : S}}, IsFinite x → num (x + -x) = num (zero : S) := fun h => by rw [num_add, nadd_neg h, num_zero]
  have z1 := {T}.zero_image ht haff (p := q) {zq}
  have z0 := {T}.zero_image ht haff (p := ({P}.origin : {P} S)) {zo}
  set r := (Transform.transform t q : {P} S) with hr
  have hf := {M}.allFinite.1 ht
  have fr : AllFinite r := {P}.allFinite.2 {frs}
  have b2 := {P}.beq_iff.1 (C46_float_translate{n} ({V}.fromPoint c) ({V}.fromPoint c) r fr hv.noNaN hv).1
  rw [{P}.allFinite] at fr
  have e : {T}.oneByOne [{T}.translate (-({V}.fromPoint c)), t, {T}.translate ({V}.fromPoint c)] c = (Transform.transform ({T}.translate ({V}.fromPoint c)) r : {P} S) := rfl
  rw [e]
  have go : ∀ {{x y w o : S}}, (x == w + y) = true → num w = num o → (x == o + y) = true := fun h h' =>
    beq_of_num ((num_of_beq h).trans (num_add_congr h' rfl)) (beq_iff.1 h).1
  have fix : ∀ {{x y o : S}}, (x == o + y) = true → (o == (zero : S)) = true → (x == y) = true := fun h h' =>
    beq_of_num ((num_of_beq h).trans ((num_add_congr (num_of_beq h') rfl).trans (IEEE.num_zero_add _))) (beq_iff.1 h).1
  have main : (({T}.translate ({V}.fromPoint c)).forward * r == (Transform.transform t ({P}.origin : {P} S) : {P} S) + {V}.fromPoint c) = true :=
    {P}.beq_iff.2 {gos}
  refine ⟨main, fun h0 => {P}.beq_iff.2 ?_⟩
  have m := {P}.beq_iff.1 main
  have h0 := {P}.beq_iff.1 h0
  exact {fixs}
theorem {M}.affine_homog {{m : Matrix (Fin {k}) (Fin {k}) ℝ}} (h : m {last} = {aff}) (p : Fin {n} → ℝ) :
    m.mulVec (homog p) = homog fun i => ∑ j, m i.castSucc j.castSucc * p j + m i.castSucc (Fin.last {n}) := by
  have e : ∀ f : Fin {k} → ℝ, ∑ j, f j = ∑ j : Fin {n}, f j.castSucc + f (Fin.last {n}) := fun f => Fin.sum_univ_castSucc f
  funext i
  induction i using Fin.lastCases with
  | last =>
    simp only [Matrix.mulVec, dotProduct, homog, Fin.snoc_last]
    rw [e]
    simp only [Fin.snoc_last, Fin.snoc_castSucc]
    rw [show (Fin.last {n}) = ({last} : Fin {k}) from rfl, h]
    simp [{su}]
  | cast i =>
    simp only [Matrix.mulVec, dotProduct, homog, Fin.snoc_castSucc]
    rw [e]
    simp only [Fin.snoc_last, Fin.snoc_castSucc, mul_one]
omit [Binary S] in
theorem {M}.translate_toReal (v : {V} S) : ({M}.translate v).toReal = {tmat} := by
  funext i j
  fin_cases i <;> fin_cases j <;> first | exact real_zero (S := S) | exact real_one (S := S) | rfl
omit [Binary S] in
theorem {M}.translate_fin {{v : {V} S}} (hv : AllFinite v) : AllFinite ({M}.translate v) := by
  rw [{M}.allFinite, forall_lt_{k*k}]
  rw [{V}.allFinite] at hv
  have z := finite_zero (S := S)
  have o := finite_one (S := S)
  exact {tfin}
omit [Binary S] in
theorem {M}.translate_homog (v : {V} S) (p : Fin {n} → ℝ) :
    ({M}.translate v).toReal.mulVec (homog p) = homog (fun i => p i + v.toReal i) ∧ (({M}.translate v).toReal.map abs).mulVec (homog p) = homog (fun i => p i + |v.toReal i|) := by
  have h1 : ({M}.translate v).toReal {last} = {aff} := by rw [{M}.translate_toReal]; funext j; fin_cases j <;> rfl
  have h2 : (({M}.translate v).toReal.map abs) {last} = {aff} := by
    funext j; rw [Matrix.map_apply, h1]; fin_cases j <;> simp
  rw [{M}.affine_homog h1, {M}.affine_homog h2, {M}.translate_toReal]
  constructor <;> congr 1 <;> funext i <;> fin_cases i <;> simp [{su}, Fin.last, {V}.toReal]
/-- The exact image of a point under an affine transform about a pivot, and the size of its terms. -/
theorem {T}.about_exact (t : {T} S) (haff : t.forward.toReal {last} = {aff}) (c p : {P} S) (i : Fin {n}) :
    (([{T}.translate (-({V}.fromPoint c)), t, {T}.translate ({V}.fromPoint c)] : List ({T} S)).map fun u : {T} S => u.forward.toReal).reverse.prod.mulVec (homog p.toReal) i.castSucc =
      c.toReal i + ∑ j, t.forward.toReal i.castSucc j.castSucc * (p.toReal j - c.toReal j) + t.forward.toReal i.castSucc {last} ∧
    (([{T}.translate (-({V}.fromPoint c)), t, {T}.translate ({V}.fromPoint c)] : List ({T} S)).map fun u : {T} S => u.forward.toReal.map abs).reverse.prod.mulVec (homog fun j => |p.toReal j|) i.castSucc =
      |c.toReal i| + ∑ j, |t.forward.toReal i.castSucc j.castSucc| * (|p.toReal j| + |c.toReal j|) + |t.forward.toReal i.castSucc {last}| := by
  have haff' : (t.forward.toReal.map abs) {last} = {aff} := by
    funext j; rw [Matrix.map_apply, haff]; fin_cases j <;> simp
  have en : ∀ j, (-({V}.fromPoint c)).toReal j = -c.toReal j := by
    intro j; fin_cases j <;> exact IEEE.real_neg (S := S) _
  have ec : ({V}.fromPoint c).toReal = c.toReal := rfl
  simp only [List.map_cons, List.map_nil, List.reverse_cons, List.reverse_nil, List.nil_append, List.cons_append, List.prod_cons, List.prod_nil, mul_one,
    ← Matrix.mulVec_mulVec]
  have f1 : ({T}.translate (-({V}.fromPoint c)) : {T} S).forward = {M}.translate (-({V}.fromPoint c)) := rfl
  have f2 : ({T}.translate ({V}.fromPoint c) : {T} S).forward = {M}.translate ({V}.fromPoint c) := rfl
  rw [f1, f2, ({M}.translate_homog _ _).1, ({M}.translate_homog _ _).2, {M}.affine_homog haff, {M}.affine_homog haff', ({M}.translate_homog _ _).1, ({M}.translate_homog _ _).2]
  simp only [homog, Fin.snoc_castSucc, Matrix.map_apply, ec, en, abs_neg]
  constructor
  · rw [show (Fin.last {n}) = ({last} : Fin {k}) from rfl]
    simp only [← sub_eq_add_neg]; ring
  · rw [show (Fin.last {n}) = ({last} : Fin {k}) from rfl]; ring
/-- **C111** ({w}): the image of a point under an affine transform about a pivot (composed into one transform) is within `{3*k}` roundings of the exact image,
relative to a size that grows with the distance of the pivot from the origin. -/
theorem C111_about{n} (t : {T} S) (haff : t.forward.toReal {last} = {aff}) (c p : {P} S) (hf : AllFinite (t.about c).forward)
    (h : AllFinite (Transform.transform (t.about c) p : {P} S)) (i : Fin {n}) :
    |(Transform.transform (t.about c) p : {P} S).toReal i - (c.toReal i + ∑ j, t.forward.toReal i.castSucc j.castSucc * (p.toReal j - c.toReal j) + t.forward.toReal i.castSucc {last})| ≤
      ((1 + uro S) ^ {3*k} - 1) * (|c.toReal i| + ∑ j, |t.forward.toReal i.castSucc j.castSucc| * (|p.toReal j| + |c.toReal j|) + |t.forward.toReal i.castSucc {last}|) +
      ((1 + uro S) ^ {k} * ({T}.slack [t, {T}.translate ({V}.fromPoint c)]).mulVec (homog fun j => |p.toReal j|) i.castSucc + (1 + uro S) ^ {n} * ({n} * tiny S)) := by
  have := C111_composed{n} ({T}.translate (-({V}.fromPoint c))) [t, {T}.translate ({V}.fromPoint c)] (by
    intro u hu
    have ht : ∀ v : {V} S, ({M}.translate v).toReal {last} = {aff} := fun v => by rw [{M}.translate_toReal]; funext j; fin_cases j <;> rfl
    simp only [List.mem_cons, List.not_mem_nil, or_false] at hu
    rcases hu with rfl | rfl | rfl
    · exact ht _
    · exact haff
    · exact ht _) p hf h i
  rw [({T}.about_exact t haff c p i).1, ({T}.about_exact t haff c p i).2] at this
  exact this
/-- **C111** ({w}): and so is the image when the three steps are applied one after the other. -/
theorem C111_about_steps{n} (t : {T} S) (ht : AllFinite t.forward) (haff : t.forward.toReal {last} = {aff}) (c p : {P} S) (hc : AllFinite c)
    (h : AllFinite ({T}.oneByOne [{T}.translate (-({V}.fromPoint c)), t, {T}.translate ({V}.fromPoint c)] p)) (i : Fin {n}) :
    |({T}.oneByOne [{T}.translate (-({V}.fromPoint c)), t, {T}.translate ({V}.fromPoint c)] p).toReal i -
        (c.toReal i + ∑ j, t.forward.toReal i.castSucc j.castSucc * (p.toReal j - c.toReal j) + t.forward.toReal i.castSucc {last})| ≤
      ((1 + uro S) ^ {3*k} - 1) * (|c.toReal i| + ∑ j, |t.forward.toReal i.castSucc j.castSucc| * (|p.toReal j| + |c.toReal j|) + |t.forward.toReal i.castSucc {last}|) +
      {T}.stepSlack [{T}.translate (-({V}.fromPoint c)), t, {T}.translate ({V}.fromPoint c)] i.castSucc := by
  have hv : AllFinite ({V}.fromPoint c) := by rw [{V}.allFinite]; rw [{P}.allFinite] at hc; exact hc
  have hnv : AllFinite (-({V}.fromPoint c)) := by
    rw [{V}.allFinite] at hv ⊢; exact {negs}
  have := C111_one_by_one{n} [{T}.translate (-({V}.fromPoint c)), t, {T}.translate ({V}.fromPoint c)] (by
    intro u hu
    have h1 : ∀ v : {V} S, AllFinite v → AllFinite ({M}.translate v) ∧ ({M}.translate v).toReal {last} = {aff} := fun v hv => by
      refine ⟨{M}.translate_fin hv, ?_⟩
      rw [{M}.translate_toReal]; funext j; fin_cases j <;> rfl
    simp only [List.mem_cons, List.not_mem_nil, or_false] at hu
    rcases hu with rfl | rfl | rfl
    · exact h1 _ hnv
    · exact ⟨ht, haff⟩
    · exact h1 _ hv) p h i
  rw [({T}.about_exact t haff c p i).1, ({T}.about_exact t haff c p i).2] at this
  exact this
end

'''
out+='end VecMath\n'
open('/tmp/d/FloatPivot.lean','w').write(out)
